import Verif.Model.Network
import Verif.Model.Serde
/-!
# Model of the error messages, `src/errors.rs`

`Display` of the error types (`source` is in `Model/ErrorSource.lean`).  Variants that nothing constructs
(`Model/Types.lean`) are left out.  A message is its text.  What the standard
library prints for an `f32` and the derived `Debug` output of attributes, tags,
locations and rotations is not modelled: they are fields of `Fmt`, about which nothing
is assumed.  Writing to the formatter does not fail.
-/
namespace Boxcars.Display

/-- Text produced by code outside the crate. -/
structure Fmt where
  /-- `{}` of an `f32` -/
  f32 : F32 → Str
  /-- `{:?}` of an `AttributeTag` -/
  tag : AttributeTag → Str
  /-- `{:?}` of an `Attribute` -/
  attr : Attribute → Str
  /-- `{:?}` of an `Option<Vector3i>` -/
  location : Option Vector3i → Str
  /-- `{:?}` of an `Option<Rotation>` -/
  rotation : Option Rotation → Str

/-- A string literal. -/
def t (s : String) : Str := s.toList

/-- `{}` of an `i32` and of the id types, `src/network/models.rs:274-278, 298-302, 321-325`. -/
def i32 (x : I32) : Str := displayInt x.toInt

/-- `writeln!` -/
def line (s : Str) : Str := s ++ t "\n"

/-- `"-".repeat(n)` -/
def dashes (n : Nat) : Str := List.replicate n '-'

/-- `[..].join(", ")` -/
def join : List Str → Str
  | [] => []
  | [s] => s
  | s :: ss => s ++ t ", " ++ join ss

/-- `Display` of `core::str::Utf8Error` (standard library). -/
def utf8Error (e : Utf8Error) : Str :=
  match e.errorLen with
  | some n => t "invalid utf-8 sequence of " ++ displayNat n ++ t " bytes from index "
      ++ displayNat e.validUpTo
  | none => t "incomplete utf-8 byte sequence from index " ++ displayNat e.validUpTo

/-- `Display for AttributeError`, `src/errors.rs:92-105`. -/
def attributeError : AttributeError → Str
  | .notEnoughDataFor m => t "Not enough data to decode attribute " ++ t m
  | .unrecognizedRemoteId id => t "Unrecognized remote id of " ++ displayNat id.toNat
  | .unimplemented => t "Does not have an attribute implementation"
  | .tooBigString n => t "Unexpected size for string: " ++ i32 n

/-- `objects.get(usize::from(id))`: `From<ObjectId> for usize` is `as usize`, so a negative
id is an index beyond every list (`src/network/models.rs:268-272`). -/
def nameOf (ctx : FrameContext) (id : ObjectId) : Option Str :=
  if 0 ≤ id.toInt then ctx.objects[id.toNat]? else none

/-- The cache of an object, `object_attributes.get(usize::from(id)).and_then(|x| x.as_ref())`. -/
def cacheOf (ctx : FrameContext) (id : ObjectId) : Option CacheInfo :=
  if 0 ≤ id.toInt then (ctx.objectAttributes[id.toNat]?).join else none

/-- `object_ind_to_string`, `src/errors.rs:118-125`. -/
def objectName (ctx : FrameContext) (id : ObjectId) : Str :=
  (nameOf ctx id).getD (t "Out of bounds")

/-- `display_new_actor`, `src/errors.rs:127-148`. -/
def newActor (f : Fmt) (ctx : FrameContext) (a : NewActor) : Str :=
  line [] ++ line (t "Last new actor:") ++ line (dashes (t "Last new actor:").length)
    ++ line (t "actor id: " ++ i32 a.actorId)
    ++ line (t "name id: " ++ (a.nameId.map i32).getD (t "<none>"))
    ++ line (t "object id: " ++ i32 a.objectId)
    ++ line (t "object name: " ++ objectName ctx a.objectId)
    ++ line (t "location: " ++ f.location a.initialTrajectory.location)
    ++ line (t "rotation: " ++ f.rotation a.initialTrajectory.rotation)

/-- `display_update`, `src/errors.rs:150-170`. -/
def update (f : Fmt) (ctx : FrameContext) (u : UpdatedAttribute) : Str :=
  line [] ++ line (t "Last actor update:") ++ line (dashes (t "Last actor update:").length)
    ++ line (t "actor id: " ++ i32 u.actorId)
    ++ (match ctx.actors.get u.actorId with
        | some obj => line (t "object id: " ++ i32 obj)
            ++ line (t "object name: " ++ objectName ctx obj)
        | none => line (t "object id: <none>"))
    ++ line (t "attribute stream id: " ++ i32 u.streamId)
    ++ line (t "attribute object id: " ++ i32 u.objectId)
    ++ line (t "attribute object name: " ++ objectName ctx u.objectId)
    ++ line (t "attribute: " ++ f.attr u.attr)

/-- `most_recent_frame_with_data`, `src/errors.rs:172-178`. -/
def mostRecent (ctx : FrameContext) : Option (Frame × Nat) :=
  ctx.frames.zipIdx.reverse.find? (fun p => !p.1.updatedActors.isEmpty || !p.1.newActors.isEmpty)

/-- `Display for FrameContext`, `src/errors.rs:181-217`. -/
def context (f : Fmt) (ctx : FrameContext) : Str :=
  line (t "Current frame: " ++ displayNat ctx.frames.length ++ t " (time: "
      ++ f.f32 ((ctx.frames.getLast?.map (·.time)).getD F32.zero) ++ t " delta: "
      ++ f.f32 ((ctx.frames.getLast?.map (·.delta)).getD F32.zero) ++ t ")")
    ++ (match ctx.updatedActors.getLast?, ctx.newActors.getLast? with
        | some u, _ => update f ctx u
        | none, some a => newActor f ctx a
        | none, none =>
          line (t "- No actor information decoded")
          ++ (match mostRecent ctx with
              | none => []
              | some (frame, i) =>
                line (t "Retrace frame: " ++ displayNat i ++ t " (time: " ++ f.f32 frame.time
                  ++ t ", delta: " ++ f.f32 frame.delta ++ t ")")
                ++ (match frame.updatedActors.getLast?, frame.newActors.getLast? with
                    | some u, _ => update f ctx u
                    | none, some a => newActor f ctx a
                    | none, none => line (t "- No actor information decoded"))))

/-- `Ord for String`: bytewise, which for UTF-8 is by code points. -/
def strLe (a b : Str) : Bool := Network.strGe b a

/-- Insert into a sorted list. -/
def insertSorted (s : Str) : List Str → List Str
  | [] => [s]
  | a :: l => if strLe s a then s :: a :: l else a :: insertSorted s l

/-- `slice::sort`.  The order is total, so every sorting method gives the same list. -/
def sort (l : List Str) : List Str := l.foldr insertSorted []

/-- `Vec::dedup`: drop elements equal to the one before. -/
def dedup : List Str → List Str
  | [] => []
  | [s] => [s]
  | s :: s' :: ss => if s = s' then dedup (s' :: ss) else s :: dedup (s' :: ss)

/-- The attributes with stream id `s` on any object, `src/errors.rs:276-281`. -/
def withStream (ctx : FrameContext) (s : StreamId) : List ObjectAttribute :=
  (ctx.objectAttributes.filterMap id).filterMap (fun c => c.attributes.get s)

/-- `obj_attr_names` after sorting, `src/errors.rs:318-324`. -/
def attrNames (ctx : FrameContext) (s : StreamId) : List Str :=
  dedup (sort ((withStream ctx s).filterMap (fun a => nameOf ctx a.objectId)))

/-- `unknown_attributes`, `src/errors.rs:326-334`. -/
def unknownNames (names : List Str) : List Str :=
  dedup (sort (names.filter (fun n => (attributeTag n).isNone)))

/-- `FrameError::contextualize`, `src/errors.rs:252-356`. -/
def contextualize (f : Fmt) (e : FrameError) (ctx : FrameContext) : Str :=
  let search (actorObject : ObjectId) (stream : StreamId) : Str :=
    let actorName := (nameOf ctx actorObject).getD (t "<none>")
    let rest :=
      t "searching all attributes with the same stream id, "
      ++ (t "unknown attributes: [" ++ join (unknownNames (attrNames ctx stream)) ++ t "], ")
      ++ (t "all attributes with that stream id: ["
        ++ join ((attrNames ctx stream).map (fun n => t "(" ++ n ++ t ")")) ++ t "]. ")
    match (cacheOf ctx actorObject).bind (fun c => c.attributes.get stream) with
    | some a =>
      if a.attr ≠ .notImplemented then
        (t "found attribute (" ++ f.tag a.attr ++ t ") on " ++ actorName
          ++ t " in network cache data. ") ++ rest
      else line (t "attribute: " ++ (nameOf ctx a.objectId).getD (t "<unknown>"))
    | none =>
      (t "did not find attribute id (" ++ i32 stream ++ t ") on " ++ actorName
        ++ t " in object hierarchy: ") ++ rest
  match e with
  | .missingCache _ obj =>
    match nameOf ctx obj with
    | some n => t "(" ++ n ++ t ")"
    | none => []
  | .missingAttribute _ obj s => search obj s
  | .attributeError _ obj s _ => search obj s
  | _ => []

/-- `Display for FrameError`, `src/errors.rs:368-387`. -/
def frameError (f : Fmt) : FrameError → Str
  | .notEnoughDataFor m => t "not enough data to decode " ++ t m
  | .timeOutOfRange x => t "time is out of range: " ++ f.f32 x
  | .deltaOutOfRange x => t "delta is out of range: " ++ f.f32 x
  | .objectIdOutOfRange o => t "new actor object id out of range: " ++ i32 o
  | .missingActor a => t "attribute update references unknown actor: " ++ i32 a
  | .missingCache a o => t "no known attributes found for actor id / object id: " ++ i32 a
      ++ t " / " ++ i32 o
  | .missingAttribute a o s =>
    line (t "attribute unknown or not implemented:") ++ line (dashes 10)
      ++ line (t "actor id: " ++ i32 a) ++ line (t "actor object id: " ++ i32 o)
      ++ line (t "attribute stream id: " ++ i32 s)
  | .attributeError a o s e => t "attribute decoding error encountered: " ++ attributeError e
      ++ t " for actor id / actor object id / attribute id: " ++ i32 a ++ t " / " ++ i32 o
      ++ t " / " ++ i32 s

/-- `Display for NetworkError`, `src/errors.rs:409-444`. -/
def networkError (f : Fmt) : NetworkError → Str
  | .streamTooLargeIndex s o => t "Stream id of " ++ i32 s
      ++ t " references out of range object index: " ++ i32 o
  | .tooManyFrames n => t "Too many frames to decode: " ++ i32 n
  | .frameError e ctx =>
    t "Error decoding frame: " ++ frameError f e
      ++ (match e with
          | .missingAttribute .. => []
          | _ => t ". ")
      ++ contextualize f e ctx ++ line [] ++ context f ctx

/-- `Display for ParseError`, `src/errors.rs:24-58`. -/
def parseError (f : Fmt) : ParseError → Str
  | .utf8Error e => t "Unable decode data as utf8: " ++ utf8Error e
  | .textTooLarge n => t "Text of size " ++ i32 n ++ t " is too large"
  | .insufficientData e l => t "Insufficient data. Expected " ++ i32 e ++ t " bytes, but only "
      ++ i32 l ++ t " left"
  | .unexpectedProperty p => t "Did not expect a property of: " ++ p
  | .crcMismatch e g => t "Crc mismatch. Expected " ++ displayNat e.toNat ++ t " but received "
      ++ displayNat g.toNat
  | .corruptReplay s _ => t "Failed to parse " ++ t s ++ t " and crc check failed. Replay is corrupt"
  | .listTooLarge n => t "list of size " ++ displayNat n ++ t " is too large"
  | .parseError s o e => t "Could not decode replay " ++ t s ++ t " at offset (" ++ i32 o ++ t "): "
      ++ parseError f e
  | .networkError e => networkError f e

end Boxcars.Display
