import Verif.Model.Display
import Verif.Spec.Failure
import Verif.Spec.History
/-!
# What the message of a frame error tells

The reason and the last activity, in terms of the file and the records of its stream.
`Display.Fmt` stands for text made by the standard library.
-/
namespace Boxcars.Spec

/-- A number in decimal. -/
def decimal (i : Int) : Str := (toString i).toList

/-- The names with a property, each once, in alphabetical order. -/
structure Listing (P : Str → Prop) (l : List Str) : Prop where
  sorted : l.Pairwise (· < ·)
  mem : ∀ m, m ∈ l ↔ P m

/-- Some class has an attribute of this name with stream id `s`. -/
def Declares (body : ReplayBody) (s : StreamId) (m : Str) : Prop :=
  ∃ o c tag ob, ClassOf body o c ∧ c.attr s = some (tag, ob) ∧ body.objects[ob.toNat]? = some m

/-- Separated by commas. -/
def commas (l : List Str) : Str := (", ".toList).intercalate l

/-- All names that attributes with stream id `s` have, and those of unknown type. -/
inductive Candidates (body : ReplayBody) (s : StreamId) : Str → Prop where
  | mk {all unknown} : Listing (Declares body s) all →
      Listing (fun m => Declares body s m ∧ attributeTag m = none) unknown →
      Candidates body s
        ("searching all attributes with the same stream id, ".toList
          ++ "unknown attributes: [".toList ++ commas unknown ++ "], ".toList
          ++ "all attributes with that stream id: [".toList
          ++ commas (all.map fun m => "(".toList ++ m ++ ")".toList) ++ "]. ".toList)

/-- What a message says about the reason of a failure. -/
inductive Reason (tagName : AttributeTag → Str) (body : ReplayBody) : FrameError → Str → Prop where
  | classless {a o n} : body.objects[o.toNat]? = some n → (∀ c, ¬ClassOf body o c) →
      Reason tagName body (.missingCache a o) ("(".toList ++ n ++ ")".toList)
  | undeclared {a o s n c cs} : body.objects[o.toNat]? = some n → ClassOf body o c →
      c.attr s = none → Candidates body s cs →
      Reason tagName body (.missingAttribute a o s)
        ("did not find attribute id (".toList ++ decimal s.toInt ++ ") on ".toList ++ n
          ++ " in object hierarchy: ".toList ++ cs)
  | unimplemented {a o s ob c m} : ClassOf body o c → c.attr s = some (.notImplemented, ob) →
      body.objects[ob.toNat]? = some m → attributeTag m = none →
      Reason tagName body (.missingAttribute a o s) ("attribute: ".toList ++ m ++ "\n".toList)
  | value {a o s tag ob n c cs e} : body.objects[o.toNat]? = some n → ClassOf body o c →
      c.attr s = some (tag, ob) → tag ≠ .notImplemented → Candidates body s cs →
      Reason tagName body (.attributeError a o s e)
        ("found attribute (".toList ++ tagName tag ++ ") on ".toList ++ n
          ++ " in network cache data. ".toList ++ cs)
  | short {m} : Reason tagName body (.notEnoughDataFor m) []
  | time {x} : Reason tagName body (.timeOutOfRange x) []
  | delta {x} : Reason tagName body (.deltaOutOfRange x) []
  | object {o} : (∀ n, body.objects[o.toNat]? ≠ some n) →
      Reason tagName body (.objectIdOutOfRange o) []
  | actor {a} : Reason tagName body (.missingActor a) []

/-! ## The last activity -/

/-- What is shown of the work before the failure: an update, with the object of its actor,
or an announcement. -/
inductive Activity where
  | update (u : UpdatedAttribute) (object : Option ObjectId)
  | announce (a : NewActor)

/-- All objects mentioned are listed in the file. -/
def Activity.Listed (objects : List Str) : Activity → Prop
  | .update u object => u.objectId.toNat < objects.length ∧
      ∀ o, object = some o → o.toNat < objects.length
  | .announce a => a.objectId.toNat < objects.length

/-- The name of an object. -/
def nameIn (objects : List Str) (o : ObjectId) : Str := (objects[o.toNat]?).getD []

/-- A line of text: a heading and a value. -/
def entry (heading : String) (value : Str) : Str := heading.toList ++ value ++ ['\n']

/-- The text for an activity. -/
def Activity.text (F : Display.Fmt) (objects : List Str) : Activity → Str
  | .update u object =>
    entry "" [] ++ entry "Last actor update:" [] ++ entry "------------------" []
      ++ entry "actor id: " (decimal u.actorId.toInt)
      ++ (match object with
          | some o => entry "object id: " (decimal o.toInt)
              ++ entry "object name: " (nameIn objects o)
          | none => entry "object id: <none>" [])
      ++ entry "attribute stream id: " (decimal u.streamId.toInt)
      ++ entry "attribute object id: " (decimal u.objectId.toInt)
      ++ entry "attribute object name: " (nameIn objects u.objectId)
      ++ entry "attribute: " (F.attr u.attr)
  | .announce a =>
    entry "" [] ++ entry "Last new actor:" [] ++ entry "---------------" []
      ++ entry "actor id: " (decimal a.actorId.toInt)
      ++ entry "name id: " (match a.nameId with
          | some x => decimal x.toInt
          | none => "<none>".toList)
      ++ entry "object id: " (decimal a.objectId.toInt)
      ++ entry "object name: " (nameIn objects a.objectId)
      ++ entry "location: " (F.location a.initialTrajectory.location)
      ++ entry "rotation: " (F.rotation a.initialTrajectory.rotation)

/-- The last activity of the records `es`, which follow the records `before`: the last
update if there is one, and otherwise the last announcement.  `owner` gives the object of
an actor after a history. -/
inductive LastActivity (owner : List Event → ActorId → Option ObjectId) (before es : List Event) :
    Activity → Prop where
  | update {es1 id us u es2} : es = es1 ++ .update id (us ++ [u]) :: es2 → updates es2 = [] →
      LastActivity owner before es (.update u (owner (before ++ es1) id))
  | announce {es1 a es2} : updates es = [] → es = es1 ++ .new a :: es2 → news es2 = [] →
      LastActivity owner before es (.announce a)

/-- Records without updates and announcements. -/
def Quiet (es : List Event) : Prop := updates es = [] ∧ news es = []

/-- The text about the activity before a failure: that of the failing frame, of which the
records `es` were read, or else of the last completed frame with any. -/
inductive ActivityText (F : Display.Fmt) (objects : List Str)
    (owner : List Event → ActorId → Option ObjectId) (fs : List Frame) (ess : List (List Event))
    (es : List Event) : Str → Prop where
  | current {a} : LastActivity owner ess.flatten es a → a.Listed objects →
      ActivityText F objects owner fs ess es (a.text F objects)
  | retrace {pre esi post f a} : Quiet es → ess = pre ++ esi :: post → (∀ q ∈ post, Quiet q) →
      fs[pre.length]? = some f → LastActivity owner pre.flatten esi a → a.Listed objects →
      ActivityText F objects owner fs ess es (entry "- No actor information decoded" []
        ++ entry "Retrace frame: " (decimal pre.length ++ " (time: ".toList ++ F.f32 f.time
          ++ ", delta: ".toList ++ F.f32 f.delta ++ ")".toList)
        ++ a.text F objects)
  | none : Quiet es → (∀ q ∈ ess, Quiet q) →
      ActivityText F objects owner fs ess es (entry "- No actor information decoded" [])

/-- The first line: the number of completed frames and time and delta of the last one. -/
def positionText (F : Display.Fmt) (fs : List Frame) : Str :=
  entry "Current frame: " (decimal fs.length ++ " (time: ".toList
    ++ F.f32 (match fs.getLast? with | some f => f.time | none => 0) ++ " delta: ".toList
    ++ F.f32 (match fs.getLast? with | some f => f.delta | none => 0) ++ ")".toList)

/-- The records of the failing frame: the complete ones and the updates of the failing one. -/
def recordsRead (es : List Event) : List UpdatedAttribute → List Event
  | [] => es
  | u :: us => es ++ [.update u.actorId (u :: us)]

/-- The record deletes or announces the actor. -/
def Touches (id : ActorId) : Event → Prop
  | .new a => a.actorId = id
  | .delete d => d = id
  | .update _ _ => False

end Boxcars.Spec
