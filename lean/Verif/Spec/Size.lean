import Verif.Model.Types
import Verif.Spec.Text
/-!
# How large a replay is

The number of entries of all lists of a replay, at any depth, and of the UTF-8 bytes of all its
texts.  Everything else has a fixed size.
-/
namespace Boxcars.Spec

/-- A text: an entry and its bytes. -/
def textSize (s : Str) : Nat := 1 + (utf8 s).length

/-- The sizes of the elements of a list together. -/
def sizes {α : Type} (f : α → Nat) (xs : List α) : Nat := (xs.map f).sum

mutual
/-- Header properties. -/
def propsSize : List (Str × HeaderProp) → Nat
  | [] => 0
  | (key, v) :: ps => textSize key + valSize v + propsSize ps
/-- The value of a property. -/
def valSize : HeaderProp → Nat
  | .array es => elemsSize es
  | .struct n fs => textSize n + propsSize fs
  | .byte k none => textSize k
  | .byte k (some v) => textSize k + textSize v
  | .name s => textSize s
  | .str s => textSize s
  | _ => 1
/-- The elements of an array. -/
def elemsSize : List (List (Str × HeaderProp)) → Nat
  | [] => 0
  | e :: es => 1 + propsSize e + elemsSize es
end

/-- A player id. -/
def remoteSize : RemoteId → Nat
  | .playStation _ n u => textSize n + u.length
  | .psyNet _ u => u.length
  | .switch _ u => u.length
  | .epic s => textSize s
  | _ => 0

def uniqueIdSize (u : UniqueId) : Nat := 1 + remoteSize u.remoteId

def productSize (p : Product) : Nat :=
  1 + match p.value with
    | .title s => textSize s
    | _ => 0

/-- Lists of products. -/
def productsSize (ps : List (List Product)) : Nat := sizes (fun l => 1 + sizes productSize l) ps

/-- An attribute value. -/
def attrSize : Attribute → Nat
  | .string s => textSize s
  | .uniqueId u => uniqueIdSize u
  | .reservation r => uniqueIdSize r.uniqueId + (match r.name with | some n => textSize n | none => 0)
  | .partyLeader (some u) => uniqueIdSize u
  | .privateMatch p => textSize p.mutators + textSize p.gameName + textSize p.password
  | .loadoutOnline l => 1 + productsSize l
  | .loadoutsOnline l => 1 + productsSize l.blue + productsSize l.orange
  | .repStatTitle t => textSize t.name
  | _ => 1

/-- A frame with its actors and updates. -/
def frameSize (f : Frame) : Nat :=
  1 + f.newActors.length + f.deletedActors.length +
    sizes (fun u => attrSize u.attr) f.updatedActors

/-- A replay without its network data. -/
def filePartSize (r : Replay) : Nat :=
  textSize r.gameType + propsSize r.properties + sizes textSize r.levels + r.keyframes.length +
  sizes (fun d => textSize d.user + textSize d.text) r.debugInfo +
  sizes (fun t => textSize t.description) r.tickMarks + sizes textSize r.packages +
  sizes textSize r.objects + sizes textSize r.names +
  sizes (fun c => textSize c.cls) r.classIndices +
  sizes (fun c => 1 + c.properties.length) r.netCache

/-- The network data of a replay. -/
def framesSize (r : Replay) : Nat :=
  match r.networkFrames with
  | some n => sizes frameSize n.frames
  | none => 0

end Boxcars.Spec
