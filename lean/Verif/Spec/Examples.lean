import Verif.Model.Examples
import Verif.Spec.Message
/-!
# What the example programs are for

In terms of the replay: which object an update is about is told by the name of the object.
-/
namespace Boxcars.Spec
open Examples (Exit)

def playerName : Str := "Engine.PlayerReplicationInfo:PlayerName".toList
def playerPing : Str := "Engine.PlayerReplicationInfo:Ping".toList
def carPlayer : Str := "Engine.Pawn:PlayerReplicationInfo".toList

/-- All updates of a replay with the time of their frame, in the order of the frames. -/
def updatesOf (r : Replay) : List (F32 × UpdatedAttribute) :=
  match r.networkFrames with
  | some n => n.frames.flatMap (fun f => f.updatedActors.map (fun u => (f.time, u)))
  | none => []

/-- The name of the object an update is about. -/
def objectOf (r : Replay) (u : UpdatedAttribute) : Option Str := r.objects[u.objectId.toNat]?

/-- The table of objects has the name at most once. -/
def Once (objects : List Str) (name : Str) : Prop :=
  ∀ i j : Nat, objects[i]? = some name → objects[j]? = some name → i = j

/-! ## names -/

/-- A player name the network data announces. -/
def Announced (r : Replay) (m : Str) : Prop :=
  ∃ t u, (t, u) ∈ updatesOf r ∧ objectOf r u = some playerName ∧ u.attr = .string m

/-- A text among the header values. -/
def headerText : HeaderProp → Option Str
  | .name s => some s
  | .str s => some s
  | _ => none

/-- The first property of that name. -/
def FirstProp (ps : List (Str × HeaderProp)) (key : Str) (v : HeaderProp) : Prop :=
  ∃ before after, ps = before ++ (key, v) :: after ∧ ∀ p ∈ before, p.1 ≠ key

/-- What is printed about the header. -/
inductive HeaderNames (r : Replay) : List Str → Exit → Prop where
  | absent : (∀ p ∈ r.properties, p.1 ≠ "PlayerStats".toList) →
      HeaderNames r ["No player names found in the header".toList] .success
  | listed {arr} : FirstProp r.properties "PlayerStats".toList (.array arr) →
      HeaderNames r ("Names in the header data:".toList ::
        arr.flatMap (fun e => e.filterMap fun p =>
          if p.1 = "Name".toList then headerText p.2 else none)) .success
  | other {v} : FirstProp r.properties "PlayerStats".toList v → (∀ arr, v ≠ .array arr) →
      HeaderNames r ["Names in the header data:".toList]
        (.failed "expected player stats to be an array")

/-- What is printed about the network data. -/
inductive NetworkNames (r : Replay) : List Str → Exit → Prop where
  | absent : r.networkFrames = none → NetworkNames r
      ["No player names found in the header as network data couldn't be decoded".toList] .success
  | unlisted {n} : r.networkFrames = some n → playerName ∉ r.objects → NetworkNames r
      ["Names in the network data:".toList]
      (.failed "Expected Engine.PlayerReplicationInfo:PlayerName to be present in replay")
  | listed {n l} : r.networkFrames = some n → playerName ∈ r.objects → Listing (Announced r) l →
      NetworkNames r ("Names in the network data:".toList :: l) .success

/-- What is printed: the network data only if the header was fine. -/
inductive NamesRun (r : Replay) : Examples.Run → Prop where
  | both {l₁ l₂ e} : HeaderNames r l₁ .success → NetworkNames r l₂ e → NamesRun r ⟨l₁ ++ l₂, e⟩
  | header {l e} : HeaderNames r l e → e ≠ .success → NamesRun r ⟨l, e⟩

/-! ## properties -/

mutual
/-- All properties of a list, at any depth: the keys leading there, and the kind. -/
def nodes : List (Str × HeaderProp) → List (List Str × Str)
  | [] => []
  | (key, v) :: ps => nodesAt key v ++ nodes ps
/-- A property and those within. -/
def nodesAt (key : Str) : HeaderProp → List (List Str × Str)
  | .array es => ([key], "array".toList) :: (nodesIn es).map (fun n => (key :: n.1, n.2))
  | .struct _ fs => ([key], "struct".toList) :: (nodes fs).map (fun n => (key :: n.1, n.2))
  | .bool _ => [([key], "bool".toList)]
  | .byte _ _ => [([key], "byte".toList)]
  | .float _ => [([key], "float".toList)]
  | .int _ => [([key], "int".toList)]
  | .name _ => [([key], "name".toList)]
  | .qword _ => [([key], "qword".toList)]
  | .str _ => [([key], "str".toList)]
/-- Those of the elements of an array. -/
def nodesIn : List (List (Str × HeaderProp)) → List (List Str × Str)
  | [] => []
  | e :: es => nodes e ++ nodesIn es
end

/-- What a property is counted as: keys and kind with colons in between.  Empty keys at the
beginning are left out. -/
def label (n : List Str × Str) : Str :=
  (":".toList).intercalate (n.1.dropWhile (· = [])) ++ (":".toList ++ n.2)

/-- Every label once, in alphabetical order, with the number of times it occurs. -/
structure Tally (ls : List Str) (out : List (Str × Nat)) : Prop where
  sorted : (out.map Prod.fst).Pairwise (· < ·)
  mem : ∀ k n, (k, n) ∈ out ↔ k ∈ ls ∧ n = ls.count k

/-- A file: its name, and its content or the reason why it cannot be read. -/
abbrev Argument := Str × Except Str (List Byte)

/-- Header and body of a file, without looking at checksums. -/
def readFile (env : Env) (data : List Byte) : Res ParseError Replay :=
  (ParserBuilder.mk (some .never) (some .never)).parse env data

/-- What is printed about a file. -/
inductive FileLine (fmt : Display.Fmt) (env : Env) : Argument → Str → Prop where
  | parsed {name d r} : readFile env d = .ok r →
      FileLine fmt env (name, .ok d) ("Parsed: ".toList ++ name)
  | rejected {name d e} : readFile env d = .err e → FileLine fmt env (name, .ok d)
      ("unable to parse file ".toList ++ name ++ ": ".toList ++ Display.parseError fmt e)
  | unread {name msg} : FileLine fmt env (name, .error msg)
      ("unable to read file ".toList ++ name ++ ": ".toList ++ msg)

/-- What all the properties of a file are counted as; nothing if it is not a replay. -/
def fileLabels (env : Env) (f : Argument) : List Str :=
  match f.2 with
  | .ok d =>
    match readFile env d with
    | .ok r => (nodes r.properties).map label
    | _ => []
  | .error _ => []

/-- The file can be read and is a replay. -/
def isReplay (env : Env) (f : Argument) : Bool :=
  match f.2 with
  | .ok d =>
    match readFile env d with
    | .ok _ => true
    | _ => false
  | .error _ => false

/-- The file can be read but is not a replay. -/
def Rejected (env : Env) (f : Argument) : Prop := ∃ d e, f.2 = .ok d ∧ readFile env d = .err e

/-- What follows the lines about the files: how many were replays, and the sums. -/
inductive Summary : Nat → List Str → List Str → Prop where
  | mk {n ls out} : Tally ls out → Summary n ls
      (("Parsed ".toList ++ decimal n ++ " files".toList) ::
        out.map (fun e => e.1 ++ ": ".toList ++ decimal e.2))

/-- Each file on its own, their number, and the sums. -/
inductive CounterRun (fmt : Display.Fmt) (env : Env) (files : List Argument) : Examples.Run → Prop where
  | mk {lines sums} : List.Forall₂ (FileLine fmt env) files lines →
      Summary (files.filter (isReplay env)).length (files.flatMap (fileLabels env)) sums →
      CounterRun fmt env files ⟨lines ++ sums, .success⟩

/-- What is printed about a file when an earlier one is to blame. -/
inductive StuckLine (fmt : Display.Fmt) (e : ParseError) : Argument → Str → Prop where
  | rejected {name d} : StuckLine fmt e (name, .ok d)
      ("unable to parse file ".toList ++ name ++ ": ".toList ++ Display.parseError fmt e)
  | unread {name msg} : StuckLine fmt e (name, .error msg)
      ("unable to read file ".toList ++ name ++ ": ".toList ++ msg)

/-- All that could be read. -/
def contents (files : List Argument) : List Byte :=
  files.flatMap fun f => match f.2 with | .ok d => d | .error _ => []

/-! ## pings -/

/-- Every player whose name is announced for one actor only, that being the only name of the
actor, is listed with exactly the pings of that actor, in order. -/
def PingsListed (r : Replay) (out : List (Str × List Byte)) : Prop :=
  ∀ a m, (∀ t u x, (t, u) ∈ updatesOf r → objectOf r u = some playerName → u.attr = .string x →
      (u.actorId = a ↔ x = m)) → (∃ t u, (t, u) ∈ updatesOf r ∧ u.actorId = a ∧
      objectOf r u = some playerName ∧ u.attr = .string m) →
    (m, (updatesOf r).filterMap fun x =>
      match x.2.attr with
      | .byte p => if x.2.actorId = a ∧ objectOf r x.2 = some playerPing then some p else none
      | _ => none) ∈ out

/-- Who is announced under which name. -/
def announcements (r : Replay) (us : List UpdatedAttribute) : List (ActorId × Str) :=
  us.filterMap fun u =>
    match u.attr with
    | .string m => if objectOf r u = some playerName then some (u.actorId, m) else none
    | _ => none

/-- Everyone is announced once, before their first ping, and all under different names. -/
structure Orderly (r : Replay) (us : List UpdatedAttribute) : Prop where
  actors : ((announcements r us).map Prod.fst).Nodup
  names : ((announcements r us).map Prod.snd).Nodup
  before : ∀ pre u post, us = pre ++ u :: post → objectOf r u = some playerPing →
    u.actorId ∈ (announcements r pre).map Prod.fst

/-! ## demolitions -/

/-- Attacker and victim, if the update is about a demolition. -/
def demolition (r : Replay) (u : UpdatedAttribute) : Option (ActorId × ActorId) :=
  match objectOf r u, u.attr with
  | some n, .demolish d =>
    if n = "TAGame.Car_TA:ReplicatedDemolish".toList then some (d.attacker, d.victim) else none
  | some n, .demolishFx d =>
    if n = "TAGame.Car_TA:ReplicatedDemolishGoalExplosion".toList ∨
      n = "TAGame.Car_TA:ReplicatedDemolish_CustomFX".toList
    then some (d.attacker, d.victim) else none
  | some n, .demolishExtended d =>
    if n = "TAGame.Car_TA:ReplicatedDemolishExtended".toList
    then some (d.attackerPri.actor, d.victim.actor) else none
  | _, _ => none

/-- The objects about demolitions. -/
def demolitionNames : List Str :=
  ["TAGame.Car_TA:ReplicatedDemolish".toList,
   "TAGame.Car_TA:ReplicatedDemolishGoalExplosion".toList,
   "TAGame.Car_TA:ReplicatedDemolish_CustomFX".toList,
   "TAGame.Car_TA:ReplicatedDemolishExtended".toList]

/-- The last value the updates give. -/
def Last {β : Type} (f : UpdatedAttribute → Option β) (us : List UpdatedAttribute) (b : Option β) :
    Prop := b = (us.filterMap f).getLast?

/-- The name an update announces for an actor. -/
def nameFor (r : Replay) (a : ActorId) (u : UpdatedAttribute) : Option Str :=
  match u.attr with
  | .string m => if u.actorId = a ∧ objectOf r u = some playerName then some m else none
  | _ => none

/-- The player an update announces for a car. -/
def playerFor (r : Replay) (a : ActorId) (u : UpdatedAttribute) : Option ActorId :=
  match u.attr with
  | .activeActor x =>
    if u.actorId = a ∧ objectOf r u = some carPlayer ∧ x.actor ≠ -1 then some x.actor else none
  | _ => none

/-- What an actor is called at the end of the replay. -/
inductive CalledAtEnd (r : Replay) (a : ActorId) : Str → Prop where
  | environment : a = -1 → CalledAtEnd r a "<environment>".toList
  | player {m} : a ≠ -1 → Last (nameFor r a) ((updatesOf r).map Prod.snd) (some m) →
      CalledAtEnd r a m
  | car {p m} : a ≠ -1 → Last (nameFor r a) ((updatesOf r).map Prod.snd) none →
      Last (playerFor r a) ((updatesOf r).map Prod.snd) (some p) →
      Last (nameFor r p) ((updatesOf r).map Prod.snd) (some m) → CalledAtEnd r a m
  | unnamed {p} : a ≠ -1 → Last (nameFor r a) ((updatesOf r).map Prod.snd) none →
      Last (playerFor r a) ((updatesOf r).map Prod.snd) (some p) →
      Last (nameFor r p) ((updatesOf r).map Prod.snd) none →
      CalledAtEnd r a ("<unknown ".toList ++ decimal a.toInt ++ ">".toList)
  | unknown : a ≠ -1 → Last (nameFor r a) ((updatesOf r).map Prod.snd) none →
      Last (playerFor r a) ((updatesOf r).map Prod.snd) none →
      CalledAtEnd r a ("<unknown ".toList ++ decimal a.toInt ++ ">".toList)

/-- A line of the output for a demolition. -/
structure DemolitionLine (r : Replay) (d : F32 × ActorId × ActorId) (l : Examples.DemoLine) :
    Prop where
  time : l.time = d.1
  attacker : CalledAtEnd r d.2.1 l.attacker
  victim : CalledAtEnd r d.2.2 l.victim

end Boxcars.Spec
