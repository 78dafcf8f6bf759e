import Verif.Model.Parser
import Verif.Model.Display
/-!
# Model of the example programs, `examples/`

`names.rs`, `property_counter.rs`, `ping.rs` and `demo.rs`; `json.rs` is in
`Model/Json.lean`.  Standard input and the files read are byte lists; writing does not fail.
What is printed is a list of lines.  `HashMap`s are association lists.  `ping.rs` prints its map
in an unspecified order, so the map is the result here; of the lines of `demo.rs` the time is
kept as a number, its two decimals are not modelled, nor is the line with their number, nor what
goes to standard error.  `unwrap` of `None` is `Fault.unreachable`.
-/
namespace Boxcars.Examples

/-- How a program ends. -/
inductive Exit where
  | success
  /-- an error of the parser leaves `main` -/
  | parse (e : ParseError)
  /-- an error made from a text leaves `main` -/
  | failed (msg : String)
  | fault (f : Fault)
  deriving DecidableEq, Repr

/-- Lines printed and the end. -/
structure Run where
  lines : List Str
  exit : Exit
  deriving DecidableEq, Repr

/-- One part of a program after another. -/
def Run.andThen (a b : Run) : Run :=
  match a.exit with
  | .success => ⟨a.lines ++ b.lines, b.exit⟩
  | _ => a

/-- `find_object_id`, `examples/ping.rs:16-24`, `examples/demo.rs:30-36`, and
`player_name_object_id`, `examples/names.rs:46-56`: the index of the name as object id. -/
def findObjectId (objects : List Str) (name : String) : Option ObjectId :=
  (objects.findIdx? (· == lit name)).map (BitVec.ofNat 32)

/-! ## `examples/names.rs` -/

/-- `names_in_header`, lines 13-19. -/
def namesInHeader (stats : List (List (Str × HeaderProp))) : List Str :=
  ((stats.flatten.filter (fun p => p.1 == lit "Name")).map Prod.snd).filterMap HeaderProp.asString

/-- The value of a `String` attribute, lines 28-35. -/
def stringAttr : Attribute → Option Str
  | .string s => some s
  | _ => none

/-- `names_in_network`, lines 23-42. -/
def namesInNetwork (frames : List Frame) (id : ObjectId) : List Str :=
  Display.dedup (Display.sort
    (((frames.flatMap Frame.updatedActors).filter (fun u => u.objectId == id)).filterMap
      (fun u => stringAttr u.attr)))

/-- The header part of `main`, lines 67-85. -/
def namesHeader (r : Replay) : Run :=
  match r.properties.find? (fun p => p.1 == lit "PlayerStats") with
  | some (_, stats) =>
    match stats with
    | .array arr => ⟨lit "Names in the header data:" :: namesInHeader arr, .success⟩
    | _ => ⟨[lit "Names in the header data:"], .failed "expected player stats to be an array"⟩
  | none => ⟨[lit "No player names found in the header"], .success⟩

/-- The network part of `main`, lines 87-96. -/
def namesNetwork (r : Replay) : Run :=
  match r.networkFrames with
  | some network =>
    match findObjectId r.objects "Engine.PlayerReplicationInfo:PlayerName" with
    | some id => ⟨lit "Names in the network data:" :: namesInNetwork network.frames id, .success⟩
    | none => ⟨[lit "Names in the network data:"],
        .failed "Expected Engine.PlayerReplicationInfo:PlayerName to be present in replay"⟩
  | none =>
    ⟨[lit "No player names found in the header as network data couldn't be decoded"], .success⟩

/-- `main`, lines 58-99. -/
def namesMain (env : Env) (data : List Byte) : Run :=
  match ParserBuilder.new.onErrorCheckCrc.ignoreNetworkDataOnError.parse env data with
  | .ok r => (namesHeader r).andThen (namesNetwork r)
  | .err e => ⟨[], .parse e⟩
  | .fault f => ⟨[], .fault f⟩

/-! ## `examples/property_counter.rs` -/

/-- `HashMap<String, usize>`.  The counts do not overflow: there are fewer than `2^31` of them
in a file. -/
abbrev Counter := List (Str × Nat)

/-- `*counter.entry(k).or_default() += 1`, line 42. -/
def bump (k : Str) : Counter → Counter
  | [] => [(k, 1)]
  | (k', n) :: c => if k' = k then (k', n + 1) :: c else (k', n) :: bump k c

/-- `new_prefix`, lines 16-20. -/
def newPrefix (pre key : Str) : Str := if pre = [] then key else pre ++ lit ":" ++ key

mutual
/-- `count_properties`, lines 10-44. -/
def countProperties : List (Str × HeaderProp) → Str → Counter → Counter
  | [], _, c => c
  | (key, prop) :: props, pre, c => countProperties props pre (countProperty prop (newPrefix pre key) c)
/-- The body of the loop, lines 22-42. -/
def countProperty : HeaderProp → Str → Counter → Counter
  | .array inner, p, c => bump (p ++ lit ":array") (countElements inner p c)
  | .struct _ fields, p, c => bump (p ++ lit ":struct") (countProperties fields p c)
  | .bool _, p, c => bump (p ++ lit ":bool") c
  | .byte _ _, p, c => bump (p ++ lit ":byte") c
  | .float _, p, c => bump (p ++ lit ":float") c
  | .int _, p, c => bump (p ++ lit ":int") c
  | .name _, p, c => bump (p ++ lit ":name") c
  | .qword _, p, c => bump (p ++ lit ":qword") c
  | .str _, p, c => bump (p ++ lit ":str") c
/-- The loop over the elements of an array, lines 24-26. -/
def countElements : List (List (Str × HeaderProp)) → Str → Counter → Counter
  | [], _, c => c
  | e :: es, p, c => countElements es p (countProperties e p c)
end

/-- The state of the loop in `main`. -/
structure CounterSt where
  buffer : List Byte
  counter : Counter
  files : Nat
  lines : List Str
  deriving DecidableEq, Repr

/-- One file, lines 51-73: its name and its content, or the message if it cannot be read (then
nothing is read from it).  The buffer is cleared at the end of the loop body only. -/
def counterFile (fmt : Display.Fmt) (env : Env) (st : CounterSt) (file : Str × Except Str (List Byte)) :
    Res ParseError CounterSt :=
  match file.2 with
  | .error msg => .ok { st with
      lines := st.lines ++ [lit "unable to read file " ++ file.1 ++ lit ": " ++ msg] }
  | .ok content =>
    let buffer := st.buffer ++ content
    match ParserBuilder.new.neverCheckCrc.neverParseNetworkData.parse env buffer with
    | .err e => .ok { st with
        buffer := buffer
        lines := st.lines ++
          [lit "unable to parse file " ++ file.1 ++ lit ": " ++ Display.parseError fmt e] }
    | .ok r => .ok {
        buffer := []
        counter := countProperties r.properties [] st.counter
        files := st.files + 1
        lines := st.lines ++ [lit "Parsed: " ++ file.1] }
    | .fault f => .fault f

/-- The loop, lines 50-74. -/
def counterFiles (fmt : Display.Fmt) (env : Env) :
    CounterSt → List (Str × Except Str (List Byte)) → Res ParseError CounterSt
  | st, [] => .ok st
  | st, file :: files =>
    match counterFile fmt env st file with
    | .ok st => counterFiles fmt env st files
    | .err e => .err e
    | .fault f => .fault f

/-- Insert an entry into a list sorted by key. -/
def insertEntry (e : Str × Nat) : Counter → Counter
  | [] => [e]
  | a :: l => if Display.strLe e.1 a.1 then e :: a :: l else a :: insertEntry e l

/-- `counts.sort()`, lines 77-78.  Keys differ, so the counts do not matter for the order. -/
def sortEntries (c : Counter) : Counter := c.foldr insertEntry []

/-- `main`, lines 46-84. -/
def counterMain (fmt : Display.Fmt) (env : Env) (files : List (Str × Except Str (List Byte))) : Run :=
  match counterFiles fmt env ⟨[], [], 0, []⟩ files with
  | .ok st => ⟨st.lines ++ [lit "Parsed " ++ displayNat st.files ++ lit " files"]
      ++ (sortEntries st.counter).map (fun e => e.1 ++ lit ": " ++ displayNat e.2), .success⟩
  | .err e => ⟨[], .parse e⟩
  | .fault f => ⟨[], .fault f⟩

/-! ## `examples/ping.rs` -/

/-- `PlayerPings`, lines 9-14. -/
structure PlayerPings where
  actorId : ActorId
  name : Option Str
  pings : List Byte
  deriving DecidableEq, Repr

/-- `ExactSizeIterator::rposition` (standard library): look from the right, answer with the
index counted from the left. -/
def rposition {α : Type} (p : α → Bool) (l : List α) : Option Nat :=
  (l.reverse.findIdx? p).map (fun i => l.length - 1 - i)

/-- The name of an actor, lines 96-115. -/
def pingName (l : List PlayerPings) (actor : ActorId) (name : Str) : Res String (List PlayerPings) :=
  match rposition (fun x => x.actorId == actor && (x.name.isNone || x.name == some name))
      l.reverse with
  | some i =>
    match l[i]? with
    | some e => .ok (l.set i { e with name := some name })
    | none => .fault .index
  | none => .ok (l ++ [⟨actor, some name, []⟩])

/-- A ping, lines 116-131. -/
def pingPing (l : List PlayerPings) (actor : ActorId) (ping : Byte) : Res String (List PlayerPings) :=
  match rposition (fun x => x.actorId == actor) l.reverse with
  | some i =>
    match l[i]? with
    | some e => .ok (l.set i { e with pings := e.pings ++ [ping] })
    | none => .fault .index
  | none => .ok (l ++ [⟨actor, none, [ping]⟩])

/-- One update, lines 96-135. -/
def pingUpdate (nameId pingId : ObjectId) (l : List PlayerPings) (u : UpdatedAttribute) :
    Res String (List PlayerPings) :=
  if u.objectId = nameId then
    match u.attr with
    | .string name => pingName l u.actorId name
    | _ => .err "expected player name to be a string"
  else if u.objectId = pingId then
    match u.attr with
    | .byte ping => pingPing l u.actorId ping
    | _ => .err "expected ping to be a byte"
  else .ok l

/-- The loops over frames and updates, lines 94-137. -/
def pingUpdates (nameId pingId : ObjectId) :
    List PlayerPings → List UpdatedAttribute → Res String (List PlayerPings)
  | l, [] => .ok l
  | l, u :: us =>
    match pingUpdate nameId pingId l u with
    | .ok l => pingUpdates nameId pingId l us
    | .err e => .err e
    | .fault f => .fault f

/-- `entry(key).and_modify(|e| e.extend_from_slice(pings)).or_default()`, lines 147-152: a new
key gets the default, an empty list. -/
def pingEntry (key : Str) (pings : List Byte) : List (Str × List Byte) → List (Str × List Byte)
  | [] => [(key, [])]
  | (k, ps) :: m => if k = key then (k, ps ++ pings) :: m else (k, ps) :: pingEntry key pings m

/-- Grouping by name, lines 140-153. -/
def pingGroup (l : List PlayerPings) : List (Str × List Byte) :=
  l.foldl (fun m p => pingEntry (p.name.getD (lit "<unknown>")) p.pings m) []

/-- `main`, lines 26-160; the result is what is printed: the players and their pings. -/
def pingMain (env : Env) (data : List Byte) : List (Str × List Byte) × Exit :=
  match ParserBuilder.new.onErrorCheckCrc.mustParseNetworkData.parse env data with
  | .err e => ([], .parse e)
  | .fault f => ([], .fault f)
  | .ok r =>
    match findObjectId r.objects "Engine.PlayerReplicationInfo:PlayerName" with
    | none => ([], .failed "Expected Engine.PlayerReplicationInfo:PlayerName to be present in replay")
    | some nameId =>
      match findObjectId r.objects "Engine.PlayerReplicationInfo:Ping" with
      | none => ([], .failed "Expected Engine.PlayerReplicationInfo:Ping to be present in replay")
      | some pingId =>
        match r.networkFrames with
        | none => ([], .fault .unreachable)
        | some network =>
          match pingUpdates nameId pingId [] (network.frames.flatMap Frame.updatedActors) with
          | .ok l => (pingGroup l, .success)
          | .err e => ([], .failed e)
          | .fault f => ([], .fault f)

/-! ## `examples/demo.rs` -/

/-- `DemoEvent`, lines 24-28. -/
structure DemoEvent where
  time : F32
  attacker : ActorId
  victim : ActorId
  deriving DecidableEq, Repr

/-- `HashMap::insert`. -/
def insert {α β : Type} [DecidableEq α] (m : List (α × β)) (k : α) (v : β) : List (α × β) :=
  (k, v) :: m.filter (fun e => e.1 ≠ k)

/-- `HashMap::get`. -/
def get {α β : Type} [DecidableEq α] (m : List (α × β)) (k : α) : Option β :=
  (m.find? (fun e => e.1 = k)).map Prod.snd

/-- The object ids looked for, lines 47-58. -/
structure DemoIds where
  name : Option ObjectId
  car : Option ObjectId
  demolish : Option ObjectId
  fx : Option ObjectId
  customFx : Option ObjectId
  extended : Option ObjectId

/-- Lines 47-58. -/
def demoIds (objects : List Str) : DemoIds where
  name := findObjectId objects "Engine.PlayerReplicationInfo:PlayerName"
  car := findObjectId objects "Engine.Pawn:PlayerReplicationInfo"
  demolish := findObjectId objects "TAGame.Car_TA:ReplicatedDemolish"
  fx := findObjectId objects "TAGame.Car_TA:ReplicatedDemolishGoalExplosion"
  customFx := findObjectId objects "TAGame.Car_TA:ReplicatedDemolish_CustomFX"
  extended := findObjectId objects "TAGame.Car_TA:ReplicatedDemolishExtended"

/-- Lines 61-64. -/
structure DemoSt where
  carToPri : List (ActorId × ActorId)
  priToName : List (ActorId × Str)
  events : List DemoEvent
  deriving DecidableEq, Repr

/-- One update, lines 69-105. -/
def demoUpdate (ids : DemoIds) (time : F32) (st : DemoSt) (u : UpdatedAttribute) : DemoSt :=
  if some u.objectId = ids.car then
    match u.attr with
    | .activeActor a =>
      if a.actor ≠ -1 then { st with carToPri := insert st.carToPri u.actorId a.actor } else st
    | _ => st
  else if some u.objectId = ids.name then
    match u.attr with
    | .string name => { st with priToName := insert st.priToName u.actorId name }
    | _ => st
  else if some u.objectId = ids.demolish then
    match u.attr with
    | .demolish d => { st with events := st.events ++ [⟨time, d.attacker, d.victim⟩] }
    | _ => st
  else if some u.objectId = ids.fx ∨ some u.objectId = ids.customFx then
    match u.attr with
    | .demolishFx d => { st with events := st.events ++ [⟨time, d.attacker, d.victim⟩] }
    | _ => st
  else if some u.objectId = ids.extended then
    match u.attr with
    | .demolishExtended d =>
      { st with events := st.events ++ [⟨time, d.attackerPri.actor, d.victim.actor⟩] }
    | _ => st
  else st

/-- The loops, lines 67-107. -/
def demoFrames (ids : DemoIds) (st : DemoSt) (frames : List Frame) : DemoSt :=
  frames.foldl (fun st f => f.updatedActors.foldl (demoUpdate ids f.time) st) st

/-- `resolve_name`, lines 114-127. -/
def resolveName (st : DemoSt) (actor : ActorId) : Str :=
  if actor = -1 then lit "<environment>"
  else
    match get st.priToName actor with
    | some name => name
    | none =>
      match (get st.carToPri actor).bind (get st.priToName) with
      | some name => name
      | none => lit "<unknown " ++ displayInt actor.toInt ++ lit ">"

/-- A line of the output, line 133: time, attacker and victim. -/
structure DemoLine where
  time : F32
  attacker : Str
  victim : Str
  deriving DecidableEq, Repr

/-- `main`, lines 38-137. -/
def demoMain (env : Env) (data : List Byte) : List DemoLine × Exit :=
  match ParserBuilder.new.onErrorCheckCrc.mustParseNetworkData.parse env data with
  | .err e => ([], .parse e)
  | .fault f => ([], .fault f)
  | .ok r =>
    match r.networkFrames with
    | none => ([], .fault .unreachable)
    | some network =>
      let st := demoFrames (demoIds r.objects) ⟨[], [], []⟩ network.frames
      (st.events.map (fun e => ⟨e.time, resolveName st e.attacker, resolveName st e.victim⟩), .success)

end Boxcars.Examples
