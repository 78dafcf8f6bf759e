import Verif.Proofs.AttrLength
import Verif.Proofs.Alive
import Verif.Proofs.CutLast
import Verif.Props.Frames
import Verif.Props.Values
/-!
# C93: exactly which attribute values occur
-/
namespace Boxcars.Props
open Boxcars Spec

variable {data : Bytes} {env : Env} {check : CrcCheck} {np : NetworkParse} {r : Replay}
  {fs : List Frame}

/-- C93. If the linear velocity of an awake body is missing, the angular velocity is slow: the bits of
the one are those of the other. -/
theorem cut_slow (hs : data.length ≤ env.isizeMax) (h : parseWith check np env data = .ok r)
    (hf : r.networkFrames = some ⟨fs⟩) {f : Frame} (hm : f ∈ fs) {u : UpdatedAttribute}
    (hu : u ∈ f.updatedActors) {b : RigidBody} (hb : u.attr = .rigidBody b)
    (hsl : b.sleeping = false) (hn : b.linearVelocity = none) {w : Vector3f}
    (hw : b.angularVelocity = some w) : Slow (r.netVersion.getD 0#32) w := by
  obtain ⟨blob, ⟨_, hp⟩, _⟩ := parse_network hs h hf
  cases hk : headerInt (headerOf r) "NumFrames" with
  | none =>
    rw [hk] at hp
    simp only at hp
    subst hp
    cases hm
  | some k =>
    rw [hk] at hp
    obtain ⟨_, _, c, n, o, h1, h2, h3⟩ := hp
    have hnet : c.net = r.netVersion.getD 0#32 := h1.net
    rw [← hnet]
    exact skipped_frames h3 hm hu ⟨b, hb, hsl, hn, hw⟩

/-- C93. The value of every update is one of those of its type in that version; the one
exception are rigid bodies that the end of the data cuts.  All of them occur (`value_occurs`,
`cut_body_occurs`). -/
theorem value_ranges (hs : data.length ≤ env.isizeMax) (h : parseWith check np env data = .ok r)
    (hf : r.networkFrames = some ⟨fs⟩) :
    ∃ c, CtxOf (headerOf r) (bodyOf r []) c ∧ ∀ f ∈ fs, ∀ u ∈ f.updatedActors,
      ∃ name tag, r.objects[u.objectId.toNat]? = some name ∧ attributeTag name = some tag ∧
        (ValueOf c tag u.attr ∨ (tag = .rigidBody ∧ ∃ b, u.attr = .rigidBody b ∧ CutBodyOf c b)) := by
  obtain ⟨blob, c, n, ess, h1, h2, h3, h4, h5, h6, h7, h8, h9⟩ := replay_history hs h hf
  refine ⟨c, ⟨h2.major, h2.minor, h2.net, h2.color, h2.painted, h2.titleId, h2.special, h2.team,
    h2.rl223⟩, fun f hm u hu => ?_⟩
  obtain ⟨pre, post, rfl⟩ := List.append_of_mem hm
  obtain ⟨p, es, q, rfl, _, g2, _⟩ := records_split h5 rfl
  rw [g2.2.2, mem_updates] at hu
  obtain ⟨id, us, hu1, hu2⟩ := hu
  obtain ⟨a, b, rfl⟩ := List.append_of_mem hu1
  obtain ⟨j, k, he⟩ := h9 (p.flatten ++ a) (.update id us) (b ++ q.flatten) (by simp)
  cases he with
  | @update _ obj cd _ j _ e1 e2 e3 e4 =>
    obtain ⟨p1, p2, tag, j', k', p3, p4⟩ := propsRel_mem e4 hu2
    obtain ⟨name, ns, c1, c2, c3, c4, c5⟩ := (h3.cls obj cd).1 e3
    rw [c4] at p3
    obtain ⟨cp, hcp, hp⟩ := Option.map_eq_some_iff.1 p3
    rw [Prod.mk.injEq] at hp
    obtain ⟨rfl, hp⟩ := hp
    rw [hp] at p4
    have ht := hasType_of p4
    have hv := value_of_accepts p4
    unfold attrType at ht hv
    cases hx : (bodyOf r blob).objects[u.objectId.toNat]? with
    | none => rw [hx] at ht; exact absurd ht hasType_implemented
    | some nm =>
      rw [hx] at ht hv
      refine ⟨nm, ?_⟩
      simp only [Option.bind_some] at ht hv
      cases hy : attributeTag nm with
      | none => rw [hy] at ht; exact absurd ht hasType_implemented
      | some t =>
        rw [hy] at hv
        refine ⟨t, hx, rfl, hv.imp_right fun ⟨e, b, hb, hc⟩ => ⟨e, b, hb, hc, fun w e1 e2 => ?_⟩⟩
        have hu' : u ∈ f.updatedActors := by
          rw [g2.2.2, mem_updates]; exact ⟨id, us, hu1, hu2⟩
        have hnet : c.net = r.netVersion.getD 0#32 := h2.net
        rw [hnet]
        exact cut_slow hs h hf hm hu' hb hc.2.2.2.1 e1 e2

/-- C93. Every value of the type occurs: in any version and below any listed name. -/
theorem value_occurs (h64 : env.usizeBits = 64) (check : CrcCheck) {h : Header}
    (hh : HeaderOk h) {k : I32} (hk : headerInt h "NumFrames" = some k) (hk0 : 0 < k.toInt)
    {name : String} {tag : AttributeTag} (hm : (name, tag) ∈ attributesTable)
    {more : List Str} (hmore : ListOk TextOk more) (hl : more.length ≤ 24998)
    {c : Ctx} (hc : CtxOf h (probeBody name.toList more []) c) {v : Attribute}
    (hv : ValueOf c tag v)
    (hs : (encFile h (probeBody name.toList more [])).length + k.toNat ≤ 2 ^ 30) :
    ∃ data r f u, parseWith check .always env data = .ok r ∧ r.networkFrames = some ⟨[f]⟩ ∧
      f.updatedActors = [u] ∧ u.attr = v ∧ r.objects[u.objectId.toNat]? = some name.toList := by
  obtain ⟨w, hw⟩ := enc_of_value hv
  have hlen := attr_len hw
  have hb : valueBits [(v, w)] = w.length + 5 := rfl
  obtain ⟨data, r, f, h1, h2, h3, h4⟩ := values_recorded h64 check hh hk hk0 hm hmore hl hc [(v, w)]
    (fun p hp => by cases List.mem_singleton.1 hp; exact hw) (by rw [hb]; omega)
  cases hu : f.updatedActors with
  | nil => rw [hu] at h3; cases h3
  | cons u us =>
    rw [hu] at h3
    simp only [List.map_cons, List.map_nil, List.cons.injEq, List.map_eq_nil_iff] at h3
    rw [h3.2] at hu
    exact ⟨data, r, f, u, h1, h2, hu, h3.1, h4 u (by rw [hu]; exact List.mem_singleton_self u)⟩

/-- C93. What can be written is exactly what has the described form, type by type. -/
theorem value_iff_enc (d : Ctx) (tag : AttributeTag) (v : Attribute) :
    ValueOf d tag v ↔ ∃ bs, AttrEnc d tag v bs :=
  ⟨enc_of_value, fun ⟨_, h⟩ => value_of_enc h⟩

/-! ## For the user of the library -/

/-- C93. A sleeping body has no velocities; a body with both of them, or one, is awake. -/
theorem sleeping_still (hs : data.length ≤ env.isizeMax) (h : parseWith check np env data = .ok r)
    (hf : r.networkFrames = some ⟨fs⟩) (f : Frame) (hm : f ∈ fs) (u : UpdatedAttribute)
    (hu : u ∈ f.updatedActors) (b : RigidBody) (hb : u.attr = .rigidBody b)
    (hsl : b.sleeping = true) : b.linearVelocity = none ∧ b.angularVelocity = none := by
  obtain ⟨c, _, hc⟩ := value_ranges hs h hf
  obtain ⟨name, tag, _, _, hv | ⟨_, b', hb', hv⟩⟩ := hc f hm u hu
  · rw [hb] at hv
    cases tag <;> try exact hv.elim
    have key : ∀ {x : Option Vector3f}, Since (b.sleeping = false) x → x = none := by
      intro x hx
      cases x with
      | none => rfl
      | some y => rw [hx.1 rfl] at hsl; cases hsl
    exact ⟨key hv.2.2.2.1, key hv.2.2.2.2⟩
  · rw [hb] at hb'
    cases hb'
    rw [hv.1.2.2.2.1] at hsl
    cases hsl

/-- C93. The fields of a loadout are those of its version. -/
theorem loadout_version_fields (hs : data.length ≤ env.isizeMax) (h : parseWith check np env data = .ok r)
    (hf : r.networkFrames = some ⟨fs⟩) (f : Frame) (hm : f ∈ fs) (u : UpdatedAttribute)
    (hu : u ∈ f.updatedActors) (v : TeamLoadout) (hb : u.attr = .teamLoadout v) :
    LoadoutOf v.blue ∧ LoadoutOf v.orange := by
  obtain ⟨c, _, hc⟩ := value_ranges hs h hf
  obtain ⟨name, tag, _, _, hv | ⟨_, b', hb', hv⟩⟩ := hc f hm u hu
  · rw [hb] at hv
    cases tag <;> first | exact hv.elim | exact hv
  · rw [hb] at hb'
    cases hb'

/-- C93. A reservation has a name unless it is that of the empty split screen id. -/
theorem reservation_name (hs : data.length ≤ env.isizeMax) (h : parseWith check np env data = .ok r)
    (hf : r.networkFrames = some ⟨fs⟩) (f : Frame) (hm : f ∈ fs) (u : UpdatedAttribute)
    (hu : u ∈ f.updatedActors) (v : Reservation) (hb : u.attr = .reservation v) :
    v.name = none ↔ v.uniqueId.remoteId = .splitScreen 0 := by
  obtain ⟨c, _, hc⟩ := value_ranges hs h hf
  obtain ⟨name, tag, _, _, hv | ⟨_, b', hb', hv⟩⟩ := hc f hm u hu
  · rw [hb] at hv
    cases tag <;> try exact hv.elim
    obtain ⟨_, h2, h3, _⟩ := hv
    cases hn : v.name with
    | none => rw [hn] at h3; exact ⟨fun _ => h3.2, fun _ => rfl⟩
    | some t =>
      rw [hn] at h3
      refine ⟨fun e => (by cases e), fun e => ?_⟩
      rw [UniqueIdOf, e] at h2
      have h3 : if v.uniqueId.systemId = 0 then v.uniqueId.remoteId ≠ .splitScreen 0 ∧ SplitName t
        else ShortText t := h3
      rw [if_pos h2.1] at h3
      exact absurd e h3.1
  · rw [hb] at hb'
    cases hb'

/-- C93. An awake body without a velocity comes at the very end: at most one frame follows, without
any records, and none before net version 7. -/
theorem cut_last (hs : data.length ≤ env.isizeMax) (h : parseWith check np env data = .ok r)
    (hf : r.networkFrames = some ⟨fs⟩) {pre post : List Frame} {f : Frame}
    (hm : fs = pre ++ f :: post) {u : UpdatedAttribute} (hu : u ∈ f.updatedActors) {b : RigidBody}
    (hb : u.attr = .rigidBody b) (hsl : b.sleeping = false)
    (hn : b.linearVelocity = none ∨ b.angularVelocity = none) :
    (post = [] ∨ ∃ g, post = [g] ∧ g.newActors = [] ∧ g.deletedActors = [] ∧ g.updatedActors = []) ∧
      ((r.netVersion.getD 0#32).toInt < 7 → post = []) := by
  obtain ⟨blob, ⟨_, hp⟩, _⟩ := parse_network hs h hf
  cases hk : headerInt (headerOf r) "NumFrames" with
  | none =>
    rw [hk] at hp
    simp only at hp
    subst hp
    cases pre <;> cases hm
  | some k =>
    rw [hk] at hp
    obtain ⟨_, _, c, n, o, h1, h2, h3⟩ := hp
    obtain ⟨ess, kn, o', h4⟩ := framesRel_at h3
    have hnet : c.net = r.netVersion.getD 0#32 := h1.net
    rw [← hnet]
    exact unmoved_last h4 hm hu ⟨b, hb, hsl, hn⟩

/-- C93. An awake body that is not in the last two frames has both velocities. -/
theorem awake_moves (hs : data.length ≤ env.isizeMax) (h : parseWith check np env data = .ok r)
    (hf : r.networkFrames = some ⟨fs⟩) (i : Nat) (f : Frame) (hi : fs[i]? = some f)
    (hl : i + 2 < fs.length) (u : UpdatedAttribute) (hu : u ∈ f.updatedActors) (b : RigidBody)
    (hb : u.attr = .rigidBody b) (hsl : b.sleeping = false) :
    b.linearVelocity.isSome ∧ b.angularVelocity.isSome := by
  obtain ⟨hi', rfl⟩ := List.getElem?_eq_some_iff.1 hi
  have hm : fs = fs.take i ++ fs[i] :: fs.drop (i + 1) := by
    rw [List.getElem_cons_drop, List.take_append_drop]
  have key : ¬(b.linearVelocity = none ∨ b.angularVelocity = none) := by
    intro hn
    have := (cut_last hs h hf hm hu hb hsl hn).1
    rcases this with e | ⟨g, e, _⟩ <;>
    · have := congrArg List.length e
      simp only [List.length_drop, List.length_nil, List.length_singleton] at this
      omega
  rw [not_or] at key
  exact ⟨Option.isSome_iff_ne_none.2 key.1, Option.isSome_iff_ne_none.2 key.2⟩

/-! ## Instances -/

/-- One frame: an actor is announced, and updated with an awake body.  The data end within its
velocities. -/
def cutBlob : List Byte :=
  [0x00, 0x00, 0x80, 0x3f, 0x00, 0x00, 0x80, 0x3f, 0x01, 0x18, 0x00, 0x00, 0x00, 0x00, 0x00, 0x00,
   0x00, 0x40, 0x00, 0x0a, 0x80, 0x3a, 0x00, 0x00, 0x00, 0x00, 0x00, 0x00, 0x50, 0x2b]

def cutFile : List Byte :=
  encFile ⟨868, 32, some 10, "G".toList, [("NumFrames".toList, .int 1)]⟩
    (probeBody "TAGame.RBActor_TA:ReplicatedRBState".toList [] cutBlob)

set_option maxRecDepth 100000 in
theorem cutFile_check : (match parseWith .always .always Env.default64 cutFile with
    | .ok r => match r.networkFrames with
      | some ⟨[f]⟩ => match f.updatedActors with
        | [⟨_, _, _, .rigidBody b⟩] => !b.sleeping && b.linearVelocity.isNone && b.angularVelocity.isNone
        | _ => false
      | _ => false
    | _ => false) = true := by
  decide +kernel

/-- C93. The exception is needed: an awake body without velocities is read from this file. -/
theorem cut_occurs : ∃ r f u b, parseWith .always .always Env.default64 cutFile = .ok r ∧
    r.networkFrames = some ⟨[f]⟩ ∧ f.updatedActors = [u] ∧ u.attr = .rigidBody b ∧
    b.sleeping = false ∧ b.linearVelocity = none ∧ ∀ c, ¬ValueOf c .rigidBody u.attr := by
  have h := cutFile_check
  split at h <;> try cases h
  split at h <;> try cases h
  split at h <;> try cases h
  rename_i r hr _ f hf _ i j k b hu
  simp only [Bool.and_eq_true, Bool.not_eq_true', Option.isNone_iff_eq_none] at h
  refine ⟨r, f, _, b, hr, hf, hu, rfl, h.1.1, h.1.2, fun c hv => ?_⟩
  have := hv.2.2.2.1.2 h.1.1
  rw [h.1.2] at this
  cases this

/-- The same with room for one more frame. -/
def cutFile' : List Byte :=
  encFile ⟨868, 32, some 10, "G".toList, [("NumFrames".toList, .int 2)]⟩
    (probeBody "TAGame.RBActor_TA:ReplicatedRBState".toList [] (cutBlob.take 28 ++
      [0x00, 0xd4, 0x0a, 0x00, 0x00, 0xe0, 0x0f, 0x00, 0x00, 0xe0, 0x0f]))

set_option maxRecDepth 100000 in
/-- C93. A frame can follow such a body: here the angular velocity is missing. -/
theorem cut_then_frame : (match parseWith .always .always Env.default64 cutFile' with
    | .ok r => match r.networkFrames with
      | some ⟨[f, g]⟩ => g == ⟨0x3f800000, 0x3f800000, [], [], []⟩ && match f.updatedActors with
        | [⟨_, _, _, .rigidBody b⟩] =>
          !b.sleeping && b.linearVelocity.isSome && b.angularVelocity.isNone
        | _ => false
      | _ => false
    | _ => false) = true := by
  decide +kernel

/-- A value of the demo, by `value_ranges`. -/
example : ∃ r, parseWith .always .always Env.default64 demo = .ok r ∧
    ∃ c, CtxOf (headerOf r) (bodyOf r []) c ∧ ValueOf c .byte (.byte 200) := by
  obtain ⟨r, h1, h2, h3, _⟩ := demo_ok
  obtain ⟨c, hc, h⟩ := value_ranges demo_small.len h1 h2
  obtain ⟨name, tag, _, _, hv | ⟨_, b, hb, _⟩⟩ := h (demoFrames[0]) (by simp [demoFrames])
    ⟨5, 1, 3, .byte 200⟩ (by simp [demoFrames])
  · refine ⟨r, h1, c, hc, ?_⟩
    cases tag <;> first | exact hv.elim | exact hv
  · cases hb

/-- Which game modes there are. -/
example (d : Ctx) (hd : ¬d.atLeast 868 12 0) :
    ValueOf d .gameMode (.gameMode 2 3) ∧ ¬ValueOf d .gameMode (.gameMode 2 4) ∧
    ¬ValueOf d .gameMode (.gameMode 8 3) := by
  refine ⟨.inr ⟨hd, rfl, by decide⟩, ?_, ?_⟩
  · rintro (⟨h, _⟩ | ⟨_, _, h⟩)
    · exact hd h
    · exact absurd h (by decide)
  · rintro (⟨h, _⟩ | ⟨_, h, _⟩)
    · exact hd h
    · exact absurd h (by decide)

/-- A PlayStation id has sixteen further bytes from net version 1 on. -/
example (d : Ctx) (hd : d.net = 10) (x : U64) :
    ValueOf d .uniqueId (.uniqueId ⟨2, .playStation x "Player_1".toList (List.replicate 16 7), 0⟩) ∧
    ¬ValueOf d .uniqueId (.uniqueId ⟨2, .playStation x "Player_1".toList (List.replicate 8 7), 0⟩) ∧
    ¬ValueOf d .uniqueId (.uniqueId ⟨1, .playStation x "Player_1".toList (List.replicate 16 7), 0⟩) := by
  simp only [ValueOf, UniqueIdOf, RemoteOf, hd]
  exact ⟨by decide +kernel, by decide +kernel, by decide +kernel⟩

/-- An id of a hundred characters is read from some file. -/
example : ∃ data r f u, parseWith .always .always Env.default64 data = .ok r ∧
    r.networkFrames = some ⟨[f]⟩ ∧ f.updatedActors = [u] ∧
    u.attr = .uniqueId ⟨11, .epic (List.replicate 100 'e'), 3⟩ ∧
    r.objects[u.objectId.toNat]? = some "Engine.PlayerReplicationInfo:UniqueId".toList :=
  value_occurs (name := "Engine.PlayerReplicationInfo:UniqueId") (more := []) rfl .always
    recentHeader_ok (k := 3) (by decide +kernel) (by decide) (tag := .uniqueId)
    (by decide +kernel) ⟨by decide, by simp⟩ (by decide) (ctxOf_attrDecoderOf _ _)
    ⟨rfl, .inl ⟨by decide, fun c hc => by rw [List.eq_of_mem_replicate hc]; decide +kernel⟩⟩
    (by decide +kernel)

end Boxcars.Props
