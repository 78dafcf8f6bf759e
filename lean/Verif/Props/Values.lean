import Verif.Props.Probe
/-!
# C91: every value of every listed attribute
-/
namespace Boxcars.Props
open Boxcars Spec

theorem bytes_of_bits (m : Nat) : ∀ l : Bits, l.length = 8 * m →
    ∃ bs : List Byte, bs.length = m ∧ bytes bs = l := by
  induction m with
  | zero => intro l h; exact ⟨[], rfl, (List.eq_nil_of_length_eq_zero h).symm⟩
  | succ m ih =>
    intro l h
    obtain ⟨bs, h1, h2⟩ := ih (l.drop 8) (by rw [List.length_drop]; omega)
    have ht : (l.take 8).length = 8 := by rw [List.length_take]; omega
    refine ⟨BitVec.ofNat 8 (bitsToNat (l.take 8)) :: bs, by rw [List.length_cons, h1], ?_⟩
    have hlt := bitsToNat_lt (l.take 8)
    rw [ht] at hlt
    have hf : Spec.field 8 (BitVec.ofNat 8 (bitsToNat (l.take 8))) = l.take 8 := by
      unfold Spec.field
      rw [BitVec.toNat_ofNat, Nat.mod_eq_of_lt hlt]
      have := bits_bitsToNat (l.take 8)
      rwa [ht] at this
    unfold bytes at h2 ⊢
    rw [List.flatMap_cons, h2, hf, List.take_append_drop]

/-- An actor is announced and its attribute updated with the given values. -/
def valuesPlan (named : Bool) (vs : List (Attribute × Bits)) : Plan :=
  ⟨0x3f800000, 0x3f800000,
    [.new ⟨0, if named then some 0 else none, 0, ⟨none, none⟩⟩ false [],
     .update 0 (vs.map fun p => ⟨0, p.1, p.2⟩)]⟩

/-- The bits of the values. -/
def valueBits (vs : List (Attribute × Bits)) : Nat := (vs.map (fun p => p.2.length + 5)).sum

theorem writePuts_length (vs : List (Attribute × Bits)) :
    (writePuts 9 (vs.map fun p => ⟨0, p.1, p.2⟩)).length = valueBits vs + 1 := by
  induction vs with
  | nil => rfl
  | cons p vs ih =>
    have h4 : (bounded 9 (0 : StreamId).toNat).length = 4 := by decide
    unfold valueBits at ih ⊢
    rw [List.map_cons, writePuts, List.map_cons, List.sum_cons]
    simp only [List.length_cons, List.length_append, ih, h4]
    omega

theorem live_class {n : Net} {tag : AttributeTag} (hc : n.cls 0 = some (probeClass tag))
    (x : Option I32) : classAt n (Rec.live Known.none (.new ⟨0, x, 0, ⟨none, none⟩⟩ false [])) 0 =
      some (probeClass tag) := by
  unfold classAt Rec.live
  simp only [if_true, Option.bind_some, hc]

theorem valuesPlan_length {n : Net} {tag : AttributeTag} (hc : n.cls 0 = some (probeClass tag))
    (hch : n.channels < 2 ^ 32) (vs : List (Attribute × Bits)) :
    (writePlans n Known.none [valuesPlan n.named vs]).length ≤ valueBits vs + 300 := by
  have ha : (actorId n 0).length ≤ 33 := by
    unfold actorId
    refine Nat.le_trans (bounded_length_le _ _) ?_
    by_cases h0 : n.channels = 0
    · rw [h0]; decide
    · have := (Nat.log2_lt h0).2 hch
      omega
  have hw := writePuts_length vs
  have hf : ∀ x : BitVec 32, (Spec.field 32 x).length = 32 := fun x => bits_length _ _
  unfold valuesPlan
  generalize (if n.named then some (0 : I32) else none) = x
  have hcls := live_class hc x
  cases x <;>
    simp only [writePlans, writeRecs, Rec.write, hcls, List.length_append, List.length_cons,
      List.length_nil, hf, show (probeClass tag).limit.toNat = 9 from rfl, hw] <;> omega

theorem valuesPlan_updates {n : Net} {tag : AttributeTag} (hc : n.cls 0 = some (probeClass tag))
    (vs : List (Attribute × Bits)) : recUpdates n Known.none (valuesPlan n.named vs).recs =
      vs.map fun p => ⟨0, 0, 1, p.1⟩ := by
  unfold valuesPlan
  simp only [recUpdates, Rec.updates, List.nil_append, List.append_nil, live_class hc]
  induction vs with
  | nil => rfl
  | cons p vs ih =>
    rw [List.map_cons, List.filterMap_cons, List.map_cons, ← ih]
    rfl

/-- C91. In any version, with any other objects, any values of the type of a listed attribute are
recorded in some file and read back. -/
theorem values_recorded {env : Env} (h64 : env.usizeBits = 64) (check : CrcCheck) {h : Header}
    (hh : HeaderOk h) {k : I32} (hk : headerInt h "NumFrames" = some k) (hk0 : 0 < k.toInt)
    {name : String} {tag : AttributeTag} (hm : (name, tag) ∈ attributesTable)
    {more : List Str} (hmore : ListOk TextOk more) (hl : more.length ≤ 24998)
    {c : Ctx} (hc : CtxOf h (probeBody name.toList more []) c) (vs : List (Attribute × Bits))
    (hv : ∀ p ∈ vs, AttrEnc c tag p.1 p.2)
    (hs : (encFile h (probeBody name.toList more [])).length + valueBits vs / 8 + k.toNat + 100 < 2 ^ 31) :
    ∃ data r f, parseWith check .always env data = .ok r ∧ r.networkFrames = some ⟨[f]⟩ ∧
      f.updatedActors.map (·.attr) = vs.map (·.1) ∧
      ∀ u ∈ f.updatedActors, r.objects[u.objectId.toNat]? = some name.toList := by
  have hctx : ∀ blob, CtxOf h (probeBody name.toList more blob) c := fun blob =>
    ⟨hc.major, hc.minor, hc.net, hc.color, hc.painted, hc.titleId, hc.special, hc.team, hc.rl223⟩
  have ht : (attributeTag name.toList).getD .notImplemented = tag := by
    rw [attributeTag_of_mem hm]; rfl
  obtain ⟨n, hn0⟩ := net_exists h (probeBody name.toList more []) c
  have hnet : ∀ blob, NetOf h (probeBody name.toList more blob) c n := fun blob =>
    ⟨hn0.net, hn0.channels, hn0.named, hn0.sticky, hn0.spawn, hn0.cls⟩
  have hcls : n.cls 0 = some (probeClass tag) := (hn0.cls _ _).2 (probe_class ht _ _)
  have hsp : n.spawn 0 = some .none := (hn0.spawn _ _).2 (probe_spawn _ _ _)
  have hch : n.channels < 2 ^ 32 := by rw [hn0.channels]; exact BitVec.isLt _
  have hlen := valuesPlan_length hcls hch vs
  generalize hL : (writePlans n Known.none [valuesPlan n.named vs]).length = L at hlen
  obtain ⟨q, hq⟩ : ∃ q, q + L = 8 * (L / 8 + 9 + k.toNat) := ⟨8 * (L / 8 + 9 + k.toNat) - L, by omega⟩
  obtain ⟨blob, hb1, hb2⟩ := bytes_of_bits (L / 8 + 9 + k.toNat)
    (writePlans n Known.none [valuesPlan n.named vs] ++ List.replicate q false)
    (by rw [List.length_append, hL, List.length_replicate]; omega)
  have hin : InChannels n 0 :=
    Nat.lt_of_lt_of_le (by decide : (0 : ActorId).toNat < 1) (Nat.le_max_right _ _)
  have hone : TimeOk 0x3f800000 ∧ ¬(IsZero 0x3f800000 ∧ IsZero 0x3f800000) :=
    ⟨(outOfRange_iff _).1 (by decide +kernel), fun h => absurd h.1.1 (by decide +kernel)⟩
  have hok : PlansOk n c Known.none [valuesPlan n.named vs] := by
    refine ⟨hone.1, hone.1, hone.2, ⟨⟨hin, ?_, ⟨_, hsp, rfl, rfl⟩, ?_⟩, ⟨hin, probeClass tag, ?_, ?_⟩,
      trivial⟩, trivial⟩
    · cases n.named <;> rfl
    · show n.cls 0 ≠ none
      rw [hcls]; exact fun e => by cases e
    · exact live_class hcls _
    · intro p hp
      obtain ⟨x, hx, rfl⟩ := List.mem_map.1 hp
      exact ⟨tag, 1, by rfl, (by decide : (0 : StreamId).toNat < 2 ^ 31 - 1), hv x hx⟩
  have hlt : (encFile h (probeBody name.toList more blob)).length < 2 ^ 31 := by
    rw [probe_length, hb1]; omega
  have hkn : k.toNat = k.toInt.toNat := by
    rw [BitVec.toInt_eq_toNat_cond]; split <;> omega
  have hbig := small64 h64 hlt
  have hcap := hbig.cap (n := blob.length) (by rw [probe_length]; omega) (by omega)
  have hr := replay_round_trip env check h (probeBody name.toList more blob) hh
    (probeBody_ok (textOk_short (Nat.le_trans (attribute_short hm) (by decide))) hmore hl (by omega))
    [] hlt (by rw [List.append_nil]; exact hbig.1.1) hcap c n (hctx blob) (hnet blob)
    (probe_range _ _ _) _ hok k hk (by omega) (show k.toNat ≤ blob.length by omega)
    (List.replicate q false) ?_ hb2
  · rw [List.append_nil] at hr
    refine ⟨_, _, _, hr, rfl, ?_, ?_⟩
    · show (recUpdates n Known.none _).map _ = _
      rw [valuesPlan_updates hcls, List.map_map]
      rfl
    · intro u hu
      have hu : u ∈ recUpdates n Known.none _ := hu
      rw [valuesPlan_updates hcls] at hu
      obtain ⟨p, _, rfl⟩ := List.mem_map.1 hu
      rfl
  · by_cases h1 : k.toNat = 1
    · exact .inr (.inl h1.symm)
    · refine .inr (.inr ⟨by show 1 < _; omega, 0, 0, List.replicate (q - 64) false, ?_, ?_, ?_⟩)
      · exact ⟨by decide, by decide⟩
      · exact ⟨by decide, by decide⟩
      have e : Spec.field 32 (0 : F32) = List.replicate 32 false := by decide
      rw [e, ← List.append_assoc, List.replicate_append_replicate, List.replicate_append_replicate]
      congr 1
      omega

/-! ## Every type -/

/-- A recent version. -/
def recentHeader : Header := ⟨868, 32, some 10, "G".toList, [("NumFrames".toList, .int 3)]⟩

def recentDecoder : AttrDecoder := attrDecoderOf recentHeader (probeBody [] [] [])

theorem recentHeader_ok : HeaderOk recentHeader := by
  refine ⟨by decide, by decide +kernel, ?_⟩
  simp only [recentHeader, isQuirks, PropsOk, PropOk, ValOk, StrOk]
  decide +kernel

/-- A value is read from zeros, with both velocities. -/
def zerosOk (tag : AttributeTag) : Bool :=
  match recentDecoder.decode tag Env.default64 (Reader.new (List.replicate 100 0)) with
  | .ok (.rigidBody v) _ => v.linearVelocity.isSome && v.angularVelocity.isSome
  | .ok _ _ => true
  | _ => false

set_option maxRecDepth 100000 in
theorem zeros_ok {tag : AttributeTag} (h : tag ≠ .notImplemented) : zerosOk tag = true := by
  cases tag <;> first | exact absurd rfl h | decide +kernel

/-- Every type has values. -/
theorem type_inhabited {tag : AttributeTag} (h : tag ≠ .notImplemented) :
    ∃ v w, AttrEnc recentDecoder.ctx tag v w ∧ w.length ≤ 800 := by
  have hz := zeros_ok h
  unfold zerosOk at hz
  have key : ∀ v r', recentDecoder.decode tag Env.default64 (Reader.new (List.replicate 100 0)) =
      .ok v r' → (∀ b, v = .rigidBody b → b.linearVelocity.isSome && b.angularVelocity.isSome) →
      ∃ v w, AttrEnc recentDecoder.ctx tag v w ∧ w.length ≤ 800 := by
    intro v r' he hb
    have := ((decode_spec recentDecoder rfl tag).okIff Env.default64 _
      (FrameDecoder.reader_new_valid _) (Nat.le_refl _) v r'.bits).1 ⟨r', he, rfl⟩
    rcases this with ⟨w, h1, h2⟩ | ⟨_, b, rfl, _, hn, _⟩
    · refine ⟨v, w, h1, ?_⟩
      have := congrArg List.length h2
      rw [FrameDecoder.reader_new_length, List.length_replicate, List.length_append] at this
      omega
    · have := hb b rfl
      rw [Bool.and_eq_true] at this
      rcases hn with hn | hn <;> rw [hn] at this
      · cases this.1
      · cases this.2
  split at hz
  · rename_i b r' he
    exact key _ r' he fun b' e => by cases e; exact hz
  · rename_i v r' hne he
    exact key _ r' he fun b' e => (hne b' e).elim
  · cases hz

/-- C91. Values of every type occur in some file. -/
theorem types_recorded {tag : AttributeTag} (h : tag ≠ .notImplemented) :
    ∃ data r f u v w, parseWith .always .always Env.default64 data = .ok r ∧
      r.networkFrames = some ⟨[f]⟩ ∧ f.updatedActors = [u] ∧ u.attr = v ∧
      AttrEnc recentDecoder.ctx tag v w := by
  obtain ⟨name, hm⟩ := tag_listed h
  obtain ⟨v, w, hv, hw⟩ := type_inhabited h
  have hl := probeFile_length recentHeader (Nat.le_trans (attribute_short hm) (by decide)) []
  have hh : (encHeader recentHeader).length ≤ 200 := by decide +kernel
  have hb : valueBits [(v, w)] = w.length + 5 := rfl
  obtain ⟨data, r, f, h1, h2, h3, h4⟩ := values_recorded (env := Env.default64) rfl .always
    recentHeader_ok (k := 3) (by decide +kernel) (by decide) hm (more := [])
    ⟨by decide, by simp⟩ (by decide) (probe_ctxOf (listed_ne hm) recentHeader []) [(v, w)]
    (fun p hp => by cases List.mem_singleton.1 hp; exact hv)
    (by rw [hb, show (3 : I32).toNat = 3 from rfl]; simp only [List.length_nil] at hl; omega)
  cases hu : f.updatedActors with
  | nil => rw [hu] at h3; cases h3
  | cons u us =>
    rw [hu] at h3
    simp only [List.map_cons, List.map_nil, List.cons.injEq, List.map_eq_nil_iff] at h3
    rw [h3.2] at hu
    exact ⟨data, r, f, u, v, w, h1, h2, hu, h3.1, hv⟩

/-- Three values of an attribute, one after the other. -/
example : ∃ data r f, parseWith .always .always Env.default64 data = .ok r ∧
    r.networkFrames = some ⟨[f]⟩ ∧
    f.updatedActors.map (·.attr) = [.boolean true, .boolean false, .boolean true] ∧
    ∀ u ∈ f.updatedActors, r.objects[u.objectId.toNat]? = some "Engine.Actor:bHidden".toList :=
  values_recorded (name := "Engine.Actor:bHidden") (more := []) rfl .always recentHeader_ok
    (k := 3) (by decide +kernel) (by decide) (tag := .boolean)
    (List.mem_of_getElem? (i := 3) rfl) ⟨by decide, by simp⟩ (by decide)
    (ctxOf_attrDecoderOf _ _)
    [(.boolean true, [true]), (.boolean false, [false]), (.boolean true, [true])]
    (by simp only [List.forall_mem_cons]
        exact ⟨.boolean _, .boolean _, .boolean _, by simp⟩)
    (by decide +kernel)

end Boxcars.Props
