import Verif.Proofs.AttrSpec2
import Verif.Proofs.ESpec
import Verif.Spec.AttrFail
/-!
# Decoders that fail only at the end of data
-/
namespace Boxcars
open Spec

/-- With at least `K` bits the decoder succeeds and uses at most `K`. -/
def Enough {ε α : Type} (K : Nat) (m : BM ε α) : Prop :=
  ∀ env r, r.Valid → K ≤ r.bits.length → ∃ a r', m env r = .ok a r' ∧ r'.Valid ∧
    r.bits.length ≤ r'.bits.length + K

namespace Enough

variable {ε α β : Type} {K K' : Nat}

theorem of_rel {m : BM ε α} {R : BRel α} (hs : ∀ N, BSpec N m R)
    (h : ∀ i, K ≤ i.length → ∃ a o, R a i o ∧ i.length ≤ o.length + K) : Enough K m := by
  intro env r hv hl
  obtain ⟨a, o, h1, h2⟩ := h r.bits hl
  obtain ⟨r', h3, rfl⟩ := ((hs _).okIff env r hv (Nat.le_refl _) a o).2 h1
  exact ⟨a, r', h3, (hs _).ok_valid hv (Nat.le_refl _) h3, h2⟩

theorem mono {m : BM ε α} (h : Enough K m) (hk : K ≤ K') : Enough K' m := by
  intro env r hv hl
  obtain ⟨a, r', h1, h2, h3⟩ := h env r hv (by omega)
  exact ⟨a, r', h1, h2, by omega⟩

theorem pure (a : α) : Enough 0 (Pure.pure a : BM ε α) :=
  fun _ r hv _ => ⟨a, r, rfl, hv, by omega⟩

theorem bind {m : BM ε α} {f : α → BM ε β} (h : Enough K m) (hf : ∀ a, Enough K' (f a)) :
    Enough (K + K') (m >>= f) := by
  intro env r hv hl
  obtain ⟨a, r', h1, h2, h3⟩ := h env r hv (by omega)
  obtain ⟨b, r2, g1, g2, g3⟩ := hf a env r' h2 (by omega)
  exact ⟨b, r2, by rw [BM.bind_ok h1, g1], g2, by omega⟩

theorem ite {c : Prop} [Decidable c] {m m' : BM ε α} (h : Enough K m) (h' : Enough K' m') :
    Enough (max K K') (if c then m else m') := by
  split
  · exact h.mono (by omega)
  · exact h'.mono (by omega)

theorem okOr {m : BM Unit α} (e : ε) (h : Enough K m) : Enough K (BM.okOr e m) := by
  intro env r hv hl
  obtain ⟨a, r', h1, h2, h3⟩ := h env r hv hl
  refine ⟨a, r', ?_, h2, h3⟩
  unfold BM.okOr BM.mapErr
  rw [h1]

theorem need {m : BM Unit α} (what : String) (h : Enough K m) : Enough K (need what m) :=
  okOr _ h

theorem named {m : BM Unit α} (what : String) (f : α → Attribute) (h : Enough K m) :
    Enough (K + 0) (AttrDecoder.named what f m) := (need what h).bind fun _ => pure _

theorem readBits (n : Nat) : Enough n (readBits n) := by
  refine of_rel (fun N => BSpec.readBits (N := N) n) ?_
  intro i hi
  refine ⟨bitsToNat (i.take n), i.drop n, bits_append_iff.2 ⟨hi, rfl, rfl⟩, ?_⟩
  rw [List.length_drop]; omega

theorem readBit : Enough (1 + 0) readBit := (readBits 1).bind fun _ => pure _
theorem readU8 : Enough (8 + 0) readU8 := (readBits 8).bind fun _ => pure _
theorem readU32 : Enough (32 + 0) readU32 := (readBits 32).bind fun _ => pure _
theorem readU64 : Enough (64 + 0) readU64 := (readBits 64).bind fun _ => pure _
theorem read31 : Enough (31 + 0) read31 := (readBits 31).bind fun _ => pure _
theorem read16 (n : Nat) : Enough (n + 0) (AttrDecoder.read16 n) := (readBits n).bind fun _ => pure _

theorem ifGet {f : BM Unit α} (h : Enough K f) : Enough (1 + 0 + max (K + 0) 0) (ifGet f) :=
  readBit.bind fun _ => ite (h.bind fun _ => pure _) (pure _)

theorem optWhen (c : Bool) {f : BM Unit α} (h : Enough K f) :
    Enough (max (K + 0) 0) (optWhen c f) := ite (h.bind fun _ => pure _) (pure _)

theorem readMax14 : Enough 4 readMax14 := by
  have h : ∀ N, BSpec N (readBitsMaxComputed 3 14) (fun v i o => v < max 14 1 ∧ i = bounded 14 v ++ o) :=
    fun N => BSpec.readBounded (M := 14)
  refine (of_rel (K := 4) h ?_).bind fun _ => pure _
  intro i hi
  have h1 := boundedDen_le 14 i
  refine ⟨_, _, bounded_append_iff.2 ⟨?_, rfl, rfl⟩, ?_⟩
  · exact Nat.le_trans h1 hi
  · rw [List.length_drop]
    have : Nat.log2 14 = 3 := by decide
    omega

theorem vec3i (net : I32) : Enough 74 (Vector3i.decode net) := by
  refine of_rel (fun N => BSpec.vec3i (N := N) net) ?_
  intro i hi
  have hs := boundedDen_class net i
  have hle := boundedDen_le (sizeClasses net) i
  have hlog := sizeClasses_log2 net
  refine ⟨_, _, vecDen_iff.1 (vecDen_ok (i := i) (by omega) rfl rfl ?_), ?_⟩
  · rw [List.length_drop]; omega
  · rw [List.length_drop, List.length_drop]; omega

theorem vec3f (net : I32) : Enough (74 + 0) (Vector3f.decode net) := (vec3i net).bind fun _ => pure _

/-- A check in front of unchecked reads. -/
theorem gate {n : Nat} {m : BM ε α} {R : BRel α} (e : ε) (hn : n ≤ 56) (h : Peek n m R) :
    Enough n (do refill; let look ← lookaheadBits; if look < n then BM.fail e else m) := by
  refine of_rel (fun N => Peek.gateFail (N := N) e hn h) ?_
  intro i hi
  obtain ⟨a, k, hk, _, hR⟩ := h Env.default64 i i.length hi (Nat.le_refl _)
  refine ⟨a, _, ⟨hi, (hR a _).2 ⟨rfl, rfl⟩⟩, ?_⟩
  rw [List.length_drop]; omega

theorem activeActor : Enough 33 AttrDecoder.activeActor :=
  gate () (by decide) ((Peek.peek 1).bind fun _ _ _ _ => (Peek.peek 32).bind fun _ _ _ _ =>
    Peek.pure _)

theorem split {n : Nat} {i : List Bool} (h : n ≤ i.length) :
    ∃ x, x < 2 ^ n ∧ i = bits n x ++ i.drop n :=
  ⟨_, bits_append_iff.2 ⟨h, rfl, rfl⟩⟩

theorem quat : Enough 56 Quaternion.decode := by
  refine of_rel (fun N => BSpec.quat (N := N)) ?_
  intro i hi
  obtain ⟨l, hl, e1⟩ := split (n := 2) (i := i) (by omega)
  obtain ⟨a, ha, e2⟩ := split (n := 18) (i := i.drop 2) (by rw [List.length_drop]; omega)
  obtain ⟨b, hb, e3⟩ := split (n := 18) (i := (i.drop 2).drop 18) (by simp; omega)
  obtain ⟨c, hc, e4⟩ := split (n := 18) (i := ((i.drop 2).drop 18).drop 18) (by simp; omega)
  have key : ∀ q : Quaternion, (let x := quatComp a
      let y := quatComp b
      let z := quatComp c
      let w := quatLargest x y z
      ((l = 0 ∧ q = ⟨w, x, y, z⟩) ∨ (l = 1 ∧ q = ⟨x, w, y, z⟩) ∨ (l = 2 ∧ q = ⟨x, y, w, z⟩) ∨
        (l = 3 ∧ q = ⟨x, y, z, w⟩))) →
      ∃ q o, ofB QuatEnc q i o ∧ i.length ≤ o.length + 56 := by
    intro q hq
    refine ⟨q, (((i.drop 2).drop 18).drop 18).drop 18, ⟨_, ⟨l, a, b, c, ha, hb, hc, rfl, hq⟩, ?_⟩, ?_⟩
    · rw [List.append_assoc, List.append_assoc, List.append_assoc, ← e4, ← e3, ← e2, ← e1]
    · simp only [List.length_drop]; omega
  have : l = 0 ∨ l = 1 ∨ l = 2 ∨ l = 3 := by omega
  rcases this with h | h | h | h
  · exact key _ (.inl ⟨h, rfl⟩)
  · exact key _ (.inr (.inl ⟨h, rfl⟩))
  · exact key _ (.inr (.inr (.inl ⟨h, rfl⟩)))
  · exact key _ (.inr (.inr (.inr ⟨h, rfl⟩)))

theorem oldQuat : Enough 48 Quaternion.decodeCompressed := by
  refine of_rel (fun N => BSpec.oldQuat (N := N)) ?_
  intro i hi
  obtain ⟨a, ha, e2⟩ := split (n := 16) (i := i) (by omega)
  obtain ⟨b, hb, e3⟩ := split (n := 16) (i := i.drop 16) (by simp; omega)
  obtain ⟨c, hc, e4⟩ := split (n := 16) (i := (i.drop 16).drop 16) (by simp; omega)
  refine ⟨_, ((i.drop 16).drop 16).drop 16, ⟨_, ⟨a, b, c, ha, hb, hc, rfl, rfl⟩, ?_⟩, ?_⟩
  · rw [List.append_assoc, List.append_assoc, ← e4, ← e3, ← e2]
  · simp only [List.length_drop]; omega

theorem optByte {i : List Bool} (h : 9 ≤ i.length) :
    ∃ (y : Option (BitVec 8)) (o : List Bool), i = opt (field 8) y ++ o ∧ i.length ≤ o.length + 9 := by
  cases i with
  | nil => simp at h
  | cons x i =>
    simp only [List.length_cons] at h
    cases x with
    | false => exact ⟨none, i, rfl, by simp only [List.length_cons]; omega⟩
    | true =>
      obtain ⟨y, hy, e⟩ := split (n := 8) (i := i) (by omega)
      refine ⟨some (BitVec.ofNat 8 y), i.drop 8, ?_, ?_⟩
      · show _ = true :: (bits 8 _ ++ _)
        rw [BitVec.toNat_ofNat, Nat.mod_eq_of_lt hy, ← e]
      · simp only [List.length_drop, List.length_cons]; omega

theorem rotation : Enough 27 Rotation.decode := by
  refine of_rel (fun N => BSpec.rotation (N := N)) ?_
  intro i hi
  obtain ⟨y, j, rfl, h1⟩ := optByte (i := i) (by omega)
  obtain ⟨p, k, rfl, h2⟩ := optByte (i := j) (by omega)
  obtain ⟨r, o, rfl, h3⟩ := optByte (i := k) (by omega)
  refine ⟨⟨y, p, r⟩, o, ?_, ?_⟩
  · simp [Spec.rotation]
  · omega

/-- Solve a goal `Enough ?K m` for a sequence of bounded reads. -/
macro "enough" : tactic => `(tactic| repeat' first
  | exact Enough.readBit | exact Enough.readU8 | exact Enough.readU32 | exact Enough.readU64
  | exact Enough.read31 | exact Enough.readMax14 | exact Enough.read16 _
  | exact Enough.readBits _ | exact Enough.vec3f _ | exact Enough.activeActor
  | exact Enough.rotation | exact Enough.quat | exact Enough.oldQuat
  | exact Enough.pure _
  | apply Enough.need | apply Enough.named
  | apply Enough.ifGet | apply Enough.optWhen | apply Enough.ite | apply Enough.bind | intro _)

theorem productValue (d : ProductDecoder) (obj : ObjectId) (h : obj = d.titleInd → obj = d.colorInd ∨
    obj = d.paintedInd) : ∃ K, Enough K (d.decode obj) := by
  unfold ProductDecoder.decode
  by_cases h1 : obj = d.colorInd
  · rw [if_pos h1]
    cases d.version.ge 868 23 8 with
    | true => exact ⟨_, readU32.bind fun _ => pure _⟩
    | false =>
      refine ⟨_, (ifGet read31).bind (K' := 0) fun x => ?_⟩
      cases x <;> exact pure _
  rw [if_neg h1]
  by_cases h2 : obj = d.paintedInd
  · rw [if_pos h2]
    exact ⟨_, ite (read31.bind fun _ => pure _) (readMax14.bind fun _ => pure _)⟩
  rw [if_neg h2, if_neg (fun h3 => (h h3).elim h1 h2)]
  exact ⟨_, ite (read31.bind fun _ => pure _) (ite (ite (read31.bind fun _ => pure _)
    (readMax14.bind fun _ => pure _)) (pure _))⟩

theorem named' {m : BM Unit α} (what : String) (f : α → Attribute) (h : ∃ K, Enough K m) :
    ∃ K, Enough K (AttrDecoder.named what f m) := h.elim fun _ h => ⟨_, named what f h⟩

theorem need' {m : BM Unit α} (what : String) (h : ∃ K, Enough K m) :
    ∃ K, Enough K (Boxcars.need what m) := h.elim fun _ h => ⟨_, need what h⟩

theorem flaggedByte_bdd : ∃ K, Enough K AttrDecoder.flaggedByte := ⟨_, by unfold AttrDecoder.flaggedByte; enough⟩

theorem explosion_bdd (net : I32) : ∃ K, Enough K (decodeExplosion net) := ⟨_, by unfold decodeExplosion; enough⟩

theorem loadout_bdd : ∃ K, Enough K decodeLoadout := ⟨_, by unfold decodeLoadout decodeLoadoutSpecials; enough⟩

theorem teamLoadout_bdd : ∃ K, Enough K AttrDecoder.teamLoadout := ⟨_, by unfold AttrDecoder.teamLoadout decodeLoadout decodeLoadoutSpecials; enough⟩

theorem appliedDamage_bdd (d : AttrDecoder) : ∃ K, Enough K d.appliedDamage := ⟨_, by unfold AttrDecoder.appliedDamage; enough⟩

theorem damageState_bdd (d : AttrDecoder) : ∃ K, Enough K d.damageState := ⟨_, by unfold AttrDecoder.damageState; enough⟩

theorem camSettings_bdd (d : AttrDecoder) : ∃ K, Enough K d.camSettings := ⟨_, by unfold AttrDecoder.camSettings; enough⟩

theorem clubColors_bdd : ∃ K, Enough K AttrDecoder.clubColors := ⟨_, by unfold AttrDecoder.clubColors; enough⟩

theorem demolish_bdd (d : AttrDecoder) : ∃ K, Enough K d.demolish := ⟨_, by unfold AttrDecoder.demolish; enough⟩

theorem demolishExtended_bdd (d : AttrDecoder) : ∃ K, Enough K d.demolishExtended := ⟨_, by unfold AttrDecoder.demolishExtended; enough⟩

theorem demolishFx_bdd (d : AttrDecoder) : ∃ K, Enough K d.demolishFx := ⟨_, by unfold AttrDecoder.demolishFx; enough⟩

theorem extendedExplosion_bdd (d : AttrDecoder) : ∃ K, Enough K d.extendedExplosion := ⟨_, by unfold AttrDecoder.extendedExplosion decodeExplosion; enough⟩

theorem musicStinger_bdd : ∃ K, Enough K AttrDecoder.musicStinger := ⟨_, by unfold AttrDecoder.musicStinger; enough⟩

theorem pickup_bdd : ∃ K, Enough K AttrDecoder.pickup := ⟨_, by unfold AttrDecoder.pickup; enough⟩

theorem pickupNew_bdd : ∃ K, Enough K AttrDecoder.pickupNew := ⟨_, by unfold AttrDecoder.pickupNew; enough⟩

theorem welded_bdd (d : AttrDecoder) : ∃ K, Enough K d.welded := ⟨_, by unfold AttrDecoder.welded; enough⟩

theorem title_bdd : ∃ K, Enough K AttrDecoder.title := ⟨_, by unfold AttrDecoder.title; enough⟩

theorem teamPaint_bdd : ∃ K, Enough K AttrDecoder.teamPaint := ⟨_, by unfold AttrDecoder.teamPaint; enough⟩

theorem statEvent_bdd : ∃ K, Enough K AttrDecoder.statEvent := ⟨_, by unfold AttrDecoder.statEvent; enough⟩

theorem pickupInfo_bdd : ∃ K, Enough K AttrDecoder.pickupInfo := ⟨_, by unfold AttrDecoder.pickupInfo; enough⟩

theorem impulse_bdd : ∃ K, Enough K AttrDecoder.impulse := ⟨_, by unfold AttrDecoder.impulse; enough⟩

theorem replicatedBoost_bdd : ∃ K, Enough K AttrDecoder.replicatedBoost := ⟨_, by unfold AttrDecoder.replicatedBoost; enough⟩

theorem logoData_bdd : ∃ K, Enough K AttrDecoder.logoData := ⟨_, by unfold AttrDecoder.logoData; enough⟩

/-- Attribute types without texts and player ids. -/
theorem decode (d : AttrDecoder) (tag : AttributeTag) (what : String)
    (h : plainName d.ctx tag = some what) : ∃ K, Enough K (d.decode tag) := by
  cases tag <;> first | (cases h; done) | skip
  case qWordString =>
    have hr : d.isRl223 = false := by
      cases hb : d.isRl223 with
      | false => rfl
      | true =>
        have : d.ctx.rl223 = true := hb
        simp [plainName, this] at h
    have he : d.decode .qWordString = AttrDecoder.named "QWord" .qWord Boxcars.readU64 := by
      show (if d.isRl223 = true then _ else _) = _
      rw [hr, if_neg (by decide)]
    rw [he]
    exact ⟨_, named _ _ readU64⟩
  all_goals
    unfold AttrDecoder.decode
    try unfold AttrDecoder.decodeUncommon
    simp only
    first | apply named' | apply need'
  case flaggedByte => exact flaggedByte_bdd
  case gameMode =>
    refine ⟨8 + 0, Enough.bind (K := 8) (K' := 0) ?_ fun _ => pure _⟩
    refine (readBits _).mono ?_
    split <;> omega
  case explosion => exact explosion_bdd _
  case loadout => exact loadout_bdd
  case teamLoadout => exact teamLoadout_bdd
  case appliedDamage => exact appliedDamage_bdd d
  case damageState => exact damageState_bdd d
  case camSettings => exact camSettings_bdd d
  case clubColors => exact clubColors_bdd
  case demolish => exact demolish_bdd d
  case demolishExtended => exact demolishExtended_bdd d
  case demolishFx => exact demolishFx_bdd d
  case extendedExplosion => exact extendedExplosion_bdd d
  case musicStinger => exact musicStinger_bdd
  case pickup => exact pickup_bdd
  case pickupNew => exact pickupNew_bdd
  case welded => exact welded_bdd d
  case title => exact title_bdd
  case teamPaint => exact teamPaint_bdd
  case statEvent => exact statEvent_bdd
  case pickupInfo => exact pickupInfo_bdd
  case impulse => exact impulse_bdd
  case replicatedBoost => exact replicatedBoost_bdd
  case logoData => exact logoData_bdd
  all_goals exact ⟨_, by enough⟩

end Enough

/-- A decoder whose failures can be mended by more data fails exactly where a
representation is cut off. -/
theorem cutOff_iff' {ε α : Type} {m : BM ε α} {g : α → List Bool → Prop}
    (hs : ∀ N, BSpec N m (ofB g)) (he : ∀ i, ∃ b a o, ofB g a (i ++ b) o) (i : List Bool) :
    (∀ a o, ¬ofB g a i o) ↔ CutOff g i := by
  constructor
  · intro hn
    obtain ⟨c, a, o, bs, hg, hb⟩ := he i
    by_cases hl : bs.length ≤ i.length
    · obtain ⟨t, ht⟩ : bs <+: i := List.prefix_of_prefix_length_le ⟨_, hb.symm⟩ ⟨_, rfl⟩ hl
      exact (hn a t ⟨bs, hg, ht.symm⟩).elim
    · obtain ⟨t, ht⟩ : i <+: bs := List.prefix_of_prefix_length_le ⟨_, rfl⟩ ⟨_, hb.symm⟩ (by omega)
      subst ht
      refine ⟨a, t, ?_, hg⟩
      rintro rfl
      simp at hl
  · rintro ⟨v, b, hb, hg⟩ a o ⟨bs, hg', rfl⟩
    have h1 : ofB g v ((bs ++ o) ++ b) [] := ⟨_, hg, by simp⟩
    have h2 : ofB g a ((bs ++ o) ++ b) (o ++ b) := ⟨bs, hg', by simp⟩
    have := (hs _).func (Nat.le_refl _) h1 h2
    have h3 := congrArg List.length this.2
    simp only [List.length_nil, List.length_append] at h3
    exact hb (List.eq_nil_of_length_eq_zero (by omega))

/-- With enough bits there is a value. -/
theorem Enough.exists {ε α : Type} {K : Nat} {m : BM ε α} {R : BRel α}
    (hs : ∀ N, BSpec N m R) (he : Enough K m) (i : List Bool) : ∃ b a o, R a (i ++ b) o := by
  have hv : (Reader.mk (i ++ List.replicate K false) 0).Valid := ⟨by simp, by simp⟩
  obtain ⟨a, r', h1, _, _⟩ := he Env.default64 ⟨i ++ List.replicate K false, 0⟩ hv (by simp)
  exact ⟨_, a, _, (hs _).ok_rel hv (Nat.le_refl _) h1⟩

/-- A decoder that succeeds when there is enough data fails exactly where a
representation is cut off. -/
theorem cutOff_iff {ε α : Type} {K : Nat} {m : BM ε α} {g : α → List Bool → Prop}
    (hs : ∀ N, BSpec N m (ofB g)) (he : Enough K m) (i : List Bool) :
    (∀ a o, ¬ofB g a i o) ↔ CutOff g i := cutOff_iff' hs (he.exists hs) i

end Boxcars
