import Verif.Proofs.BitModels
import Verif.Proofs.Grammar
import Verif.Model.Attributes
import Verif.Spec.Attr
import Mathlib.Tactic.Simproc.ExistsAndEq
/-!
# The attribute decoders accept exactly the wire format
-/
namespace Boxcars
open Spec

namespace BSpec

variable {ε ε' α β : Type} {N : Nat}

theorem seq {m : BM ε α} {f : α → BM ε β} {g : α → List Bool → Prop}
    {g' : α → β → List Bool → Prop} (h : BSpec N m (ofB g)) (hf : ∀ a, BSpec N (f a) (ofB (g' a))) :
    BSpec N (m >>= f) (ofB fun b bs => ∃ a b1 b2, g a b1 ∧ g' a b b2 ∧ bs = b1 ++ b2) := by
  refine (bind' h hf).congr ?_
  intro b i o _
  constructor
  · rintro ⟨a, j, ⟨b1, h1, rfl⟩, ⟨b2, h2, rfl⟩⟩
    exact ⟨_, ⟨a, b1, b2, h1, h2, rfl⟩, by simp⟩
  · rintro ⟨_, ⟨a, b1, b2, h1, h2, rfl⟩, rfl⟩
    exact ⟨a, _, ⟨b1, h1, List.append_assoc _ _ _⟩, ⟨b2, h2, rfl⟩⟩

theorem ret (a : α) : BSpec N (Pure.pure a : BM ε α) (ofB fun b bs => b = a ∧ bs = []) := by
  refine (BSpec.pure a).congr ?_
  intro b i o _
  constructor
  · rintro ⟨rfl, rfl⟩; exact ⟨[], ⟨rfl, rfl⟩, rfl⟩
  · rintro ⟨_, ⟨rfl, rfl⟩, rfl⟩; exact ⟨rfl, rfl⟩

theorem gr {m : BM ε α} {g g' : α → List Bool → Prop} (h : BSpec N m (ofB g))
    (hg : ∀ a bs, g a bs ↔ g' a bs) : BSpec N m (ofB g') := by
  have : g = g' := by funext a bs; exact propext (hg a bs)
  rw [← this]; exact h

theorem ofEnc {m : BM ε α} {enc : α → List Bool} (h : BSpec N m (fun a i o => i = enc a ++ o)) :
    BSpec N m (ofB fun a bs => bs = enc a) := by
  refine h.congr ?_
  intro a i o _
  constructor
  · rintro rfl; exact ⟨_, rfl, rfl⟩
  · rintro ⟨_, rfl, rfl⟩; rfl

theorem bit : BSpec N Boxcars.readBit (ofB fun b bs => bs = [b]) := ofEnc BSpec.readBit
theorem u8 : BSpec N Boxcars.readU8 (ofB fun x bs => bs = field 8 x) := ofEnc BSpec.readU8
theorem u32 : BSpec N Boxcars.readU32 (ofB fun x bs => bs = field 32 x) := ofEnc BSpec.readU32
theorem u64 : BSpec N Boxcars.readU64 (ofB fun x bs => bs = field 64 x) := ofEnc BSpec.readU64
theorem rot : BSpec N Rotation.decode (ofB fun x bs => bs = Spec.rotation x) :=
  ofEnc BSpec.rotation

theorem fld (n : Nat) : BSpec N (Boxcars.readBits n) (ofB fun x bs => x < 2 ^ n ∧ bs = bits n x) := by
  refine (BSpec.readBits n).congr ?_
  intro a i o _
  constructor
  · rintro ⟨h, rfl⟩; exact ⟨_, ⟨h, rfl⟩, rfl⟩
  · rintro ⟨_, ⟨h, rfl⟩, rfl⟩; exact ⟨h, rfl⟩

end BSpec

/-- Solve the structural equivalence between a sequence of fields and its grammar. -/
macro "fields" : tactic => `(tactic|
  simp only [existsAndEq, and_true, true_and, and_assoc, exists_and_left, exists_and_right,
    List.append_nil, List.append_assoc, List.cons_append, List.nil_append, exists_eq_left,
    exists_eq_left', exists_eq_right, exists_eq])

/-- The context of a decoder. -/
def AttrDecoder.ctx (d : AttrDecoder) : Ctx where
  major := d.version.major
  minor := d.version.minor
  net := d.version.net
  color := d.product.colorInd
  painted := d.product.paintedInd
  titleId := d.product.titleInd
  special := d.product.specialEditionInd
  team := d.product.teamEditionInd
  rl223 := d.isRl223

theorem ge_iff (d : AttrDecoder) (a b c : Int) :
    d.version.ge a b c = true ↔ d.ctx.atLeast a b c := by
  unfold VersionTriplet.ge Ctx.atLeast AttrDecoder.ctx
  simp only
  split
  · simp only [decide_eq_true_eq]; omega
  · split
    · simp only [decide_eq_true_eq]; omega
    · simp only [decide_eq_true_eq]; omega

variable {ε : Type} {N : Nat}

theorem when_spec {α : Type} {c : Bool} {P : Prop} {f : BM Unit α} {g : α → List Bool → Prop}
    (hc : c = true ↔ P) (h : BSpec N f (ofB g)) : BSpec N (optWhen c f) (ofB (When P g)) := by
  unfold optWhen
  cases c with
  | true =>
    rw [if_pos rfl]
    refine (BSpec.seq h fun _ => BSpec.ret _).gr ?_
    intro v bs
    have hP : P := hc.1 rfl
    simp only [When, hP, not_true_eq_false, false_and, or_false, true_and]
    fields
    constructor
    · rintro ⟨x, h1, h2⟩; exact ⟨x, h2, h1⟩
    · rintro ⟨x, h1, h2⟩; exact ⟨x, h2, h1⟩
  | false =>
    rw [if_neg (by decide)]
    refine (BSpec.ret _).gr ?_
    intro v bs
    have hP : ¬P := fun h => by have := hc.2 h; cases this
    simp [When, hP]

theorem word_spec : BSpec N readU32 (ofB Word) := BSpec.u32

/-- Reading `n` bits into a wider type. -/
theorem narrow_spec {w : Nat} (n : Nat) (hn : n ≤ w) :
    BSpec N (do let x ← readBits n; pure (BitVec.ofNat w x)) (ofB (Narrow n (w := w))) := by
  refine (BSpec.seq (.fld n) fun _ => BSpec.ret _).gr ?_
  intro v bs
  unfold Narrow
  have hp : 2 ^ n ≤ 2 ^ w := Nat.pow_le_pow_right (by decide) hn
  constructor
  · rintro ⟨x, _, _, ⟨hx, rfl⟩, ⟨rfl, rfl⟩, rfl⟩
    rw [BitVec.toNat_ofNat, Nat.mod_eq_of_lt (by omega)]
    exact ⟨hx, List.append_nil _⟩
  · rintro ⟨hx, rfl⟩
    exact ⟨v.toNat, _, [], ⟨hx, rfl⟩, ⟨by simp, rfl⟩, (List.append_nil _).symm⟩

theorem activeActor_spec : BSpec N AttrDecoder.activeActor (ofB fun v bs => bs = activeActor v) := by
  refine (Peek.gateFail (n := 33) () (by decide) ((Peek.peek 1).bind fun a _ _ _ =>
    (Peek.peek 32).bind fun b _ _ _ => Peek.pure _)).congr ?_
  intro v i o _
  constructor
  · rintro ⟨_, a, _, ⟨ha, rfl⟩, b, _, ⟨hb, rfl⟩, rfl, rfl⟩
    refine ⟨_, rfl, ?_⟩
    unfold activeActor field
    simp only [BitVec.toNat_ofNat, Nat.mod_eq_of_lt hb]
    have : a = 0 ∨ a = 1 := by omega
    rcases this with rfl | rfl <;> rfl
  · rintro ⟨_, rfl, rfl⟩
    obtain ⟨a, b⟩ := v
    refine ⟨by simp [activeActor, field], if a then 1 else 0, field 32 b ++ o, ⟨?_, ?_⟩,
      b.toNat, o, ⟨b.isLt, rfl⟩, ?_, rfl⟩
    · cases a <;> decide
    · cases a <;> rfl
    · cases a <;> simp

theorem ifGet_spec {α : Type} {f : BM Unit α} {enc : α → List Bool}
    (h : BSpec N f (fun a i o => i = enc a ++ o)) :
    BSpec N (ifGet f) (ofB fun a bs => bs = opt enc a) := BSpec.ofEnc (BSpec.ifGet h)

theorem ifGet_spec' {α : Type} {f : BM Unit α} {g : α → List Bool → Prop}
    (h : BSpec N f (ofB g)) :
    BSpec N (ifGet f) (ofB fun a bs => (a = none ∧ bs = [false]) ∨
      ∃ x b, a = some x ∧ g x b ∧ bs = true :: b) := by
  unfold ifGet
  refine (BSpec.seq .bit fun b => (?_ : BSpec N _ (ofB fun (a : Option α) bs =>
    (b = true ∧ ∃ x, a = some x ∧ g x bs) ∨ (b = false ∧ a = none ∧ bs = [])))).gr ?_
  · cases b with
    | true =>
      refine (BSpec.seq h fun _ => BSpec.ret _).gr ?_
      intro v bs
      simp only [true_and, reduceCtorEq, false_and, or_false]
      fields
      constructor
      · rintro ⟨x, h1, h2⟩; exact ⟨x, h2, h1⟩
      · rintro ⟨x, h1, h2⟩; exact ⟨x, h2, h1⟩
    | false =>
      refine (BSpec.ret _).gr ?_
      intro v bs
      simp
  · intro v bs
    constructor
    · rintro ⟨b, _, _, rfl, (⟨rfl, x, rfl, hx⟩ | ⟨rfl, rfl, rfl⟩), rfl⟩
      · exact .inr ⟨x, _, rfl, hx, rfl⟩
      · exact .inl ⟨rfl, rfl⟩
    · rintro (⟨rfl, rfl⟩ | ⟨x, b, rfl, hx, rfl⟩)
      · exact ⟨false, _, _, rfl, .inr ⟨rfl, rfl, rfl⟩, rfl⟩
      · exact ⟨true, _, _, rfl, .inl ⟨rfl, x, rfl, hx⟩, rfl⟩

theorem need_spec {α : Type} {m : BM Unit α} {R : BRel α} (what : String) (h : BSpec N m R) :
    BSpec N (need what m) R := h.okOr _

theorem v3_spec (d : AttrDecoder) : BSpec N (Vector3f.decode d.version.netVersion)
    (ofB (Vec3f d.ctx.net)) := BSpec.vec3f _

theorem appliedDamage_spec (d : AttrDecoder) :
    BSpec N d.appliedDamage (ofB (AppliedDamageEnc d.ctx)) := by
  refine (BSpec.seq .u8 fun _ => BSpec.seq (v3_spec d) fun _ => BSpec.seq .u32 fun _ =>
    BSpec.seq .u32 fun _ => BSpec.ret _).gr ?_
  rintro ⟨a, b, c, e⟩ bs
  simp only [AppliedDamageEnc, AppliedDamage.mk.injEq]
  fields

theorem damageState_spec (d : AttrDecoder) :
    BSpec N d.damageState (ofB (DamageStateEnc d.ctx)) := by
  refine (BSpec.seq .u8 fun _ => BSpec.seq .bit fun _ => BSpec.seq .u32 fun _ =>
    BSpec.seq (v3_spec d) fun _ => BSpec.seq .bit fun _ =>
    BSpec.seq .bit fun _ => BSpec.ret _).gr ?_
  rintro ⟨a, b, c, e, f, g⟩ bs
  simp only [DamageStateEnc, DamageState.mk.injEq]
  fields

theorem camSettings_spec (d : AttrDecoder) :
    BSpec N d.camSettings (ofB (CamSettingsEnc d.ctx)) := by
  refine (BSpec.seq .u32 fun _ => BSpec.seq .u32 fun _ => BSpec.seq .u32 fun _ =>
    BSpec.seq .u32 fun _ => BSpec.seq .u32 fun _ => BSpec.seq .u32 fun _ =>
    BSpec.seq (when_spec (ge_iff d _ _ _) word_spec) fun _ => BSpec.ret _).gr ?_
  rintro ⟨a, b, c, e, f, g, h⟩ bs
  simp only [CamSettingsEnc, CamSettings.mk.injEq]
  fields

theorem clubColors_spec : BSpec N AttrDecoder.clubColors (ofB fun v bs => bs = clubColors v) := by
  refine (BSpec.seq .bit fun _ => BSpec.seq .u8 fun _ => BSpec.seq .bit fun _ =>
    BSpec.seq .u8 fun _ => BSpec.ret _).gr ?_
  rintro ⟨a, b, c, e⟩ bs
  simp only [clubColors, ClubColors.mk.injEq]
  fields

theorem demolish_spec (d : AttrDecoder) :
    BSpec N d.demolish (ofB (DemolishEnc d.ctx)) := by
  refine (BSpec.seq .bit fun _ => BSpec.seq .u32 fun _ => BSpec.seq .bit fun _ =>
    BSpec.seq .u32 fun _ => BSpec.seq (v3_spec d) fun _ => BSpec.seq (v3_spec d) fun _ =>
    BSpec.ret _).gr ?_
  rintro ⟨a, b, c, e, f, g⟩ bs
  simp only [DemolishEnc, Demolish.mk.injEq]
  fields

theorem demolishFx_spec (d : AttrDecoder) :
    BSpec N d.demolishFx (ofB (DemolishFxEnc d.ctx)) := by
  refine (BSpec.seq .bit fun _ => BSpec.seq .u32 fun _ => BSpec.seq .bit fun _ =>
    BSpec.seq .u32 fun _ => BSpec.seq .bit fun _ =>
    BSpec.seq .u32 fun _ => BSpec.seq (v3_spec d) fun _ => BSpec.seq (v3_spec d) fun _ =>
    BSpec.ret _).gr ?_
  rintro ⟨a, b, c, e, f, g, h, i⟩ bs
  simp only [DemolishFxEnc, DemolishFx.mk.injEq]
  fields

theorem demolishExtended_spec (d : AttrDecoder) :
    BSpec N d.demolishExtended (ofB (DemolishExtendedEnc d.ctx)) := by
  refine (BSpec.seq activeActor_spec fun _ => BSpec.seq activeActor_spec fun _ =>
    BSpec.seq .bit fun _ => BSpec.seq activeActor_spec fun _ => BSpec.seq activeActor_spec fun _ =>
    BSpec.seq activeActor_spec fun _ => BSpec.seq (v3_spec d) fun _ =>
    BSpec.seq (v3_spec d) fun _ => BSpec.ret _).gr ?_
  rintro ⟨a, b, c, e, f, g, h, i⟩ bs
  simp only [DemolishExtendedEnc, DemolishExtended.mk.injEq]
  fields

theorem explosion_spec (d : AttrDecoder) :
    BSpec N (decodeExplosion d.version.netVersion) (ofB (ExplosionEnc d.ctx)) := by
  refine (BSpec.seq .bit fun _ => BSpec.seq .u32 fun _ => BSpec.seq (v3_spec d) fun _ =>
    BSpec.ret _).gr ?_
  rintro ⟨a, b, c⟩ bs
  simp only [ExplosionEnc, Explosion.mk.injEq]
  fields

theorem extendedExplosion_spec (d : AttrDecoder) :
    BSpec N d.extendedExplosion (ofB (ExtendedExplosionEnc d.ctx)) := by
  refine (BSpec.seq (explosion_spec d) fun _ => BSpec.seq .bit fun _ => BSpec.seq .u32 fun _ =>
    BSpec.ret _).gr ?_
  rintro ⟨a, b, c⟩ bs
  simp only [ExtendedExplosionEnc, ExtendedExplosion.mk.injEq]
  fields

theorem musicStinger_spec :
    BSpec N AttrDecoder.musicStinger (ofB fun v bs => bs = musicStinger v) := by
  refine (BSpec.seq .bit fun _ => BSpec.seq .u32 fun _ => BSpec.seq .u8 fun _ =>
    BSpec.ret _).gr ?_
  rintro ⟨a, b, c⟩ bs
  simp only [musicStinger, MusicStinger.mk.injEq]
  fields

theorem pickup_spec : BSpec N AttrDecoder.pickup (ofB fun v bs => bs = pickup v) := by
  refine (BSpec.seq (ifGet_spec BSpec.readU32) fun _ => BSpec.seq .bit fun _ =>
    BSpec.ret _).gr ?_
  rintro ⟨a, b⟩ bs
  simp only [pickup, Pickup.mk.injEq]
  fields

theorem pickupNew_spec : BSpec N AttrDecoder.pickupNew (ofB fun v bs => bs = pickupNew v) := by
  refine (BSpec.seq (ifGet_spec BSpec.readU32) fun _ => BSpec.seq .u8 fun _ =>
    BSpec.ret _).gr ?_
  rintro ⟨a, b⟩ bs
  simp only [pickupNew, PickupNew.mk.injEq]
  fields

theorem welded_spec (d : AttrDecoder) : BSpec N d.welded (ofB (WeldedEnc d.ctx)) := by
  refine (BSpec.seq .bit fun _ => BSpec.seq .u32 fun _ => BSpec.seq (v3_spec d) fun _ =>
    BSpec.seq .u32 fun _ => BSpec.seq .rot fun _ => BSpec.ret _).gr ?_
  rintro ⟨a, b, c, e, f⟩ bs
  simp only [WeldedEnc, Welded.mk.injEq]
  fields

theorem teamPaint_spec : BSpec N AttrDecoder.teamPaint (ofB fun v bs => bs = teamPaint v) := by
  refine (BSpec.seq .u8 fun _ => BSpec.seq .u8 fun _ => BSpec.seq .u8 fun _ =>
    BSpec.seq .u32 fun _ => BSpec.seq .u32 fun _ => BSpec.ret _).gr ?_
  rintro ⟨a, b, c, e, f⟩ bs
  simp only [teamPaint, TeamPaint.mk.injEq]
  fields

theorem statEvent_spec : BSpec N AttrDecoder.statEvent (ofB fun v bs => bs = statEvent v) := by
  refine (BSpec.seq .bit fun _ => BSpec.seq .u32 fun _ => BSpec.ret _).gr ?_
  rintro ⟨a, b⟩ bs
  simp only [statEvent, StatEvent.mk.injEq]
  fields

theorem pickupInfo_spec : BSpec N AttrDecoder.pickupInfo (ofB fun v bs => bs = pickupInfo v) := by
  refine (BSpec.seq activeActor_spec fun _ => BSpec.seq activeActor_spec fun _ =>
    BSpec.seq activeActor_spec fun _ => BSpec.seq .bit fun _ => BSpec.ret _).gr ?_
  rintro ⟨⟨a, b, c⟩, e⟩ bs
  simp only [pickupInfo, PickupInfo.mk.injEq, Prod.mk.injEq]
  fields

theorem impulse_spec : BSpec N AttrDecoder.impulse (ofB fun v bs => bs = impulse v) := by
  refine (BSpec.seq .u32 fun _ => BSpec.seq .u32 fun _ => BSpec.ret _).gr ?_
  rintro ⟨a, b⟩ bs
  simp only [impulse, Impulse.mk.injEq]
  fields

theorem replicatedBoost_spec :
    BSpec N AttrDecoder.replicatedBoost (ofB fun v bs => bs = replicatedBoost v) := by
  refine (BSpec.seq .u8 fun _ => BSpec.seq .u8 fun _ => BSpec.seq .u8 fun _ =>
    BSpec.seq .u8 fun _ => BSpec.ret _).gr ?_
  rintro ⟨a, b, c, e⟩ bs
  simp only [replicatedBoost, ReplicatedBoost.mk.injEq]
  fields

theorem logoData_spec : BSpec N AttrDecoder.logoData (ofB fun v bs => bs = logoData v) := by
  refine (BSpec.seq .u32 fun _ => BSpec.seq .bit fun _ => BSpec.ret _).gr ?_
  rintro ⟨a, b⟩ bs
  simp only [logoData, LogoData.mk.injEq]
  fields

/-! ### Texts -/

theorem readBytes_spec (n : Nat) :
    BSpec N (readBytes n) (ofB fun b bs => b.length = n ∧ bs = bytes b) := by
  refine (BSpec.readBytes n).congr ?_
  intro a i o _
  constructor
  · rintro ⟨h, rfl⟩; exact ⟨_, ⟨h, rfl⟩, rfl⟩
  · rintro ⟨_, ⟨h, rfl⟩, rfl⟩; exact ⟨h, rfl⟩

theorem BSpec.failG {α : Type} {ε : Type} (e : ε) :
    BSpec N (BM.fail e : BM ε α) (ofB fun _ _ => False) := by
  refine (BSpec.fail e).congr ?_
  intro a i o _
  constructor
  · exact False.elim
  · rintro ⟨_, h, _⟩; exact h

theorem textBody_spec (c : I32) :
    BSpec N (if c.toInt = 0 then pure []
      else if c.toInt < 0 then
        if c.toInt * -2 > 2147483647 then BM.fail (.tooBigString c)
        else if (c.toInt * -2).toNat > bufLen then BM.fail (.tooBigString c)
        else do
          let b ← BM.okOr (.tooBigString c) (readBytes (c.toInt * -2).toNat)
          pure (decodeUtf16 b)
      else if c.toInt.toNat > bufLen then BM.fail (.tooBigString c)
      else do
        let b ← BM.okOr (.tooBigString c) (readBytes c.toInt.toNat)
        pure (decodeWindows1252 b) : BM AttributeError Str)
      (ofB fun s bs => (c.toInt = 0 ∧ s = [] ∧ bs = []) ∨
        (-512 ≤ c.toInt ∧ c.toInt < 0 ∧
          ∃ b, b.length = (c.toInt * -2).toNat ∧ s = decodeUtf16 b ∧ bs = bytes b) ∨
        (0 < c.toInt ∧ c.toInt ≤ 1024 ∧
          ∃ b, b.length = c.toInt.toNat ∧ s = decodeWindows1252 b ∧ bs = bytes b)) := by
  by_cases h0 : c.toInt = 0
  · rw [if_pos h0]
    refine (BSpec.ret _).gr ?_
    intro s bs
    constructor
    · rintro ⟨rfl, rfl⟩; exact .inl ⟨h0, rfl, rfl⟩
    · rintro (⟨_, h⟩ | ⟨_, h, _⟩ | ⟨h, _⟩)
      · exact h
      · omega
      · omega
  · rw [if_neg h0]
    by_cases hn : c.toInt < 0
    · rw [if_pos hn]
      by_cases h1 : c.toInt * -2 > 2147483647
      · rw [if_pos h1]
        refine (BSpec.failG _).gr ?_
        intro s bs
        constructor
        · exact False.elim
        · rintro (⟨h, _⟩ | ⟨h, _, _⟩ | ⟨h, _⟩) <;> omega
      · rw [if_neg h1]
        by_cases h2 : (c.toInt * -2).toNat > bufLen
        · rw [if_pos h2]
          unfold bufLen at h2
          refine (BSpec.failG _).gr ?_
          intro s bs
          constructor
          · exact False.elim
          · rintro (⟨h, _⟩ | ⟨h, _, _⟩ | ⟨h, _⟩) <;> omega
        · rw [if_neg h2]
          unfold bufLen at h2
          refine (BSpec.seq ((readBytes_spec _).okOr _) fun _ => BSpec.ret _).gr ?_
          intro s bs
          constructor
          · rintro ⟨b, _, _, ⟨hb, rfl⟩, ⟨rfl, rfl⟩, rfl⟩
            exact .inr (.inl ⟨by omega, hn, b, hb, rfl, List.append_nil _⟩)
          · rintro (⟨h, _⟩ | ⟨h, _, b, hb, rfl, rfl⟩ | ⟨h, _⟩)
            · omega
            · exact ⟨b, _, _, ⟨hb, rfl⟩, ⟨rfl, rfl⟩, (List.append_nil _).symm⟩
            · omega
    · rw [if_neg hn]
      by_cases h2 : c.toInt.toNat > bufLen
      · rw [if_pos h2]
        unfold bufLen at h2
        refine (BSpec.failG _).gr ?_
        intro s bs
        constructor
        · exact False.elim
        · rintro (⟨h, _⟩ | ⟨_, h, _⟩ | ⟨_, h, _⟩) <;> omega
      · rw [if_neg h2]
        unfold bufLen at h2
        refine (BSpec.seq ((readBytes_spec _).okOr _) fun _ => BSpec.ret _).gr ?_
        intro s bs
        constructor
        · rintro ⟨b, _, _, ⟨hb, rfl⟩, ⟨rfl, rfl⟩, rfl⟩
          exact .inr (.inr ⟨by omega, by omega, b, hb, rfl, List.append_nil _⟩)
        · rintro (⟨h, _⟩ | ⟨_, h, _⟩ | ⟨h, _, b, hb, rfl, rfl⟩)
          · omega
          · omega
          · exact ⟨b, _, _, ⟨hb, rfl⟩, ⟨rfl, rfl⟩, (List.append_nil _).symm⟩

theorem text_spec : BSpec N decodeText (ofB NetText) := by
  unfold decodeText
  refine (BSpec.seq (need_spec _ .u32) fun c => textBody_spec c).gr ?_
  intro s bs
  unfold NetText
  constructor
  · rintro ⟨c, b1, b2, rfl, h, rfl⟩
    rcases h with ⟨h1, rfl, rfl⟩ | ⟨h1, h2, b, h3, h4, rfl⟩ | ⟨h1, h2, b, h3, h4, rfl⟩
    · left
      have : c = 0 := by
        apply BitVec.eq_of_toInt_eq
        rw [show (0 : BitVec 32).toInt = 0 by decide]
        omega
      rw [this]; exact ⟨rfl, List.append_nil _⟩
    · right; right
      obtain ⟨us, hl, rfl⟩ := exists_units c.toInt.natAbs b (by omega)
      rcases List.eq_nil_or_concat us with rfl | ⟨u, last, rfl⟩
      · simp only [List.length_nil] at hl; omega
      · simp only [List.concat_eq_append] at *
        rw [decodeUtf16_units] at h4
        simp only [List.length_append, List.length_cons, List.length_nil] at hl
        refine ⟨u, last, by omega, (utf16Decode_iff _ _).1 h4.symm, ?_⟩
        have : c = -(BitVec.ofNat 32 (u.length + 1)) := by
          apply BitVec.eq_of_toInt_eq
          have hu : (BitVec.ofNat 32 (u.length + 1)).toInt = u.length + 1 := by
            rw [BitVec.toInt_ofNat', Int.bmod_eq_of_le] <;> omega
          rw [BitVec.toInt_neg, hu, Int.bmod_eq_of_le] <;> omega
        rw [← this]
    · right; left
      rw [decodeWindows1252_iff] at h4
      rcases h4 with ⟨rfl, rfl⟩ | ⟨body, last, rfl, hs⟩
      · simp only [List.length_nil] at h3
        omega
      · simp only [List.length_append, List.length_cons, List.length_nil] at h3
        refine ⟨body, last, by omega, hs, ?_⟩
        have : c = BitVec.ofNat 32 (body.length + 1) := by
          apply BitVec.eq_of_toInt_eq
          rw [BitVec.toInt_ofNat', Int.bmod_eq_of_le] <;> omega
        rw [← this]
  · rintro (⟨rfl, rfl⟩ | ⟨body, last, hl, hs, rfl⟩ | ⟨us, last, hl, hs, rfl⟩)
    · exact ⟨0, _, [], rfl, .inl ⟨by decide, rfl, rfl⟩, (List.append_nil _).symm⟩
    · have hu : (BitVec.ofNat 32 (body.length + 1)).toInt = body.length + 1 := by
        rw [BitVec.toInt_ofNat', Int.bmod_eq_of_le] <;> omega
      refine ⟨_, _, _, rfl, .inr (.inr ⟨by omega, by omega, body ++ [last], ?_, ?_, rfl⟩), rfl⟩
      · rw [hu]; simp
      · rw [decodeWindows1252_iff]; exact .inr ⟨body, last, rfl, hs⟩
    · have hu : (BitVec.ofNat 32 (us.length + 1)).toInt = us.length + 1 := by
        rw [BitVec.toInt_ofNat', Int.bmod_eq_of_le] <;> omega
      have hu' : (-(BitVec.ofNat 32 (us.length + 1))).toInt = -(us.length + 1) := by
        rw [BitVec.toInt_neg, hu, Int.bmod_eq_of_le] <;> omega
      refine ⟨_, _, _, rfl, .inr (.inl ⟨by omega, by omega, _, ?_, ?_, rfl⟩), rfl⟩
      · rw [hu', flatMap_le2_length, List.length_append]
        simp only [List.length_cons, List.length_nil]
        omega
      · rw [decodeUtf16_units]; exact ((utf16Decode_iff _ _).2 hs).symm

end Boxcars
