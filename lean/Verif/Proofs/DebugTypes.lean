import Verif.Proofs.DebugRead
import Verif.Proofs.MessageSize
/-!
# The `Debug` text of every type
-/
namespace Boxcars.Debug
open Boxcars Spec Json

variable {s : Std}

/-! ### Well-formed -/

theorem wf_record {n : String} {fs : List (String × DVal)} (hn : Word n ∧ n ≠ "")
    (h : (items fs).Wf .record) : (record n fs).Wf :=
  ⟨hn.1, ⟨fun e => absurd e hn.2, fun e => by cases e⟩, h⟩

theorem wf_call {n : String} {fs : List DVal} (hn : Word n ∧ n ≠ "")
    (h : (unnamed fs).Wf .call) : (call n fs).Wf :=
  ⟨hn.1, ⟨fun e => absurd e hn.2, fun e => by cases e⟩, h⟩

theorem wf_nil {k : Kind} : (items []).Wf k := trivial

theorem wf_cons {l : String} {v : DVal} {fs : List (String × DVal)} (hl : Word l) (hv : v.Wf)
    (h : (items fs).Wf .record) : (items ((l, v) :: fs)).Wf .record :=
  ⟨hl, fun h => absurd rfl h, hv, h⟩

theorem wf_unnamed {k : Kind} {vs : List DVal} (h : ∀ v ∈ vs, v.Wf) : (unnamed vs).Wf k := by
  induction vs with
  | nil => trivial
  | cons v vs ih =>
    exact ⟨by decide, fun _ => rfl, h v (.head _), ih fun w hw => h w (.tail _ hw)⟩

theorem wf_arg {k : Kind} {v : DVal} {vs : List DVal} (hv : v.Wf) (h : (unnamed vs).Wf k) :
    (unnamed (v :: vs)).Wf k :=
  ⟨by decide, fun _ => rfl, hv, h⟩

theorem wf_none {k : Kind} : (unnamed []).Wf k := trivial

theorem unit_wf {n : String} (hn : Word n ∧ n ≠ "") : (dUnit n).Wf := ⟨toList_ne hn.2, hn.1⟩

theorem bool_wf (b : Bool) : (dBool b).Wf := by
  cases b <;> exact ⟨by decide, by decide, by decide⟩

theorem digit_atom : ∀ d < 10, AtomChar (digitOf d) := by decide

theorem displayNat_atom (n : Nat) : ∀ c ∈ displayNat n, AtomChar c := by
  intro c hc
  obtain ⟨d, hd, e⟩ := decimal_digits (decimal_display n) c hc
  rw [e]; exact digit_atom d hd

theorem displayInt_atom (i : Int) : ∀ c ∈ displayInt i, AtomChar c := by
  unfold displayInt
  split
  · intro c hc
    rcases List.mem_cons.1 hc with rfl | hc
    · decide
    · exact displayNat_atom _ c hc
  · exact displayNat_atom _

theorem displayNat_ne (n : Nat) : displayNat n ≠ [] := Nat.toDigits_ne_nil

theorem displayInt_ne (i : Int) : displayInt i ≠ [] := by
  unfold displayInt
  split
  · exact List.cons_ne_nil _ _
  · exact displayNat_ne _

theorem length_le_len (a : Str) : a.length ≤ len a := by
  induction a with
  | nil => exact Nat.le_refl _
  | cons c a ih =>
    have := len_char_pos c
    rw [len_cons, List.length_cons]; omega

theorem unsigned_wf {w : Nat} (hw : w ≤ 64) (x : BitVec w) : (dUnsigned x).Wf := by
  refine ⟨displayNat_ne _, displayNat_atom _, ?_⟩
  have h1 := Nat.lt_of_lt_of_le x.isLt (Nat.pow_le_pow_right (by decide) hw)
  have := MessageSize.nat_len (n := x.toNat) (k := 20) (by decide) (by omega)
  have := length_le_len (displayNat x.toNat)
  omega

theorem signed_wf {w : Nat} (hw : w ≤ 64) (x : BitVec w) : (dSigned x).Wf := by
  refine ⟨displayInt_ne _, displayInt_atom _, ?_⟩
  have h1 := Nat.lt_of_lt_of_le x.isLt (Nat.pow_le_pow_right (by decide) hw)
  have h2 : x.toInt.natAbs < 10 ^ 20 := by
    rw [BitVec.toInt_eq_toNat_bmod]
    rw [Int.bmod]
    have := Nat.pow_le_pow_right (n := 2) (by decide) hw
    have := x.isLt
    split <;> omega
  have := int_len (k := 20) (by decide) h2
  have := length_le_len (displayInt x.toInt)
  omega

theorem f32_wf (x : F32) : (dF32 x).Wf := trivial
theorem str_wf (x : Str) : (dStr x).Wf := trivial

theorem actorId_wf (x : ActorId) : (dActorId x).Wf :=
  wf_call (by decide +kernel) (wf_arg (signed_wf (by decide) x) wf_none)

theorem objectId_wf (x : ObjectId) : (dObjectId x).Wf :=
  wf_call (by decide +kernel) (wf_arg (signed_wf (by decide) x) wf_none)

theorem option_wf {α : Type} {d : α → DVal} (h : ∀ x, (d x).Wf) (o : Option α) : (dOption d o).Wf := by
  cases o with
  | none => exact unit_wf (by decide +kernel)
  | some x => exact wf_call (by decide +kernel) (wf_arg (h x) wf_none)

theorem list_wf {α : Type} {d : α → DVal} (h : ∀ x, (d x).Wf) (l : List α) : (dList d l).Wf := by
  refine ⟨by decide, ⟨fun _ => rfl, fun _ => rfl⟩, wf_unnamed ?_⟩
  intro v hv
  obtain ⟨x, _, rfl⟩ := List.mem_map.1 hv
  exact h x

theorem array3_wf {α : Type} {d : α → DVal} (h : ∀ x, (d x).Wf) (x : α × α × α) : (dArray3 d x).Wf := by
  refine ⟨by decide, ⟨fun _ => rfl, fun _ => rfl⟩, ?_⟩
  exact wf_arg (h _) (wf_arg (h _) (wf_arg (h _) wf_none))

/-! ### What is equal -/

theorem unsigned_same {w : Nat} (a b : BitVec w) :
    (dUnsigned a).erase s = (dUnsigned b).erase s ↔ a = b := by
  refine ⟨fun h => ?_, fun h => by rw [h]⟩
  exact BitVec.eq_of_toNat_eq (displayNat_inj (DVal.atom.inj h))

theorem signed_same {w : Nat} (a b : BitVec w) :
    (dSigned a).erase s = (dSigned b).erase s ↔ a = b := by
  refine ⟨fun h => ?_, fun h => by rw [h]⟩
  exact BitVec.eq_of_toInt_eq (displayInt_inj (DVal.atom.inj h))

theorem bool_same (a b : Bool) : (dBool a).erase s = (dBool b).erase s ↔ a = b := by
  refine ⟨fun h => ?_, fun h => by rw [h]⟩
  have h := DVal.atom.inj h
  cases a <;> cases b <;> revert h <;> decide

theorem str_same (a b : Str) : (dStr a).erase s = (dStr b).erase s ↔ a = b :=
  ⟨fun h => DVal.text.inj h, fun h => by rw [h]⟩

theorem actorId_same (a b : ActorId) : (dActorId a).erase s = (dActorId b).erase s ↔ a = b := by
  simp only [dActorId, call, unnamed, DVal.erase, DItems.erase, DVal.node.injEq, DItems.cons.injEq,
    true_and, and_true, signed_same]

theorem objectId_same (a b : ObjectId) : (dObjectId a).erase s = (dObjectId b).erase s ↔ a = b := by
  simp only [dObjectId, call, unnamed, DVal.erase, DItems.erase, DVal.node.injEq, DItems.cons.injEq,
    true_and, and_true, signed_same]

theorem option_tells {α : Type} {d : α → DVal} {q : α → α}
    (h : ∀ a b, (d a).erase s = (d b).erase s ↔ q a = q b) (a b : Option α) :
    (dOption d a).erase s = (dOption d b).erase s ↔ a.map q = b.map q := by
  cases a <;> cases b <;>
    simp [dOption, dUnit, call, unnamed, DVal.erase, DItems.erase, h]

theorem option_same {α : Type} {d : α → DVal}
    (h : ∀ a b, (d a).erase s = (d b).erase s ↔ a = b) (a b : Option α) :
    (dOption d a).erase s = (dOption d b).erase s ↔ a = b := by
  rw [option_tells (q := id) h, Option.map_id, id, id]

theorem list_same {α : Type} {d : α → DVal}
    (h : ∀ a b, (d a).erase s = (d b).erase s ↔ a = b) (a b : List α) :
    (dList d a).erase s = (dList d b).erase s ↔ a = b := by
  simp only [dList, DVal.erase, DVal.node.injEq, true_and]
  induction a generalizing b with
  | nil => cases b <;> simp [unnamed, DItems.erase]
  | cons x a ih => cases b <;> simp [unnamed, DItems.erase, h, ih]

theorem array3_same {α : Type} {d : α → DVal}
    (h : ∀ a b, (d a).erase s = (d b).erase s ↔ a = b) (a b : α × α × α) :
    (dArray3 d a).erase s = (dArray3 d b).erase s ↔ a = b := by
  obtain ⟨a1, a2, a3⟩ := a
  obtain ⟨b1, b2, b3⟩ := b
  simp [dArray3, DVal.erase, unnamed, DItems.erase, h]

/-! ### Every type -/

theorem quiet_iff (x y : F32) : quietF32 x = quietF32 y ↔ x = y ∨ (IsNaN x ∧ IsNaN y) := by
  have hq : IsNaN 0x7fc00000 := by decide
  unfold quietF32
  by_cases hx : IsNaN x <;> by_cases hy : IsNaN y <;> simp only [hx, hy, if_true, if_false]
  · simp
  · simp only [and_false, or_false]
    exact ⟨fun h => absurd (h ▸ hq) hy, fun h => absurd (h ▸ hx) hy⟩
  · simp only [false_and, or_false]
    exact ⟨fun h => absurd (h ▸ hq) hx, fun h => absurd (h ▸ hy) hx⟩
  · simp

theorem f32_tells {n : Nat} (hf : FloatDebug n s.debug) (a b : F32) :
    (dF32 a).erase s = (dF32 b).erase s ↔ quietF32 a = quietF32 b := by
  rw [quiet_iff, ← hf.same]
  exact ⟨fun h => DVal.atom.inj h, fun h => congrArg DVal.atom h⟩

def quietQuat (v : Quaternion) : Quaternion :=
  ⟨quietF32 v.x, quietF32 v.y, quietF32 v.z, quietF32 v.w⟩

theorem quietQuat_def (v : Quaternion) :
    quietQuat v = ⟨quietF32 v.x, quietF32 v.y, quietF32 v.z, quietF32 v.w⟩ := rfl

theorem vector3f_wf (v : Vector3f) : (dVector3f v).Wf :=
  wf_record (by decide +kernel)
    (wf_cons (by decide +kernel) (f32_wf _)
    (wf_cons (by decide +kernel) (f32_wf _)
    (wf_cons (by decide +kernel) (f32_wf _) wf_nil)))

theorem vector3f_tells {n : Nat} (hf : FloatDebug n s.debug) (a b : Vector3f) :
    (dVector3f a).erase s = (dVector3f b).erase s ↔ quietVec a = quietVec b := by
  simp only [dVector3f, record, items, DVal.erase, DItems.erase, DVal.node.injEq,
    DItems.cons.injEq, true_and, and_true, (f32_tells hf), quietVec, Vector3f.mk.injEq]

theorem vector3i_wf (v : Vector3i) : (dVector3i v).Wf :=
  wf_record (by decide +kernel)
    (wf_cons (by decide +kernel) ((signed_wf (by decide)) _)
    (wf_cons (by decide +kernel) ((signed_wf (by decide)) _)
    (wf_cons (by decide +kernel) ((signed_wf (by decide)) _) wf_nil)))

theorem vector3i_same (a b : Vector3i) : (dVector3i a).erase s = (dVector3i b).erase s ↔ a = b :=
  by
  cases a; cases b
  simp only [dVector3i, record, items, DVal.erase, DItems.erase, DVal.node.injEq,
    DItems.cons.injEq, true_and, and_true, signed_same, Vector3i.mk.injEq]

theorem quaternion_wf (v : Quaternion) : (dQuaternion v).Wf :=
  wf_record (by decide +kernel)
    (wf_cons (by decide +kernel) (f32_wf _)
    (wf_cons (by decide +kernel) (f32_wf _)
    (wf_cons (by decide +kernel) (f32_wf _)
    (wf_cons (by decide +kernel) (f32_wf _) wf_nil))))

theorem quaternion_tells {n : Nat} (hf : FloatDebug n s.debug) (a b : Quaternion) :
    (dQuaternion a).erase s = (dQuaternion b).erase s ↔ quietQuat a = quietQuat b := by
  simp only [dQuaternion, record, items, DVal.erase, DItems.erase, DVal.node.injEq,
    DItems.cons.injEq, true_and, and_true, (f32_tells hf), quietQuat, Quaternion.mk.injEq]

theorem rotation_wf (v : Rotation) : (dRotation v).Wf :=
  wf_record (by decide +kernel)
    (wf_cons (by decide +kernel) ((option_wf (signed_wf (by decide))) _)
    (wf_cons (by decide +kernel) ((option_wf (signed_wf (by decide))) _)
    (wf_cons (by decide +kernel) ((option_wf (signed_wf (by decide))) _) wf_nil)))

theorem rotation_same (a b : Rotation) : (dRotation a).erase s = (dRotation b).erase s ↔ a = b :=
  by
  cases a; cases b
  simp only [dRotation, record, items, DVal.erase, DItems.erase, DVal.node.injEq,
    DItems.cons.injEq, true_and, and_true, (option_same signed_same), Rotation.mk.injEq]

theorem activeActor_wf (v : ActiveActor) : (dActiveActor v).Wf :=
  wf_record (by decide +kernel)
    (wf_cons (by decide +kernel) (bool_wf _)
    (wf_cons (by decide +kernel) (actorId_wf _) wf_nil))

theorem activeActor_same (a b : ActiveActor) : (dActiveActor a).erase s = (dActiveActor b).erase
  s ↔ a = b := by
  cases a; cases b
  simp only [dActiveActor, record, items, DVal.erase, DItems.erase, DVal.node.injEq,
    DItems.cons.injEq, true_and, and_true, bool_same, actorId_same, ActiveActor.mk.injEq]

theorem camSettings_wf (v : CamSettings) : (dCamSettings v).Wf :=
  wf_record (by decide +kernel)
    (wf_cons (by decide +kernel) (f32_wf _)
    (wf_cons (by decide +kernel) (f32_wf _)
    (wf_cons (by decide +kernel) (f32_wf _)
    (wf_cons (by decide +kernel) (f32_wf _)
    (wf_cons (by decide +kernel) (f32_wf _)
    (wf_cons (by decide +kernel) (f32_wf _)
    (wf_cons (by decide +kernel) ((option_wf f32_wf) _) wf_nil)))))))

theorem camSettings_tells {n : Nat} (hf : FloatDebug n s.debug) (a b : CamSettings) :
    (dCamSettings a).erase s = (dCamSettings b).erase s ↔ quiet (.camSettings a) = quiet
      (.camSettings b) := by
  simp only [dCamSettings, record, items, DVal.erase, DItems.erase, DVal.node.injEq,
    DItems.cons.injEq, true_and, and_true, (f32_tells hf), (option_tells (f32_tells hf)), quiet,
    Attribute.camSettings.injEq, CamSettings.mk.injEq]

theorem clubColors_wf (v : ClubColors) : (dClubColors v).Wf :=
  wf_record (by decide +kernel)
    (wf_cons (by decide +kernel) (bool_wf _)
    (wf_cons (by decide +kernel) ((unsigned_wf (by decide)) _)
    (wf_cons (by decide +kernel) (bool_wf _)
    (wf_cons (by decide +kernel) ((unsigned_wf (by decide)) _) wf_nil))))

theorem clubColors_same (a b : ClubColors) : (dClubColors a).erase s = (dClubColors b).erase s ↔
  a = b := by
  cases a; cases b
  simp only [dClubColors, record, items, DVal.erase, DItems.erase, DVal.node.injEq,
    DItems.cons.injEq, true_and, and_true, bool_same, unsigned_same, ClubColors.mk.injEq]

theorem appliedDamage_wf (v : AppliedDamage) : (dAppliedDamage v).Wf :=
  wf_record (by decide +kernel)
    (wf_cons (by decide +kernel) ((unsigned_wf (by decide)) _)
    (wf_cons (by decide +kernel) (vector3f_wf _)
    (wf_cons (by decide +kernel) ((signed_wf (by decide)) _)
    (wf_cons (by decide +kernel) ((signed_wf (by decide)) _) wf_nil))))

theorem appliedDamage_tells {n : Nat} (hf : FloatDebug n s.debug) (a b : AppliedDamage) :
    (dAppliedDamage a).erase s = (dAppliedDamage b).erase s ↔ quiet (.appliedDamage a) = quiet
      (.appliedDamage b) := by
  simp only [dAppliedDamage, record, items, DVal.erase, DItems.erase, DVal.node.injEq,
    DItems.cons.injEq, true_and, and_true, unsigned_same, (vector3f_tells hf), signed_same,
    quiet, Attribute.appliedDamage.injEq, AppliedDamage.mk.injEq]

theorem damageState_wf (v : DamageState) : (dDamageState v).Wf :=
  wf_record (by decide +kernel)
    (wf_cons (by decide +kernel) ((unsigned_wf (by decide)) _)
    (wf_cons (by decide +kernel) (bool_wf _)
    (wf_cons (by decide +kernel) (actorId_wf _)
    (wf_cons (by decide +kernel) (vector3f_wf _)
    (wf_cons (by decide +kernel) (bool_wf _)
    (wf_cons (by decide +kernel) (bool_wf _) wf_nil))))))

theorem damageState_tells {n : Nat} (hf : FloatDebug n s.debug) (a b : DamageState) :
    (dDamageState a).erase s = (dDamageState b).erase s ↔ quiet (.damageState a) = quiet
      (.damageState b) := by
  simp only [dDamageState, record, items, DVal.erase, DItems.erase, DVal.node.injEq,
    DItems.cons.injEq, true_and, and_true, unsigned_same, bool_same, actorId_same,
    (vector3f_tells hf), quiet, Attribute.damageState.injEq, DamageState.mk.injEq]

theorem demolish_wf (v : Demolish) : (dDemolish v).Wf :=
  wf_record (by decide +kernel)
    (wf_cons (by decide +kernel) (bool_wf _)
    (wf_cons (by decide +kernel) (actorId_wf _)
    (wf_cons (by decide +kernel) (bool_wf _)
    (wf_cons (by decide +kernel) (actorId_wf _)
    (wf_cons (by decide +kernel) (vector3f_wf _)
    (wf_cons (by decide +kernel) (vector3f_wf _) wf_nil))))))

theorem demolish_tells {n : Nat} (hf : FloatDebug n s.debug) (a b : Demolish) :
    (dDemolish a).erase s = (dDemolish b).erase s ↔ quiet (.demolish a) = quiet (.demolish b) :=
      by
  simp only [dDemolish, record, items, DVal.erase, DItems.erase, DVal.node.injEq,
    DItems.cons.injEq, true_and, and_true, bool_same, actorId_same, (vector3f_tells hf), quiet,
    Attribute.demolish.injEq, Demolish.mk.injEq]

theorem demolishExtended_wf (v : DemolishExtended) : (dDemolishExtended v).Wf :=
  wf_record (by decide +kernel)
    (wf_cons (by decide +kernel) (activeActor_wf _)
    (wf_cons (by decide +kernel) (activeActor_wf _)
    (wf_cons (by decide +kernel) (bool_wf _)
    (wf_cons (by decide +kernel) (activeActor_wf _)
    (wf_cons (by decide +kernel) (activeActor_wf _)
    (wf_cons (by decide +kernel) (activeActor_wf _)
    (wf_cons (by decide +kernel) (vector3f_wf _)
    (wf_cons (by decide +kernel) (vector3f_wf _) wf_nil))))))))

theorem demolishExtended_tells {n : Nat} (hf : FloatDebug n s.debug) (a b : DemolishExtended) :
    (dDemolishExtended a).erase s = (dDemolishExtended b).erase s ↔ quiet (.demolishExtended a) =
      quiet (.demolishExtended b) := by
  simp only [dDemolishExtended, record, items, DVal.erase, DItems.erase, DVal.node.injEq,
    DItems.cons.injEq, true_and, and_true, activeActor_same, bool_same, (vector3f_tells hf),
    quiet, Attribute.demolishExtended.injEq, DemolishExtended.mk.injEq]

theorem demolishFx_wf (v : DemolishFx) : (dDemolishFx v).Wf :=
  wf_record (by decide +kernel)
    (wf_cons (by decide +kernel) (bool_wf _)
    (wf_cons (by decide +kernel) ((signed_wf (by decide)) _)
    (wf_cons (by decide +kernel) (bool_wf _)
    (wf_cons (by decide +kernel) (actorId_wf _)
    (wf_cons (by decide +kernel) (bool_wf _)
    (wf_cons (by decide +kernel) (actorId_wf _)
    (wf_cons (by decide +kernel) (vector3f_wf _)
    (wf_cons (by decide +kernel) (vector3f_wf _) wf_nil))))))))

theorem demolishFx_tells {n : Nat} (hf : FloatDebug n s.debug) (a b : DemolishFx) :
    (dDemolishFx a).erase s = (dDemolishFx b).erase s ↔ quiet (.demolishFx a) = quiet
      (.demolishFx b) := by
  simp only [dDemolishFx, record, items, DVal.erase, DItems.erase, DVal.node.injEq,
    DItems.cons.injEq, true_and, and_true, bool_same, signed_same, actorId_same, (vector3f_tells
    hf), quiet, Attribute.demolishFx.injEq, DemolishFx.mk.injEq]

theorem explosion_wf (v : Explosion) : (dExplosion v).Wf :=
  wf_record (by decide +kernel)
    (wf_cons (by decide +kernel) (bool_wf _)
    (wf_cons (by decide +kernel) (actorId_wf _)
    (wf_cons (by decide +kernel) (vector3f_wf _) wf_nil)))

theorem explosion_tells {n : Nat} (hf : FloatDebug n s.debug) (a b : Explosion) :
    (dExplosion a).erase s = (dExplosion b).erase s ↔ quietExplosion a = quietExplosion b := by
  simp only [dExplosion, record, items, DVal.erase, DItems.erase, DVal.node.injEq,
    DItems.cons.injEq, true_and, and_true, bool_same, actorId_same, (vector3f_tells hf),
    quietExplosion, Explosion.mk.injEq]

theorem extendedExplosion_wf (v : ExtendedExplosion) : (dExtendedExplosion v).Wf :=
  wf_record (by decide +kernel)
    (wf_cons (by decide +kernel) (explosion_wf _)
    (wf_cons (by decide +kernel) (bool_wf _)
    (wf_cons (by decide +kernel) (actorId_wf _) wf_nil)))

theorem extendedExplosion_tells {n : Nat} (hf : FloatDebug n s.debug) (a b : ExtendedExplosion) :
    (dExtendedExplosion a).erase s = (dExtendedExplosion b).erase s ↔ quiet (.extendedExplosion
      a) = quiet (.extendedExplosion b) := by
  simp only [dExtendedExplosion, record, items, DVal.erase, DItems.erase, DVal.node.injEq,
    DItems.cons.injEq, true_and, and_true, (explosion_tells hf), bool_same, actorId_same, quiet,
    Attribute.extendedExplosion.injEq, ExtendedExplosion.mk.injEq]

theorem loadout_wf (v : Loadout) : (dLoadout v).Wf :=
  wf_record (by decide +kernel)
    (wf_cons (by decide +kernel) ((unsigned_wf (by decide)) _)
    (wf_cons (by decide +kernel) ((unsigned_wf (by decide)) _)
    (wf_cons (by decide +kernel) ((unsigned_wf (by decide)) _)
    (wf_cons (by decide +kernel) ((unsigned_wf (by decide)) _)
    (wf_cons (by decide +kernel) ((unsigned_wf (by decide)) _)
    (wf_cons (by decide +kernel) ((unsigned_wf (by decide)) _)
    (wf_cons (by decide +kernel) ((unsigned_wf (by decide)) _)
    (wf_cons (by decide +kernel) ((unsigned_wf (by decide)) _)
    (wf_cons (by decide +kernel) ((option_wf (unsigned_wf (by decide))) _)
    (wf_cons (by decide +kernel) ((option_wf (unsigned_wf (by decide))) _)
    (wf_cons (by decide +kernel) ((option_wf (unsigned_wf (by decide))) _)
    (wf_cons (by decide +kernel) ((option_wf (unsigned_wf (by decide))) _)
    (wf_cons (by decide +kernel) ((option_wf (unsigned_wf (by decide))) _)
    (wf_cons (by decide +kernel) ((option_wf (unsigned_wf (by decide))) _) wf_nil))))))))))))))

theorem loadout_same (a b : Loadout) : (dLoadout a).erase s = (dLoadout b).erase s ↔ a = b := by
  cases a; cases b
  simp only [dLoadout, record, items, DVal.erase, DItems.erase, DVal.node.injEq,
    DItems.cons.injEq, true_and, and_true, unsigned_same, (option_same unsigned_same),
    Loadout.mk.injEq]

theorem teamLoadout_wf (v : TeamLoadout) : (dTeamLoadout v).Wf :=
  wf_record (by decide +kernel)
    (wf_cons (by decide +kernel) (loadout_wf _)
    (wf_cons (by decide +kernel) (loadout_wf _) wf_nil))

theorem teamLoadout_same (a b : TeamLoadout) : (dTeamLoadout a).erase s = (dTeamLoadout b).erase
  s ↔ a = b := by
  cases a; cases b
  simp only [dTeamLoadout, record, items, DVal.erase, DItems.erase, DVal.node.injEq,
    DItems.cons.injEq, true_and, and_true, loadout_same, TeamLoadout.mk.injEq]

theorem statEvent_wf (v : StatEvent) : (dStatEvent v).Wf :=
  wf_record (by decide +kernel)
    (wf_cons (by decide +kernel) (bool_wf _)
    (wf_cons (by decide +kernel) ((signed_wf (by decide)) _) wf_nil))

theorem statEvent_same (a b : StatEvent) : (dStatEvent a).erase s = (dStatEvent b).erase s ↔ a =
  b := by
  cases a; cases b
  simp only [dStatEvent, record, items, DVal.erase, DItems.erase, DVal.node.injEq,
    DItems.cons.injEq, true_and, and_true, bool_same, signed_same, StatEvent.mk.injEq]

theorem musicStinger_wf (v : MusicStinger) : (dMusicStinger v).Wf :=
  wf_record (by decide +kernel)
    (wf_cons (by decide +kernel) (bool_wf _)
    (wf_cons (by decide +kernel) ((unsigned_wf (by decide)) _)
    (wf_cons (by decide +kernel) ((unsigned_wf (by decide)) _) wf_nil)))

theorem musicStinger_same (a b : MusicStinger) : (dMusicStinger a).erase s = (dMusicStinger
  b).erase s ↔ a = b := by
  cases a; cases b
  simp only [dMusicStinger, record, items, DVal.erase, DItems.erase, DVal.node.injEq,
    DItems.cons.injEq, true_and, and_true, bool_same, unsigned_same, MusicStinger.mk.injEq]

theorem pickup_wf (v : Pickup) : (dPickup v).Wf :=
  wf_record (by decide +kernel)
    (wf_cons (by decide +kernel) ((option_wf actorId_wf) _)
    (wf_cons (by decide +kernel) (bool_wf _) wf_nil))

theorem pickup_same (a b : Pickup) : (dPickup a).erase s = (dPickup b).erase s ↔ a = b := by
  cases a; cases b
  simp only [dPickup, record, items, DVal.erase, DItems.erase, DVal.node.injEq,
    DItems.cons.injEq, true_and, and_true, (option_same actorId_same), bool_same, Pickup.mk.injEq]

theorem pickupNew_wf (v : PickupNew) : (dPickupNew v).Wf :=
  wf_record (by decide +kernel)
    (wf_cons (by decide +kernel) ((option_wf actorId_wf) _)
    (wf_cons (by decide +kernel) ((unsigned_wf (by decide)) _) wf_nil))

theorem pickupNew_same (a b : PickupNew) : (dPickupNew a).erase s = (dPickupNew b).erase s ↔ a =
  b := by
  cases a; cases b
  simp only [dPickupNew, record, items, DVal.erase, DItems.erase, DVal.node.injEq,
    DItems.cons.injEq, true_and, and_true, (option_same actorId_same), unsigned_same,
    PickupNew.mk.injEq]

theorem welded_wf (v : Welded) : (dWelded v).Wf :=
  wf_record (by decide +kernel)
    (wf_cons (by decide +kernel) (bool_wf _)
    (wf_cons (by decide +kernel) (actorId_wf _)
    (wf_cons (by decide +kernel) (vector3f_wf _)
    (wf_cons (by decide +kernel) (f32_wf _)
    (wf_cons (by decide +kernel) (rotation_wf _) wf_nil)))))

theorem welded_tells {n : Nat} (hf : FloatDebug n s.debug) (a b : Welded) :
    (dWelded a).erase s = (dWelded b).erase s ↔ quiet (.welded a) = quiet (.welded b) := by
  simp only [dWelded, record, items, DVal.erase, DItems.erase, DVal.node.injEq,
    DItems.cons.injEq, true_and, and_true, bool_same, actorId_same, (vector3f_tells hf),
    (f32_tells hf), rotation_same, quiet, Attribute.welded.injEq, Welded.mk.injEq]

theorem teamPaint_wf (v : TeamPaint) : (dTeamPaint v).Wf :=
  wf_record (by decide +kernel)
    (wf_cons (by decide +kernel) ((unsigned_wf (by decide)) _)
    (wf_cons (by decide +kernel) ((unsigned_wf (by decide)) _)
    (wf_cons (by decide +kernel) ((unsigned_wf (by decide)) _)
    (wf_cons (by decide +kernel) ((unsigned_wf (by decide)) _)
    (wf_cons (by decide +kernel) ((unsigned_wf (by decide)) _) wf_nil)))))

theorem teamPaint_same (a b : TeamPaint) : (dTeamPaint a).erase s = (dTeamPaint b).erase s ↔ a =
  b := by
  cases a; cases b
  simp only [dTeamPaint, record, items, DVal.erase, DItems.erase, DVal.node.injEq,
    DItems.cons.injEq, true_and, and_true, unsigned_same, TeamPaint.mk.injEq]

theorem rigidBody_wf (v : RigidBody) : (dRigidBody v).Wf :=
  wf_record (by decide +kernel)
    (wf_cons (by decide +kernel) (bool_wf _)
    (wf_cons (by decide +kernel) (vector3f_wf _)
    (wf_cons (by decide +kernel) (quaternion_wf _)
    (wf_cons (by decide +kernel) ((option_wf vector3f_wf) _)
    (wf_cons (by decide +kernel) ((option_wf vector3f_wf) _) wf_nil)))))

theorem rigidBody_tells {n : Nat} (hf : FloatDebug n s.debug) (a b : RigidBody) :
    (dRigidBody a).erase s = (dRigidBody b).erase s ↔ quiet (.rigidBody a) = quiet (.rigidBody b)
      := by
  simp only [dRigidBody, record, items, DVal.erase, DItems.erase, DVal.node.injEq,
    DItems.cons.injEq, true_and, and_true, bool_same, (vector3f_tells hf), (quaternion_tells hf),
    (option_tells (vector3f_tells hf)), quiet, Attribute.rigidBody.injEq, RigidBody.mk.injEq, ←
    quietQuat_def]

theorem remoteId_wf (v : RemoteId) : (dRemoteId v).Wf := by
  cases v
  · exact wf_call (by decide +kernel) (wf_arg (wf_record (by decide +kernel) (wf_cons
    (by decide +kernel) ((unsigned_wf (by decide)) _) (wf_cons (by decide +kernel) (str_wf _)
    (wf_cons (by decide +kernel) ((list_wf (unsigned_wf (by decide))) _) wf_nil)))) wf_none)
  · exact wf_call (by decide +kernel) (wf_arg (wf_record (by decide +kernel) (wf_cons
    (by decide +kernel) ((unsigned_wf (by decide)) _) (wf_cons (by decide +kernel) ((list_wf
    (unsigned_wf (by decide))) _) wf_nil))) wf_none)
  · exact wf_call (by decide +kernel) (wf_arg ((unsigned_wf (by decide)) _) wf_none)
  · exact wf_call (by decide +kernel) (wf_arg ((unsigned_wf (by decide)) _) wf_none)
  · exact wf_call (by decide +kernel) (wf_arg (wf_record (by decide +kernel) (wf_cons
    (by decide +kernel) ((unsigned_wf (by decide)) _) (wf_cons (by decide +kernel) ((list_wf
    (unsigned_wf (by decide))) _) wf_nil))) wf_none)
  · exact wf_call (by decide +kernel) (wf_arg ((unsigned_wf (by decide)) _) wf_none)
  · exact wf_call (by decide +kernel) (wf_arg ((unsigned_wf (by decide)) _) wf_none)
  · exact wf_call (by decide +kernel) (wf_arg (str_wf _) wf_none)

theorem remoteId_same (a b : RemoteId) : (dRemoteId a).erase s = (dRemoteId b).erase s ↔ a = b :=
  by
  cases a <;> cases b <;>
    simp [dRemoteId, record, call, items, unnamed, DVal.erase, DItems.erase, unsigned_same,
      str_same, (list_same unsigned_same)]

theorem uniqueId_wf (v : UniqueId) : (dUniqueId v).Wf :=
  wf_record (by decide +kernel)
    (wf_cons (by decide +kernel) ((unsigned_wf (by decide)) _)
    (wf_cons (by decide +kernel) (remoteId_wf _)
    (wf_cons (by decide +kernel) ((unsigned_wf (by decide)) _) wf_nil)))

theorem uniqueId_same (a b : UniqueId) : (dUniqueId a).erase s = (dUniqueId b).erase s ↔ a = b :=
  by
  cases a; cases b
  simp only [dUniqueId, record, items, DVal.erase, DItems.erase, DVal.node.injEq,
    DItems.cons.injEq, true_and, and_true, unsigned_same, remoteId_same, UniqueId.mk.injEq]

theorem reservation_wf (v : Reservation) : (dReservation v).Wf :=
  wf_record (by decide +kernel)
    (wf_cons (by decide +kernel) ((unsigned_wf (by decide)) _)
    (wf_cons (by decide +kernel) (uniqueId_wf _)
    (wf_cons (by decide +kernel) ((option_wf str_wf) _)
    (wf_cons (by decide +kernel) (bool_wf _)
    (wf_cons (by decide +kernel) (bool_wf _)
    (wf_cons (by decide +kernel) ((option_wf (unsigned_wf (by decide))) _) wf_nil))))))

theorem reservation_same (a b : Reservation) : (dReservation a).erase s = (dReservation b).erase
  s ↔ a = b := by
  cases a; cases b
  simp only [dReservation, record, items, DVal.erase, DItems.erase, DVal.node.injEq,
    DItems.cons.injEq, true_and, and_true, unsigned_same, uniqueId_same, (option_same str_same),
    bool_same, (option_same unsigned_same), Reservation.mk.injEq]

theorem privateMatchSettings_wf (v : PrivateMatchSettings) : (dPrivateMatchSettings v).Wf :=
  wf_record (by decide +kernel)
    (wf_cons (by decide +kernel) (str_wf _)
    (wf_cons (by decide +kernel) ((unsigned_wf (by decide)) _)
    (wf_cons (by decide +kernel) ((unsigned_wf (by decide)) _)
    (wf_cons (by decide +kernel) (str_wf _)
    (wf_cons (by decide +kernel) (str_wf _)
    (wf_cons (by decide +kernel) (bool_wf _) wf_nil))))))

theorem privateMatchSettings_same (a b : PrivateMatchSettings) : (dPrivateMatchSettings a).erase
  s = (dPrivateMatchSettings b).erase s ↔ a = b := by
  cases a; cases b
  simp only [dPrivateMatchSettings, record, items, DVal.erase, DItems.erase, DVal.node.injEq,
    DItems.cons.injEq, true_and, and_true, str_same, unsigned_same, bool_same,
    PrivateMatchSettings.mk.injEq]

theorem productValue_wf (v : ProductValue) : (dProductValue v).Wf := by
  cases v
  · exact unit_wf (by decide +kernel)
  · exact unit_wf (by decide +kernel)
  · exact wf_call (by decide +kernel) (wf_arg ((unsigned_wf (by decide)) _) wf_none)
  · exact wf_call (by decide +kernel) (wf_arg ((unsigned_wf (by decide)) _) wf_none)
  · exact wf_call (by decide +kernel) (wf_arg ((unsigned_wf (by decide)) _) wf_none)
  · exact wf_call (by decide +kernel) (wf_arg ((unsigned_wf (by decide)) _) wf_none)
  · exact wf_call (by decide +kernel) (wf_arg (str_wf _) wf_none)
  · exact wf_call (by decide +kernel) (wf_arg ((unsigned_wf (by decide)) _) wf_none)
  · exact wf_call (by decide +kernel) (wf_arg ((unsigned_wf (by decide)) _) wf_none)
  · exact wf_call (by decide +kernel) (wf_arg ((unsigned_wf (by decide)) _) wf_none)

theorem productValue_same (a b : ProductValue) : (dProductValue a).erase s = (dProductValue
  b).erase s ↔ a = b := by
  cases a <;> cases b <;>
    simp [dProductValue, dUnit, call, unnamed, DVal.erase, DItems.erase, unsigned_same, str_same]

theorem product_wf (v : Product) : (dProduct v).Wf :=
  wf_record (by decide +kernel)
    (wf_cons (by decide +kernel) (bool_wf _)
    (wf_cons (by decide +kernel) (objectId_wf _)
    (wf_cons (by decide +kernel) (productValue_wf _) wf_nil)))

theorem product_same (a b : Product) : (dProduct a).erase s = (dProduct b).erase s ↔ a = b := by
  cases a; cases b
  simp only [dProduct, record, items, DVal.erase, DItems.erase, DVal.node.injEq,
    DItems.cons.injEq, true_and, and_true, bool_same, objectId_same, productValue_same,
    Product.mk.injEq]

theorem loadoutsOnline_wf (v : LoadoutsOnline) : (dLoadoutsOnline v).Wf :=
  wf_record (by decide +kernel)
    (wf_cons (by decide +kernel) ((list_wf (list_wf product_wf)) _)
    (wf_cons (by decide +kernel) ((list_wf (list_wf product_wf)) _)
    (wf_cons (by decide +kernel) (bool_wf _)
    (wf_cons (by decide +kernel) (bool_wf _) wf_nil))))

theorem loadoutsOnline_same (a b : LoadoutsOnline) : (dLoadoutsOnline a).erase s =
  (dLoadoutsOnline b).erase s ↔ a = b := by
  cases a; cases b
  simp only [dLoadoutsOnline, record, items, DVal.erase, DItems.erase, DVal.node.injEq,
    DItems.cons.injEq, true_and, and_true, (list_same (list_same product_same)), bool_same,
    LoadoutsOnline.mk.injEq]

theorem repStatTitle_wf (v : RepStatTitle) : (dRepStatTitle v).Wf :=
  wf_record (by decide +kernel)
    (wf_cons (by decide +kernel) (bool_wf _)
    (wf_cons (by decide +kernel) (str_wf _)
    (wf_cons (by decide +kernel) (bool_wf _)
    (wf_cons (by decide +kernel) ((unsigned_wf (by decide)) _)
    (wf_cons (by decide +kernel) ((unsigned_wf (by decide)) _) wf_nil)))))

theorem repStatTitle_same (a b : RepStatTitle) : (dRepStatTitle a).erase s = (dRepStatTitle
  b).erase s ↔ a = b := by
  cases a; cases b
  simp only [dRepStatTitle, record, items, DVal.erase, DItems.erase, DVal.node.injEq,
    DItems.cons.injEq, true_and, and_true, bool_same, str_same, unsigned_same,
    RepStatTitle.mk.injEq]

theorem pickupInfo_wf (v : PickupInfo) : (dPickupInfo v).Wf :=
  wf_record (by decide +kernel)
    (wf_cons (by decide +kernel) ((array3_wf activeActor_wf) _)
    (wf_cons (by decide +kernel) (bool_wf _) wf_nil))

theorem pickupInfo_same (a b : PickupInfo) : (dPickupInfo a).erase s = (dPickupInfo b).erase s ↔
  a = b := by
  cases a; cases b
  simp only [dPickupInfo, record, items, DVal.erase, DItems.erase, DVal.node.injEq,
    DItems.cons.injEq, true_and, and_true, (array3_same activeActor_same), bool_same,
    PickupInfo.mk.injEq]

theorem impulse_wf (v : Impulse) : (dImpulse v).Wf :=
  wf_record (by decide +kernel)
    (wf_cons (by decide +kernel) ((signed_wf (by decide)) _)
    (wf_cons (by decide +kernel) (f32_wf _) wf_nil))

theorem impulse_tells {n : Nat} (hf : FloatDebug n s.debug) (a b : Impulse) :
    (dImpulse a).erase s = (dImpulse b).erase s ↔ quiet (.impulse a) = quiet (.impulse b) := by
  simp only [dImpulse, record, items, DVal.erase, DItems.erase, DVal.node.injEq,
    DItems.cons.injEq, true_and, and_true, signed_same, (f32_tells hf), quiet,
    Attribute.impulse.injEq, Impulse.mk.injEq]

theorem replicatedBoost_wf (v : ReplicatedBoost) : (dReplicatedBoost v).Wf :=
  wf_record (by decide +kernel)
    (wf_cons (by decide +kernel) ((unsigned_wf (by decide)) _)
    (wf_cons (by decide +kernel) ((unsigned_wf (by decide)) _)
    (wf_cons (by decide +kernel) ((unsigned_wf (by decide)) _)
    (wf_cons (by decide +kernel) ((unsigned_wf (by decide)) _) wf_nil))))

theorem replicatedBoost_same (a b : ReplicatedBoost) : (dReplicatedBoost a).erase s =
  (dReplicatedBoost b).erase s ↔ a = b := by
  cases a; cases b
  simp only [dReplicatedBoost, record, items, DVal.erase, DItems.erase, DVal.node.injEq,
    DItems.cons.injEq, true_and, and_true, unsigned_same, ReplicatedBoost.mk.injEq]

theorem logoData_wf (v : LogoData) : (dLogoData v).Wf :=
  wf_record (by decide +kernel)
    (wf_cons (by decide +kernel) ((unsigned_wf (by decide)) _)
    (wf_cons (by decide +kernel) (bool_wf _) wf_nil))

theorem logoData_same (a b : LogoData) : (dLogoData a).erase s = (dLogoData b).erase s ↔ a = b :=
  by
  cases a; cases b
  simp only [dLogoData, record, items, DVal.erase, DItems.erase, DVal.node.injEq,
    DItems.cons.injEq, true_and, and_true, unsigned_same, bool_same, LogoData.mk.injEq]

theorem attribute_wf (v : Attribute) : (dAttribute v).Wf := by
  cases v
  · exact wf_call (by decide +kernel) (wf_arg (bool_wf _) wf_none)
  · exact wf_call (by decide +kernel) (wf_arg ((unsigned_wf (by decide)) _) wf_none)
  · exact wf_call (by decide +kernel) (wf_arg (appliedDamage_wf _) wf_none)
  · exact wf_call (by decide +kernel) (wf_arg (damageState_wf _) wf_none)
  · exact wf_call (by decide +kernel) (wf_arg (camSettings_wf _) wf_none)
  · exact wf_call (by decide +kernel) (wf_arg (clubColors_wf _) wf_none)
  · exact wf_call (by decide +kernel) (wf_arg (demolish_wf _) wf_none)
  · exact wf_call (by decide +kernel) (wf_arg (demolishExtended_wf _) wf_none)
  · exact wf_call (by decide +kernel) (wf_arg (demolishFx_wf _) wf_none)
  · exact wf_call (by decide +kernel) (wf_arg ((unsigned_wf (by decide)) _) wf_none)
  · exact wf_call (by decide +kernel) (wf_arg (explosion_wf _) wf_none)
  · exact wf_call (by decide +kernel) (wf_arg (extendedExplosion_wf _) wf_none)
  · exact wf_call (by decide +kernel) (wf_arg (bool_wf _) (wf_arg ((unsigned_wf (by decide)) _)
    wf_none))
  · exact wf_call (by decide +kernel) (wf_arg (activeActor_wf _) wf_none)
  · exact wf_call (by decide +kernel) (wf_arg (f32_wf _) wf_none)
  · exact wf_call (by decide +kernel) (wf_arg ((unsigned_wf (by decide)) _) (wf_arg ((unsigned_wf
    (by decide)) _) wf_none))
  · exact wf_call (by decide +kernel) (wf_arg ((signed_wf (by decide)) _) wf_none)
  · exact wf_call (by decide +kernel) (wf_arg ((signed_wf (by decide)) _) wf_none)
  · exact wf_call (by decide +kernel) (wf_arg (loadout_wf _) wf_none)
  · exact wf_call (by decide +kernel) (wf_arg (teamLoadout_wf _) wf_none)
  · exact wf_call (by decide +kernel) (wf_arg (vector3f_wf _) wf_none)
  · exact wf_call (by decide +kernel) (wf_arg (musicStinger_wf _) wf_none)
  · exact wf_call (by decide +kernel) (wf_arg ((unsigned_wf (by decide)) _) wf_none)
  · exact wf_call (by decide +kernel) (wf_arg (pickup_wf _) wf_none)
  · exact wf_call (by decide +kernel) (wf_arg (pickupNew_wf _) wf_none)
  · exact wf_call (by decide +kernel) (wf_arg ((unsigned_wf (by decide)) _) wf_none)
  · exact wf_call (by decide +kernel) (wf_arg (welded_wf _) wf_none)
  · exact wf_call (by decide +kernel) (wf_arg (bool_wf _) (wf_arg (bool_wf _) (wf_arg
    ((unsigned_wf (by decide)) _) (wf_arg ((unsigned_wf (by decide)) _) (wf_arg ((unsigned_wf
    (by decide)) _) (wf_arg ((unsigned_wf (by decide)) _) (wf_arg ((unsigned_wf (by decide)) _)
    (wf_arg (bool_wf _) wf_none))))))))
  · exact wf_call (by decide +kernel) (wf_arg (teamPaint_wf _) wf_none)
  · exact wf_call (by decide +kernel) (wf_arg (rigidBody_wf _) wf_none)
  · exact wf_call (by decide +kernel) (wf_arg (str_wf _) wf_none)
  · exact wf_call (by decide +kernel) (wf_arg (uniqueId_wf _) wf_none)
  · exact wf_call (by decide +kernel) (wf_arg (reservation_wf _) wf_none)
  · exact wf_call (by decide +kernel) (wf_arg ((option_wf uniqueId_wf) _) wf_none)
  · exact wf_call (by decide +kernel) (wf_arg (privateMatchSettings_wf _) wf_none)
  · exact wf_call (by decide +kernel) (wf_arg ((list_wf (list_wf product_wf)) _) wf_none)
  · exact wf_call (by decide +kernel) (wf_arg (loadoutsOnline_wf _) wf_none)
  · exact wf_call (by decide +kernel) (wf_arg (statEvent_wf _) wf_none)
  · exact wf_call (by decide +kernel) (wf_arg (rotation_wf _) wf_none)
  · exact wf_call (by decide +kernel) (wf_arg (repStatTitle_wf _) wf_none)
  · exact wf_call (by decide +kernel) (wf_arg (pickupInfo_wf _) wf_none)
  · exact wf_call (by decide +kernel) (wf_arg (impulse_wf _) wf_none)
  · exact wf_call (by decide +kernel) (wf_arg (replicatedBoost_wf _) wf_none)
  · exact wf_call (by decide +kernel) (wf_arg (logoData_wf _) wf_none)

theorem attributeTag_wf (v : AttributeTag) : (dAttributeTag v).Wf := by
  cases v
  · exact unit_wf (by decide +kernel)
  · exact unit_wf (by decide +kernel)
  · exact unit_wf (by decide +kernel)
  · exact unit_wf (by decide +kernel)
  · exact unit_wf (by decide +kernel)
  · exact unit_wf (by decide +kernel)
  · exact unit_wf (by decide +kernel)
  · exact unit_wf (by decide +kernel)
  · exact unit_wf (by decide +kernel)
  · exact unit_wf (by decide +kernel)
  · exact unit_wf (by decide +kernel)
  · exact unit_wf (by decide +kernel)
  · exact unit_wf (by decide +kernel)
  · exact unit_wf (by decide +kernel)
  · exact unit_wf (by decide +kernel)
  · exact unit_wf (by decide +kernel)
  · exact unit_wf (by decide +kernel)
  · exact unit_wf (by decide +kernel)
  · exact unit_wf (by decide +kernel)
  · exact unit_wf (by decide +kernel)
  · exact unit_wf (by decide +kernel)
  · exact unit_wf (by decide +kernel)
  · exact unit_wf (by decide +kernel)
  · exact unit_wf (by decide +kernel)
  · exact unit_wf (by decide +kernel)
  · exact unit_wf (by decide +kernel)
  · exact unit_wf (by decide +kernel)
  · exact unit_wf (by decide +kernel)
  · exact unit_wf (by decide +kernel)
  · exact unit_wf (by decide +kernel)
  · exact unit_wf (by decide +kernel)
  · exact unit_wf (by decide +kernel)
  · exact unit_wf (by decide +kernel)
  · exact unit_wf (by decide +kernel)
  · exact unit_wf (by decide +kernel)
  · exact unit_wf (by decide +kernel)
  · exact unit_wf (by decide +kernel)
  · exact unit_wf (by decide +kernel)
  · exact unit_wf (by decide +kernel)
  · exact unit_wf (by decide +kernel)
  · exact unit_wf (by decide +kernel)
  · exact unit_wf (by decide +kernel)
  · exact unit_wf (by decide +kernel)
  · exact unit_wf (by decide +kernel)
  · exact unit_wf (by decide +kernel)

theorem attribute_tells {n : Nat} (hf : FloatDebug n s.debug) (a b : Attribute) :
    (dAttribute a).erase s = (dAttribute b).erase s ↔ quiet a = quiet b := by
  cases a <;> cases b <;>
    first
      | exact iff_of_false (fun h => absurd (DVal.node.inj h).2.1 (by decide +kernel))
          (fun h => nomatch h)
      | (simp only [dAttribute, call, unnamed, DVal.erase, DItems.erase, DVal.node.injEq,
        DItems.cons.injEq, true_and, and_true, quiet, bool_same, unsigned_same,
        (appliedDamage_tells hf), (damageState_tells hf), (camSettings_tells hf),
        clubColors_same, (demolish_tells hf), (demolishExtended_tells hf), (demolishFx_tells hf),
        (explosion_tells hf), (extendedExplosion_tells hf), activeActor_same, (f32_tells hf),
        signed_same, loadout_same, teamLoadout_same, (vector3f_tells hf), musicStinger_same,
        pickup_same, pickupNew_same, (welded_tells hf), teamPaint_same, (rigidBody_tells hf),
        str_same, uniqueId_same, reservation_same, (option_same uniqueId_same),
        privateMatchSettings_same, (list_same (list_same product_same)), loadoutsOnline_same,
        statEvent_same, rotation_same, repStatTitle_same, pickupInfo_same, (impulse_tells hf),
        replicatedBoost_same, logoData_same] <;> simp)

def allTags : List AttributeTag :=
  [.boolean, .byte, .appliedDamage, .damageState, .camSettings, .clubColors, .demolish,
    .demolishFx, .demolishExtended, .enum, .explosion, .extendedExplosion, .flaggedByte,
    .activeActor, .float, .gameMode, .int, .int64, .loadout, .teamLoadout, .location,
    .musicStinger, .pickup, .pickupNew, .playerHistoryKey, .qWordString, .welded, .rigidBody,
    .title, .teamPaint, .notImplemented, .string, .uniqueId, .reservation, .partyLeader,
    .privateMatchSettings, .loadoutOnline, .loadoutsOnline, .statEvent, .rotationTag,
    .repStatTitle, .pickupInfo, .impulse, .replicatedBoost, .logoData]

def tagText (a : AttributeTag) : Str :=
  match dAttributeTag a with
  | .atom x => x
  | _ => []

theorem tagText_find (a : AttributeTag) :
    allTags.find? (fun b => decide (tagText b = tagText a)) = some a := by
  cases a <;> decide +kernel

theorem tag_atom (a : AttributeTag) : dAttributeTag a = .atom (tagText a) := by
  cases a <;> rfl

theorem tag_same (a b : AttributeTag) :
    (dAttributeTag a).erase s = (dAttributeTag b).erase s ↔ a = b := by
  refine ⟨fun h => ?_, fun h => by rw [h]⟩
  rw [tag_atom, tag_atom] at h
  have h1 := tagText_find a
  rw [show tagText a = tagText b from DVal.atom.inj h, tagText_find b] at h1
  exact (Option.some.inj h1).symm

/-! ### Characters -/

/-- A property of the visible ASCII characters and of the plain ones. -/
structure Shown (plain : Char → Bool) (P : Char → Prop) : Prop where
  ascii : ∀ c : Char, 32 ≤ c.toNat → c.toNat < 127 → P c
  plain : ∀ c, plain c = true → c ≠ '\n' → P c

theorem atom_ascii {c : Char} (h : AtomChar c) : 32 ≤ c.toNat ∧ c.toNat < 127 := by
  rcases h with h | rfl | rfl | rfl | rfl
  · simp only [Char.isAlphanum, Char.isAlpha, Char.isUpper, Char.isLower, Char.isDigit,
      Bool.or_eq_true, Bool.and_eq_true, decide_eq_true_eq, UInt32.le_iff_toNat_le,
      show 'A'.val.toNat = 65 from rfl, show 'Z'.val.toNat = 90 from rfl,
      show 'a'.val.toNat = 97 from rfl, show 'z'.val.toNat = 122 from rfl,
      show '0'.val.toNat = 48 from rfl, show '9'.val.toNat = 57 from rfl] at h
    have : c.toNat = c.val.toNat := rfl
    omega
  all_goals decide

theorem escape_shown {P : Char → Prop} (hP : Shown s.plain P) (c : Char) :
    ∀ d ∈ escape s.plain c, P d := by
  intro d hd
  rcases escape_cases s.plain c with ⟨_, _, hn, h, e⟩ | ⟨x, _, _, e, hx⟩ | e <;> rw [e] at hd
  · rw [List.mem_singleton] at hd; rw [hd]; exact hP.plain c h hn
  · simp only [List.mem_cons, List.not_mem_nil, or_false] at hd
    rcases hd with rfl | rfl
    · exact hP.ascii _ (by decide) (by decide)
    · simp only [List.mem_cons, Prod.mk.injEq, List.not_mem_nil, or_false] at hx
      rcases hx with ⟨h, _⟩ | ⟨h, _⟩ | ⟨h, _⟩ | ⟨h, _⟩ | ⟨h, _⟩ | ⟨h, _⟩ <;> rw [h] <;>
        exact hP.ascii _ (by decide) (by decide)
  · simp only [List.mem_append, List.mem_cons, List.not_mem_nil, or_false] at hd
    rcases hd with ((rfl | rfl | rfl) | hd) | rfl
    · exact hP.ascii _ (by decide) (by decide)
    · exact hP.ascii _ (by decide) (by decide)
    · exact hP.ascii _ (by decide) (by decide)
    · have := atom_ascii (.inl (hex_chars _ d hd).2)
      exact hP.ascii _ this.1 this.2
    · exact hP.ascii _ (by decide) (by decide)

theorem atoms_shown {P : Char → Prop} (hP : Shown s.plain P) {a : Str} (h : ∀ c ∈ a, AtomChar c) :
    ∀ c ∈ a, P c :=
  fun c hc => hP.ascii c (atom_ascii (h c hc)).1 (atom_ascii (h c hc)).2

theorem all_append {P : Char → Prop} {a b : Str} (ha : ∀ c ∈ a, P c) (hb : ∀ c ∈ b, P c) :
    ∀ c ∈ a ++ b, P c := by
  intro c hc
  rcases List.mem_append.1 hc with h | h
  · exact ha c h
  · exact hb c h

theorem punct_shown {P : Char → Prop} (hP : Shown s.plain P) (a : Str)
    (h : ∀ c ∈ a, 32 ≤ c.toNat ∧ c.toNat < 127 := by decide) : ∀ c ∈ a, P c :=
  fun c hc => hP.ascii c (h c hc).1 (h c hc).2

mutual
theorem shown_val {n : Nat} (hf : FloatDebug n s.debug) {P : Char → Prop} (hP : Shown s.plain P) :
    ∀ v : DVal, v.Wf → ∀ c ∈ v.show s, P c
  | .atom a, h => by rw [DVal.show]; exact atoms_shown hP h.2.1
  | .float x, _ => by rw [DVal.show]; exact atoms_shown hP (hf.chars x).2
  | .text t, _ => by
    rw [DVal.show]
    refine all_append (a := ['"']) (punct_shown hP _) (all_append ?_ (punct_shown hP _))
    intro c hc
    obtain ⟨d, _, hd⟩ := List.mem_flatMap.1 hc
    exact escape_shown hP d c hd
  | .node k n is, h => by
    rw [DVal.show]
    refine all_append (atoms_shown hP h.1.1) (all_append ?_ (all_append ?_ ?_))
    · cases k <;> exact punct_shown hP _
    · exact shown_items hf hP k true is h.2.2
    · cases k <;> exact punct_shown hP _
theorem shown_items {n : Nat} (hf : FloatDebug n s.debug) {P : Char → Prop} (hP : Shown s.plain
  P) :
    ∀ (k : Kind) (first : Bool) (is : DItems), is.Wf k → ∀ c ∈ is.show s k first, P c
  | _, _, .nil, _ => by rw [DItems.show]; intro c hc; cases hc
  | k, first, .cons l v is, h => by
    rw [DItems.show]
    refine all_append ?_ (all_append ?_ (all_append (shown_val hf hP v h.2.2.1)
      (shown_items hf hP k false is h.2.2.2)))
    · cases first
      · exact punct_shown hP _
      · intro c hc; cases hc
    · rw [Kind.label]
      split
      · exact all_append (atoms_shown hP h.1.1) (punct_shown hP _)
      · intro c hc; cases hc
end

/-! ### Lengths -/

mutual
/-- The number of numbers, names and characters. -/
def DVal.cells : DVal → Nat
  | .atom _ => 1
  | .float _ => 1
  | .text t => textSize t
  | .node _ _ is => 1 + is.cells
def DItems.cells : DItems → Nat
  | .nil => 0
  | .cons _ v r => v.cells + r.cells
end

theorem atoms_len {a : Str} (h : ∀ c ∈ a, AtomChar c) : len a = a.length := by
  induction a with
  | nil => rfl
  | cons c a ih =>
    rw [len_cons, List.length_cons, ih fun c hc => h c (.tail _ hc),
      len_ascii (by have := atom_ascii (h c (.head _)); omega)]
    omega

theorem toDigits_len {n : Nat} (h : n < 16 ^ 6) : len (Nat.toDigits 16 n) ≤ 6 := by
  rw [atoms_len (fun c hc => .inl (hex_chars n c hc).2)]
  exact (Nat.length_toDigits_le_iff (by decide) (by decide)).2 h

theorem escape_len (c : Char) : len (escape s.plain c) ≤ 10 * len [c] := by
  have := len_char_pos c
  rcases escape_cases s.plain c with ⟨_, _, _, h, e⟩ | ⟨x, _, _, e, hx⟩ | e <;> rw [e]
  · omega
  · have : len ['\\', x] = 2 := by
      simp only [List.mem_cons, Prod.mk.injEq, List.not_mem_nil, or_false] at hx
      rcases hx with ⟨h, _⟩ | ⟨h, _⟩ | ⟨h, _⟩ | ⟨h, _⟩ | ⟨h, _⟩ | ⟨h, _⟩ <;> rw [h] <;> decide
    omega
  · have h1 : c.toNat < 16 ^ 6 := by
      have : c.toNat < 0x110000 := by
        rcases c.valid with h | h
        · have : c.toNat = c.val.toNat := rfl
          omega
        · exact h.2
      omega
    have h2 := toDigits_len h1
    rw [len_append, len_append, show len ['\\', 'u', '{'] = 3 by decide, show len ['}'] = 1 by
      decide]
    omega

theorem text_len (t : Str) : len (t.flatMap (escape s.plain)) ≤ 10 * len t := by
  induction t with
  | nil => exact Nat.le_refl _
  | cons c t ih =>
    have := escape_len (s := s) c
    rw [List.flatMap_cons, len_append, len_cons]
    omega

mutual
theorem val_len (hf : FloatDebug 64 s.debug) : ∀ v : DVal, v.Wf → len (v.show s) ≤ 128 * v.cells
  - 28
  | .atom a, h => by
    have := h.2.2
    rw [DVal.show, DVal.cells, atoms_len h.2.1]
    omega
  | .float x, _ => by
    have := hf.short x
    rw [DVal.show, DVal.cells, atoms_len (hf.chars x).2]
    omega
  | .text t, _ => by
    have := text_len (s := s) t
    have e : textSize t = 1 + len t := rfl
    rw [DVal.show, DVal.cells, len_cons, len_append, show len ['"'] = 1 by decide]
    omega
  | .node k n is, h => by
    have h1 := items_len hf k true is h.2.2
    have h2 := atoms_len h.1.1
    have h3 := h.1.2
    have h4 : len k.opening ≤ 3 ∧ len k.closing ≤ 2 := by cases k <;> decide
    rw [DVal.show, DVal.cells, len_append, len_append, len_append]
    omega
theorem items_len (hf : FloatDebug 64 s.debug) : ∀ (k : Kind) (first : Bool) (is : DItems), is.Wf
  k →
    len (is.show s k first) ≤ 128 * is.cells
  | _, _, .nil, _ => Nat.zero_le _
  | k, first, .cons l v is, h => by
    have h1 := items_len hf k false is h.2.2.2
    have h2 := val_len hf v h.2.2.1
    have h3 : len (k.label l) ≤ 26 := by
      rw [Kind.label]
      split
      · rw [len_append, atoms_len h.1.1, show len [':', ' '] = 2 by decide]
        have := h.1.2
        omega
      · exact Nat.zero_le _
    have h4 : len (if first = true then [] else [',', ' ']) ≤ 2 := by cases first <;> decide
    have h5 : 1 ≤ v.cells := by
      cases v with
      | text t => have e : textSize t = 1 + len t := rfl
                  rw [DVal.cells]; omega
      | node => rw [DVal.cells]; omega
      | _ => exact Nat.le_refl _
    rw [DItems.show, DItems.cells, len_append, len_append, len_append]
    omega
end

end Boxcars.Debug
