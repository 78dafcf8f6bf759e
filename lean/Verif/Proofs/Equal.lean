import Mathlib.Data.List.Forall2
import Verif.Model.Equal
import Verif.Spec.Equal
import Verif.Proofs.FloatOrder
/-!
# Derived equality: floats and the rest
-/
namespace Boxcars
open Spec

theorem f32_eq_iff (a b : F32) : F32.eq a b = true ↔ SameFloat a b := by
  have hk : F32.key a = F32.key b ↔ a = b ∨ IsZero a ∧ IsZero b := by
    unfold F32.key F32.mag F32.sign IsZero fexp ffrac
    have ha := a.isLt
    have hb := b.isLt
    rw [BitVec.msb_eq_decide, BitVec.msb_eq_decide, ← BitVec.toNat_inj]
    by_cases h1 : 2 ^ (32 - 1) ≤ a.toNat <;> by_cases h2 : 2 ^ (32 - 1) ≤ b.toNat <;>
      simp only [h1, h2, decide_true, decide_false, if_true, if_false, Bool.false_eq_true] <;> omega
  unfold F32.eq SameFloat
  rw [Bool.and_eq_true, Bool.and_eq_true, Bool.not_eq_true', Bool.not_eq_true', decide_eq_true_iff,
    hk, ← Bool.not_eq_true, ← Bool.not_eq_true, isNaN_iff, isNaN_iff, and_assoc]
  rfl

/-- `p` compares floats by `SameFloat` and the rest by equality. -/
structure FEq {α : Type} (p : α → α → Bool) (s : α → α) (f : α → List F32) : Prop where
  len : ∀ x y, s x = s y → (f x).length = (f y).length
  iff : ∀ x y, p x y = true ↔ s x = s y ∧ List.Forall₂ SameFloat (f x) (f y)
  inj : ∀ x y, s x = s y → f x = f y → x = y

namespace FEq
variable {α β : Type} {p : α → α → Bool} {s : α → α} {f : α → List F32}
  {q : β → β → Bool} {t : β → β} {g : β → List F32}

theorem float : FEq F32.eq (fun _ => 0) (fun x => [x]) :=
  ⟨fun _ _ _ => rfl, fun x y => by simp [f32_eq_iff], fun x y _ h => by simpa using h⟩

theorem plain [BEq α] [LawfulBEq α] : FEq (fun x y : α => x == y) id (fun _ => []) :=
  ⟨fun _ _ _ => rfl, fun x y => by simp, fun x y h _ => h⟩

theorem forall2_append {l₁ l₂ m₁ m₂ : List F32} (h : l₁.length = m₁.length) :
    List.Forall₂ SameFloat (l₁ ++ l₂) (m₁ ++ m₂) ↔
      List.Forall₂ SameFloat l₁ m₁ ∧ List.Forall₂ SameFloat l₂ m₂ := by
  induction l₁ generalizing m₁ with
  | nil => cases m₁ with
    | nil => simp
    | cons b m₁ => cases h
  | cons a l₁ ih => cases m₁ with
    | nil => cases h
    | cons b m₁ =>
      simp only [List.cons_append, List.forall₂_cons]
      rw [ih (Nat.succ.inj h), and_assoc]

theorem pair (hp : FEq p s f) (hq : FEq q t g) :
    FEq (fun x y : α × β => p x.1 y.1 && q x.2 y.2) (fun x => (s x.1, t x.2))
      (fun x => f x.1 ++ g x.2) := by
  refine ⟨fun x y h => ?_, fun x y => ?_, fun x y h e => ?_⟩
  · have := Prod.mk.inj h
    rw [List.length_append, List.length_append, hp.len _ _ this.1, hq.len _ _ this.2]
  · rw [Bool.and_eq_true, hp.iff, hq.iff, Prod.mk.injEq]
    constructor
    · rintro ⟨⟨a, b⟩, c, d⟩
      exact ⟨⟨a, c⟩, (forall2_append (hp.len _ _ a)).2 ⟨b, d⟩⟩
    · rintro ⟨⟨a, c⟩, h⟩
      have := (forall2_append (hp.len _ _ a)).1 h
      exact ⟨⟨a, this.1⟩, c, this.2⟩
  · obtain ⟨a, c⟩ := Prod.mk.inj h
    obtain ⟨e1, e2⟩ := List.append_inj e (hp.len _ _ a)
    exact Prod.ext (hp.inj _ _ a e1) (hq.inj _ _ c e2)

theorem list (hp : FEq p s f) : FEq (eqList p) (List.map s) (List.flatMap f) := by
  have len : ∀ x y : List α, x.map s = y.map s → (x.flatMap f).length = (y.flatMap f).length := by
    intro x
    induction x with
    | nil => intro y h; cases y with
      | nil => rfl
      | cons b y => cases h
    | cons a x ih => intro y h; cases y with
      | nil => cases h
      | cons b y =>
        rw [List.map_cons, List.map_cons, List.cons.injEq] at h
        rw [List.flatMap_cons, List.flatMap_cons, List.length_append, List.length_append,
          hp.len _ _ h.1, ih y h.2]
  refine ⟨len, fun x => ?_, fun x => ?_⟩
  · induction x with
    | nil => intro y; cases y <;> simp [eqList]
    | cons a x ih => intro y; cases y with
      | nil => simp [eqList]
      | cons b y =>
        rw [eqList, Bool.and_eq_true, hp.iff, ih, List.map_cons, List.map_cons, List.cons.injEq,
          List.flatMap_cons, List.flatMap_cons]
        constructor
        · rintro ⟨⟨h1, h2⟩, h3, h4⟩
          exact ⟨⟨h1, h3⟩, (forall2_append (hp.len _ _ h1)).2 ⟨h2, h4⟩⟩
        · rintro ⟨⟨h1, h3⟩, h⟩
          have := (forall2_append (hp.len _ _ h1)).1 h
          exact ⟨⟨h1, this.1⟩, h3, this.2⟩
  · induction x with
    | nil => intro y h _; cases y with
      | nil => rfl
      | cons b y => cases h
    | cons a x ih => intro y h e; cases y with
      | nil => cases h
      | cons b y =>
        rw [List.map_cons, List.map_cons, List.cons.injEq] at h
        rw [List.flatMap_cons, List.flatMap_cons] at e
        obtain ⟨e1, e2⟩ := List.append_inj e (hp.len _ _ h.1)
        rw [hp.inj _ _ h.1 e1, ih y h.2 e2]

theorem option (hp : FEq p s f) :
    FEq (eqOption p) (Option.map s) (fun o => o.toList.flatMap f) := by
  refine ⟨fun x y h => ?_, fun x y => ?_, fun x y h e => ?_⟩ <;> cases x <;> cases y
  all_goals first
    | rfl
    | cases h
    | simp [eqOption]
  · simpa using hp.len _ _ (Option.some.inj h)
  · simp [hp.iff]
  · simp only [Option.toList_some, List.flatMap_cons, List.flatMap_nil, List.append_nil] at e
    rw [hp.inj _ _ (Option.some.inj h) e]

theorem iso {p' : β → β → Bool} {s' : β → β} {f' : β → List F32} (g : β → α)
    (hg : ∀ x y, g x = g y → x = y) (h : FEq p s f) (hp : ∀ x y, p' x y = p (g x) (g y))
    (hs : ∀ x, g (s' x) = s (g x)) (hf : ∀ x, f' x = f (g x)) : FEq p' s' f' := by
  have hs' : ∀ x y, s' x = s' y ↔ s (g x) = s (g y) := fun x y => by
    rw [← hs, ← hs]
    exact ⟨congrArg g, hg _ _⟩
  refine ⟨fun x y e => ?_, fun x y => ?_, fun x y e e' => hg _ _ (h.inj _ _ ((hs' x y).1 e) ?_)⟩
  · rw [hf, hf]
    exact h.len _ _ ((hs' x y).1 e)
  · rw [hp, h.iff, hs', hf, hf]
  · rw [← hf, ← hf]
    exact e'

end FEq

open FEq

theorem feq_vec : FEq Vector3f.peq vecRest vecFloats :=
  (pair float (pair float float)).iso (fun v => (v.x, v.y, v.z))
    (fun ⟨_, _, _⟩ ⟨_, _, _⟩ h => by simpa using h)
    (fun x y => by simp only [Vector3f.peq, Bool.and_assoc]) (fun _ => rfl) (fun _ => rfl)

theorem feq_quat : FEq Quaternion.peq (fun _ => ⟨0, 0, 0, 0⟩) (fun q => [q.x, q.y, q.z, q.w]) :=
  (pair float (pair float (pair float float))).iso (fun v => (v.x, v.y, v.z, v.w))
    (fun ⟨_, _, _, _⟩ ⟨_, _, _, _⟩ h => by simpa using h)
    (fun x y => by simp only [Quaternion.peq, Bool.and_assoc]) (fun _ => rfl) (fun _ => rfl)

theorem feq_optFloat : FEq (eqOption F32.eq) (Option.map fun _ => 0) Option.toList :=
  (option float).iso id (fun _ _ h => h) (fun _ _ => rfl) (fun _ => rfl)
    (fun x => by cases x <;> rfl)

theorem feq_cam : FEq CamSettings.peq
    (fun v => ⟨0, 0, 0, 0, 0, 0, v.transition.map fun _ => 0⟩)
    (fun v => [v.fov, v.height, v.angle, v.distance, v.stiffness, v.swivel] ++
      v.transition.toList) :=
  (pair float (pair float (pair float (pair float (pair float (pair float feq_optFloat)))))).iso
    (fun v => (v.fov, v.height, v.angle, v.distance, v.stiffness, v.swivel, v.transition))
    (fun ⟨_, _, _, _, _, _, _⟩ ⟨_, _, _, _, _, _, _⟩ h => by simpa using h)
    (fun x y => by simp only [CamSettings.peq, Bool.and_assoc]) (fun _ => rfl) (fun _ => rfl)

theorem feq_applied : FEq AppliedDamage.peq (fun v => { v with position := vecRest v.position })
    (fun v => vecFloats v.position) :=
  (pair plain (pair feq_vec (pair plain plain))).iso
    (fun v => (v.id, v.position, v.damageIndex, v.totalDamage))
    (fun ⟨_, _, _, _⟩ ⟨_, _, _, _⟩ h => by simpa using h)
    (fun x y => by simp only [AppliedDamage.peq, Bool.and_assoc]) (fun _ => rfl)
    (fun _ => by simp)

theorem feq_damage : FEq DamageState.peq
    (fun v => { v with ballPosition := vecRest v.ballPosition })
    (fun v => vecFloats v.ballPosition) :=
  (pair plain (pair plain (pair plain (pair feq_vec (pair plain plain))))).iso
    (fun v => (v.tileState, v.damaged, v.offender, v.ballPosition, v.directHit, v.unknown1))
    (fun ⟨_, _, _, _, _, _⟩ ⟨_, _, _, _, _, _⟩ h => by simpa using h)
    (fun x y => by simp only [DamageState.peq, Bool.and_assoc]) (fun _ => rfl)
    (fun _ => by simp)

theorem feq_demolish : FEq Demolish.peq
    (fun v => { v with attackVelocity := vecRest v.attackVelocity
                       victimVelocity := vecRest v.victimVelocity })
    (fun v => vecFloats v.attackVelocity ++ vecFloats v.victimVelocity) :=
  (pair plain (pair plain (pair plain (pair plain (pair feq_vec feq_vec))))).iso
    (fun v => (v.attackerFlag, v.attacker, v.victimFlag, v.victim, v.attackVelocity,
      v.victimVelocity))
    (fun ⟨_, _, _, _, _, _⟩ ⟨_, _, _, _, _, _⟩ h => by simpa using h)
    (fun x y => by simp only [Demolish.peq, Bool.and_assoc]) (fun _ => rfl)
    (fun _ => by simp)

theorem feq_demolishExtended : FEq DemolishExtended.peq
    (fun v => { v with attackerVelocity := vecRest v.attackerVelocity
                       victimVelocity := vecRest v.victimVelocity })
    (fun v => vecFloats v.attackerVelocity ++ vecFloats v.victimVelocity) :=
  (pair plain (pair plain (pair plain (pair plain (pair plain (pair plain
    (pair feq_vec feq_vec))))))).iso
    (fun v => (v.attackerPri, v.selfDemo, v.selfDemolish, v.goalExplosionOwner, v.attacker,
      v.victim, v.attackerVelocity, v.victimVelocity))
    (fun ⟨_, _, _, _, _, _, _, _⟩ ⟨_, _, _, _, _, _, _, _⟩ h => by simpa using h)
    (fun x y => by simp only [DemolishExtended.peq, Bool.and_assoc]) (fun _ => rfl)
    (fun _ => by simp)

theorem feq_demolishFx : FEq DemolishFx.peq
    (fun v => { v with attackVelocity := vecRest v.attackVelocity
                       victimVelocity := vecRest v.victimVelocity })
    (fun v => vecFloats v.attackVelocity ++ vecFloats v.victimVelocity) :=
  (pair plain (pair plain (pair plain (pair plain (pair plain (pair plain
    (pair feq_vec feq_vec))))))).iso
    (fun v => (v.customDemoFlag, v.customDemoId, v.attackerFlag, v.attacker, v.victimFlag,
      v.victim, v.attackVelocity, v.victimVelocity))
    (fun ⟨_, _, _, _, _, _, _, _⟩ ⟨_, _, _, _, _, _, _, _⟩ h => by simpa using h)
    (fun x y => by simp only [DemolishFx.peq, Bool.and_assoc]) (fun _ => rfl)
    (fun _ => by simp)

theorem feq_explosion : FEq Explosion.peq (fun v => { v with location := vecRest v.location })
    (fun v => vecFloats v.location) :=
  (pair plain (pair plain feq_vec)).iso (fun v => (v.flag, v.actor, v.location))
    (fun ⟨_, _, _⟩ ⟨_, _, _⟩ h => by simpa using h)
    (fun x y => by simp only [Explosion.peq, Bool.and_assoc]) (fun _ => rfl) (fun _ => by simp)

theorem feq_extended : FEq ExtendedExplosion.peq
    (fun v => { v with
      explosion := { v.explosion with location := vecRest v.explosion.location } })
    (fun v => vecFloats v.explosion.location) :=
  (pair feq_explosion (pair plain plain)).iso (fun v => (v.explosion, v.unknown1, v.secondaryActor))
    (fun ⟨_, _, _⟩ ⟨_, _, _⟩ h => by simpa using h)
    (fun x y => by simp only [ExtendedExplosion.peq, Bool.and_assoc]) (fun _ => rfl)
    (fun _ => by simp)

theorem feq_welded : FEq Welded.peq (fun v => { v with offset := vecRest v.offset, mass := 0 })
    (fun v => vecFloats v.offset ++ [v.mass]) :=
  (pair plain (pair plain (pair feq_vec (pair float plain)))).iso
    (fun v => (v.active, v.actor, v.offset, v.mass, v.rotation))
    (fun ⟨_, _, _, _, _⟩ ⟨_, _, _, _, _⟩ h => by simpa using h)
    (fun x y => by simp only [Welded.peq, Bool.and_assoc]) (fun _ => rfl) (fun _ => by simp)

theorem feq_rigid : FEq RigidBody.peq
    (fun v => { v with
      location := vecRest v.location, rotation := ⟨0, 0, 0, 0⟩
      linearVelocity := v.linearVelocity.map vecRest
      angularVelocity := v.angularVelocity.map vecRest })
    (fun v => vecFloats v.location ++ [v.rotation.x, v.rotation.y, v.rotation.z, v.rotation.w] ++
      v.linearVelocity.toList.flatMap vecFloats ++ v.angularVelocity.toList.flatMap vecFloats) :=
  (pair plain (pair feq_vec (pair feq_quat (pair (option feq_vec) (option feq_vec))))).iso
    (fun v => (v.sleeping, v.location, v.rotation, v.linearVelocity, v.angularVelocity))
    (fun ⟨_, _, _, _, _⟩ ⟨_, _, _, _, _⟩ h => by simpa using h)
    (fun x y => by simp only [RigidBody.peq, Bool.and_assoc]) (fun _ => rfl) (fun _ => by simp)

theorem feq_impulse : FEq Impulse.peq (fun v => { v with speed := 0 }) (fun v => [v.speed]) :=
  (pair plain float).iso (fun v => (v.compressedRotation, v.speed))
    (fun ⟨_, _⟩ ⟨_, _⟩ h => by simpa using h) (fun x y => rfl) (fun _ => rfl) (fun _ => by simp)

theorem feq_attr : FEq Attribute.peq attrRest attrFloats := by
  have key : ∀ x y, attrRest x = attrRest y →
      (attrFloats x).length = (attrFloats y).length ∧
      (x.peq y = true ↔ List.Forall₂ SameFloat (attrFloats x) (attrFloats y)) ∧
      (attrFloats x = attrFloats y → x = y) := by
    have lift : ∀ {α : Type} {p : α → α → Bool} {s : α → α} {f : α → List F32} (c : α → Attribute)
        (hc : ∀ x y, c x = c y → x = y) (h : FEq p s f)
        (hp : ∀ x y, (c x).peq (c y) = p x y) (hs : ∀ x, attrRest (c x) = c (s x))
        (hf : ∀ x, attrFloats (c x) = f x) (x y : α), attrRest (c x) = attrRest (c y) →
        (attrFloats (c x)).length = (attrFloats (c y)).length ∧
        ((c x).peq (c y) = true ↔ List.Forall₂ SameFloat (attrFloats (c x)) (attrFloats (c y))) ∧
        (attrFloats (c x) = attrFloats (c y) → c x = c y) := by
      intro α p s f c hc h hp hs hf x y e
      rw [hs, hs] at e
      have e := hc _ _ e
      rw [hf, hf, hp, h.iff]
      exact ⟨h.len _ _ e, ⟨fun k => k.2, fun k => ⟨e, k⟩⟩, fun k => by rw [h.inj _ _ e k]⟩
    intro x y h
    cases x <;> cases y <;> first
      | (simp only [attrRest, reduceCtorEq] at h; done)
      | (cases h; exact ⟨rfl, by simp [Attribute.peq, attrFloats], fun _ => rfl⟩)
      | skip
    · exact lift .appliedDamage (fun _ _ e => Attribute.appliedDamage.inj e) feq_applied
        (fun _ _ => rfl) (fun _ => rfl) (fun _ => rfl) _ _ h
    · exact lift .damageState (fun _ _ e => Attribute.damageState.inj e) feq_damage
        (fun _ _ => rfl) (fun _ => rfl) (fun _ => rfl) _ _ h
    · exact lift .camSettings (fun _ _ e => Attribute.camSettings.inj e) feq_cam
        (fun _ _ => rfl) (fun _ => rfl) (fun _ => rfl) _ _ h
    · exact lift .demolish (fun _ _ e => Attribute.demolish.inj e) feq_demolish
        (fun _ _ => rfl) (fun _ => rfl) (fun _ => rfl) _ _ h
    · exact lift .demolishExtended (fun _ _ e => Attribute.demolishExtended.inj e) feq_demolishExtended
        (fun _ _ => rfl) (fun _ => rfl) (fun _ => rfl) _ _ h
    · exact lift .demolishFx (fun _ _ e => Attribute.demolishFx.inj e) feq_demolishFx
        (fun _ _ => rfl) (fun _ => rfl) (fun _ => rfl) _ _ h
    · exact lift .explosion (fun _ _ e => Attribute.explosion.inj e) feq_explosion
        (fun _ _ => rfl) (fun _ => rfl) (fun _ => rfl) _ _ h
    · exact lift .extendedExplosion (fun _ _ e => Attribute.extendedExplosion.inj e) feq_extended
        (fun _ _ => rfl) (fun _ => rfl) (fun _ => rfl) _ _ h
    · exact lift .float (fun _ _ e => Attribute.float.inj e) float
        (fun _ _ => rfl) (fun _ => rfl) (fun _ => rfl) _ _ h
    · exact lift .location (fun _ _ e => Attribute.location.inj e) feq_vec
        (fun _ _ => rfl) (fun _ => rfl) (fun _ => rfl) _ _ h
    · exact lift .welded (fun _ _ e => Attribute.welded.inj e) feq_welded
        (fun _ _ => rfl) (fun _ => rfl) (fun _ => rfl) _ _ h
    · exact lift .rigidBody (fun _ _ e => Attribute.rigidBody.inj e) feq_rigid
        (fun _ _ => rfl) (fun _ => rfl) (fun _ => rfl) _ _ h
    · exact lift .impulse (fun _ _ e => Attribute.impulse.inj e) feq_impulse
        (fun _ _ => rfl) (fun _ => rfl) (fun _ => rfl) _ _ h
  refine ⟨fun x y h => (key x y h).1, fun x y => ⟨fun h => ?_, fun h => (key x y h.1).2.1.2 h.2⟩,
    fun x y h => (key x y h).2.2⟩
  have e : attrRest x = attrRest y := by
    unfold Attribute.peq at h
    split at h
    · exact congrArg Attribute.appliedDamage ((feq_applied.iff _ _).1 h).1
    · exact congrArg Attribute.damageState ((feq_damage.iff _ _).1 h).1
    · exact congrArg Attribute.camSettings ((feq_cam.iff _ _).1 h).1
    · exact congrArg Attribute.demolish ((feq_demolish.iff _ _).1 h).1
    · exact congrArg Attribute.demolishExtended ((feq_demolishExtended.iff _ _).1 h).1
    · exact congrArg Attribute.demolishFx ((feq_demolishFx.iff _ _).1 h).1
    · exact congrArg Attribute.explosion ((feq_explosion.iff _ _).1 h).1
    · exact congrArg Attribute.extendedExplosion ((feq_extended.iff _ _).1 h).1
    · exact congrArg Attribute.float ((float.iff _ _).1 h).1
    · exact congrArg Attribute.location ((feq_vec.iff _ _).1 h).1
    · exact congrArg Attribute.welded ((feq_welded.iff _ _).1 h).1
    · exact congrArg Attribute.rigidBody ((feq_rigid.iff _ _).1 h).1
    · exact congrArg Attribute.impulse ((feq_impulse.iff _ _).1 h).1
    · rw [of_decide_eq_true h]
  exact ⟨e, (key x y e).2.1.1 h⟩

theorem feq_update : FEq UpdatedAttribute.peq (fun u => { u with attr := attrRest u.attr })
    (fun u => attrFloats u.attr) :=
  (pair plain (pair plain (pair plain feq_attr))).iso
    (fun v => (v.actorId, v.streamId, v.objectId, v.attr))
    (fun ⟨_, _, _, _⟩ ⟨_, _, _, _⟩ h => by simpa using h)
    (fun x y => by simp only [UpdatedAttribute.peq, Bool.and_assoc]) (fun _ => rfl)
    (fun _ => by simp)

theorem feq_frame : FEq Frame.peq frameRest frameFloats :=
  (pair float (pair float (pair plain (pair plain (list feq_update))))).iso
    (fun v => (v.time, v.delta, v.newActors, v.deletedActors, v.updatedActors))
    (fun ⟨_, _, _, _, _⟩ ⟨_, _, _, _, _⟩ h => by simpa using h)
    (fun x y => by simp only [Frame.peq, Bool.and_assoc]) (fun _ => rfl)
    (fun _ => by simp [frameFloats])

theorem feq_keyFrame : FEq KeyFrame.peq (fun k => { k with time := 0 }) (fun k => [k.time]) :=
  (pair float (pair plain plain)).iso (fun v => (v.time, v.frame, v.position))
    (fun ⟨_, _, _⟩ ⟨_, _, _⟩ h => by simpa using h)
    (fun x y => by simp only [KeyFrame.peq, Bool.and_assoc]) (fun _ => rfl) (fun _ => by simp)

theorem feq_net : FEq NetworkFrames.peq (fun n => ⟨n.frames.map frameRest⟩)
    (fun n => n.frames.flatMap frameFloats) :=
  (list feq_frame).iso (fun n => n.frames) (fun ⟨_⟩ ⟨_⟩ h => by simpa using h)
    (fun _ _ => rfl) (fun _ => rfl) (fun _ => rfl)

/-- `FEq` for one value. -/
def FEq1 {α : Type} (p : α → α → Bool) (s : α → α) (f : α → List F32) (x : α) : Prop :=
  ∀ y, (s x = s y → (f x).length = (f y).length) ∧
    (p x y = true ↔ s x = s y ∧ List.Forall₂ SameFloat (f x) (f y)) ∧
    (s x = s y → f x = f y → x = y)

theorem FEq1.cons {α β : Type} {a b : α} {x y : β} {f g : List F32} {f' g' : List F32} {ra rb : Prop}
    {p q : Bool}
    (h1 : (ra → f.length = f'.length) ∧ (p = true ↔ ra ∧ List.Forall₂ SameFloat f f') ∧
      (ra → f = f' → a = b))
    (h2 : (rb → g.length = g'.length) ∧ (q = true ↔ rb ∧ List.Forall₂ SameFloat g g') ∧
      (rb → g = g' → x = y)) :
    (ra ∧ rb → (f ++ g).length = (f' ++ g').length) ∧
      ((p && q) = true ↔ (ra ∧ rb) ∧ List.Forall₂ SameFloat (f ++ g) (f' ++ g')) ∧
      (ra ∧ rb → f ++ g = f' ++ g' → a = b ∧ x = y) := by
  refine ⟨fun ⟨ha, hb⟩ => ?_, ?_, fun ⟨ha, hb⟩ e => ?_⟩
  · rw [List.length_append, List.length_append, h1.1 ha, h2.1 hb]
  · rw [Bool.and_eq_true, h1.2.1, h2.2.1]
    constructor
    · rintro ⟨⟨a, b⟩, c, d⟩
      exact ⟨⟨a, c⟩, (forall2_append (h1.1 a)).2 ⟨b, d⟩⟩
    · rintro ⟨⟨a, c⟩, h⟩
      have := (forall2_append (h1.1 a)).1 h
      exact ⟨⟨a, this.1⟩, c, this.2⟩
  · obtain ⟨e1, e2⟩ := List.append_inj e (h1.1 ha)
    exact ⟨h1.2.2 ha e1, h2.2.2 hb e2⟩

mutual
theorem feq1_prop : ∀ x, FEq1 HeaderProp.peq propRest propFloats x
  | .array a, y => by
    cases y with
    | array b =>
      have := feq1_elems a b
      simp only [HeaderProp.peq, propRest, propFloats, HeaderProp.array.injEq]
      exact this
    | _ => simp [HeaderProp.peq, propRest]
  | .struct n a, y => by
    cases y with
    | struct m b =>
      have h := feq1_props a b
      simp only [HeaderProp.peq, propRest, propFloats, HeaderProp.struct.injEq, Bool.and_eq_true,
        beq_iff_eq, h.2.1]
      exact ⟨fun e => h.1 e.2, and_assoc.symm, fun e e' => ⟨e.1, h.2.2 e.2 e'⟩⟩
    | _ => simp [HeaderProp.peq, propRest]
  | .float a, y => by cases y <;> simp [HeaderProp.peq, propRest, propFloats, f32_eq_iff]
  | .byte a a', y => by cases y <;> simp +contextual [HeaderProp.peq, propRest, propFloats]
  | .bool a, y => by cases y <;> simp [HeaderProp.peq, propRest, propFloats]
  | .int a, y => by cases y <;> simp [HeaderProp.peq, propRest, propFloats]
  | .name a, y => by cases y <;> simp [HeaderProp.peq, propRest, propFloats]
  | .qword a, y => by cases y <;> simp [HeaderProp.peq, propRest, propFloats]
  | .str a, y => by cases y <;> simp [HeaderProp.peq, propRest, propFloats]
theorem feq1_props : ∀ x, FEq1 eqProps propsRest propsFloats x
  | [], [] => by simp [eqProps, propsFloats]
  | [], (k, v) :: y => by simp [eqProps, propsRest]
  | (k, v) :: x, [] => by simp [eqProps, propsRest]
  | (k, v) :: x, (k', v') :: y => by
    have h := FEq1.cons (feq1_prop v v') (feq1_props x y)
    simp only [eqProps, propsRest, propsFloats, List.cons.injEq, Prod.mk.injEq, Bool.and_assoc]
    rw [Bool.and_eq_true, beq_iff_eq, h.2.1]
    refine ⟨fun e => h.1 ⟨e.1.2, e.2⟩, ?_, fun e e' => ?_⟩
    · constructor
      · rintro ⟨a, ⟨b, c⟩, d⟩
        exact ⟨⟨⟨a, b⟩, c⟩, d⟩
      · rintro ⟨⟨⟨a, b⟩, c⟩, d⟩
        exact ⟨a, ⟨b, c⟩, d⟩
    · have := h.2.2 ⟨e.1.2, e.2⟩ e'
      exact ⟨⟨e.1.1, this.1⟩, this.2⟩
theorem feq1_elems : ∀ x, FEq1 eqElems elemsRest elemsFloats x
  | [], [] => by simp [eqElems, elemsFloats]
  | [], e :: y => by simp [eqElems, elemsRest]
  | e :: x, [] => by simp [eqElems, elemsRest]
  | e :: x, e' :: y => by
    have h := FEq1.cons (feq1_props e e') (feq1_elems x y)
    simp only [eqElems, elemsRest, elemsFloats, List.cons.injEq]
    exact h
end

theorem feq_props : FEq eqProps propsRest propsFloats :=
  ⟨fun x y => (feq1_props x y).1, fun x y => (feq1_props x y).2.1, fun x y => (feq1_props x y).2.2⟩

theorem feq_replay : FEq Replay.peq replayRest replayFloats :=
  (pair plain (pair plain (pair plain (pair plain (pair plain (pair plain (pair feq_props
    (pair plain (pair plain (pair (option feq_net) (pair plain (pair (list feq_keyFrame)
    (pair plain (pair plain (pair plain (pair plain (pair plain (pair plain
      plain)))))))))))))))))).iso
    (fun r => (r.headerSize, r.headerCrc, r.majorVersion, r.minorVersion, r.netVersion, r.gameType,
      r.properties, r.contentSize, r.contentCrc, r.networkFrames, r.levels, r.keyframes,
      r.debugInfo, r.tickMarks, r.packages, r.objects, r.names, r.classIndices, r.netCache))
    (fun ⟨_, _, _, _, _, _, _, _, _, _, _, _, _, _, _, _, _, _, _⟩
      ⟨_, _, _, _, _, _, _, _, _, _, _, _, _, _, _, _, _, _, _⟩ h => by simpa using h)
    (fun x y => by simp only [Replay.peq, Bool.and_assoc]) (fun _ => rfl)
    (fun r => by simp [replayFloats, List.map_eq_flatMap])

theorem feq_context : FEq FrameContext.peq contextRest contextFloats :=
  (pair plain (pair plain (pair (list feq_frame) (pair plain (pair plain (list feq_update)))))).iso
    (fun c => (c.objects, c.objectAttributes, c.frames, c.actors, c.newActors, c.updatedActors))
    (fun ⟨_, _, _, _, _, _⟩ ⟨_, _, _, _, _, _⟩ h => by simpa using h)
    (fun x y => by simp only [FrameContext.peq, Bool.and_assoc]) (fun _ => rfl)
    (fun c => by simp [contextFloats])

/-- The floats of a frame error. -/
def frameErrorFloats : FrameError → List F32
  | .timeOutOfRange t => [t]
  | .deltaOutOfRange t => [t]
  | _ => []

/-- A frame error with its floats set to zero. -/
def frameErrorRest : FrameError → FrameError
  | .timeOutOfRange _ => .timeOutOfRange 0
  | .deltaOutOfRange _ => .deltaOutOfRange 0
  | e => e

theorem feq_frameError : FEq FrameError.peq frameErrorRest frameErrorFloats := by
  have key : ∀ x, FEq1 FrameError.peq frameErrorRest frameErrorFloats x := by
    intro x y
    cases x <;> cases y <;>
      simp +contextual [FrameError.peq, frameErrorRest, frameErrorFloats, f32_eq_iff]
  exact ⟨fun x y => (key x y).1, fun x y => (key x y).2.1, fun x y => (key x y).2.2⟩

theorem errorRest_frame (e : FrameError) (c : FrameContext) :
    errorRest (.networkError (.frameError e c)) =
      .networkError (.frameError (frameErrorRest e) (contextRest c)) := by
  cases e <;> rfl

theorem errorFloats_frame (e : FrameError) (c : FrameContext) :
    errorFloats (.networkError (.frameError e c)) = frameErrorFloats e ++ contextFloats c := by
  cases e <;> rfl

theorem feq1_network (x : NetworkError) (y : ParseError) :
    (errorRest (.networkError x) = errorRest y →
        (errorFloats (.networkError x)).length = (errorFloats y).length) ∧
      (ParseError.peq (.networkError x) y = true ↔ errorRest (.networkError x) = errorRest y ∧
        List.Forall₂ SameFloat (errorFloats (.networkError x)) (errorFloats y)) ∧
      (errorRest (.networkError x) = errorRest y → errorFloats (.networkError x) = errorFloats y →
        ParseError.networkError x = y) := by
  have fc := pair feq_frameError feq_context
  cases x with
  | frameError e c =>
    cases y with
    | networkError z =>
      cases z with
      | frameError e' c' =>
        have h1 := fc.len (e, c) (e', c')
        have h2 := fc.iff (e, c) (e', c')
        have h3 := fc.inj (e, c) (e', c')
        simp only [errorRest_frame, errorFloats_frame, ParseError.peq, NetworkError.peq,
          ParseError.networkError.injEq, NetworkError.frameError.injEq]
        simp only [Prod.mk.injEq] at h1 h2 h3
        exact ⟨h1, h2, h3⟩
      | _ => simp [errorRest_frame, ParseError.peq, NetworkError.peq, errorRest]
    | _ => simp [errorRest_frame, ParseError.peq, errorRest]
  | _ =>
    cases y with
    | networkError z =>
      cases z with
      | frameError e' c' => simp [errorRest_frame, ParseError.peq, NetworkError.peq, errorRest]
      | _ => simp +contextual [ParseError.peq, NetworkError.peq, errorRest, errorFloats]
    | _ => simp [ParseError.peq, errorRest]

theorem feq1_error (x : ParseError) : FEq1 ParseError.peq errorRest errorFloats x := by
  induction x with
  | parseError s o e ih =>
    intro y
    cases y with
    | parseError s' o' e' =>
      have h := ih e'
      simp only [ParseError.peq, errorRest, errorFloats, ParseError.parseError.injEq,
        Bool.and_eq_true, beq_iff_eq, h.2.1]
      refine ⟨fun k => h.1 k.2.2, ?_, fun k k' => ⟨k.1, k.2.1, h.2.2 k.2.2 k'⟩⟩
      constructor
      · rintro ⟨⟨a, b⟩, c, d⟩
        exact ⟨⟨a, b, c⟩, d⟩
      · rintro ⟨⟨a, b, c⟩, d⟩
        exact ⟨⟨a, b⟩, c, d⟩
    | networkError z =>
      cases z with
      | frameError e' c' => simp [errorRest_frame, ParseError.peq, errorRest]
      | _ => simp [ParseError.peq, errorRest]
    | _ => simp [ParseError.peq, errorRest]
  | corruptReplay s e ih =>
    intro y
    cases y with
    | corruptReplay s' e' =>
      have h := ih e'
      simp only [ParseError.peq, errorRest, errorFloats, ParseError.corruptReplay.injEq,
        Bool.and_eq_true, beq_iff_eq, h.2.1]
      exact ⟨fun k => h.1 k.2, and_assoc.symm, fun k k' => ⟨k.1, h.2.2 k.2 k'⟩⟩
    | networkError z =>
      cases z with
      | frameError e' c' => simp [errorRest_frame, ParseError.peq, errorRest]
      | _ => simp [ParseError.peq, errorRest]
    | _ => simp [ParseError.peq, errorRest]
  | networkError x => exact feq1_network x
  | _ =>
    intro y
    cases y with
    | networkError z =>
      cases z with
      | frameError e' c' => simp [errorRest_frame, ParseError.peq, errorRest]
      | _ => simp [ParseError.peq, errorRest]
    | _ => simp +contextual [ParseError.peq, errorRest, errorFloats]

theorem feq_error : FEq ParseError.peq errorRest errorFloats :=
  ⟨fun x y => (feq1_error x y).1, fun x y => (feq1_error x y).2.1, fun x y => (feq1_error x y).2.2⟩

end Boxcars
