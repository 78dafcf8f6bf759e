import Verif.Proofs.Local
import Verif.Spec.Damage
/-!
# What was read depends on the number, not the value of the bits that follow
-/
namespace Boxcars
open Spec

theorem vecTrunc_same {net : I32} {i o : Bits} (h : VecTrunc net i o) :
    ∃ w, i = w ++ o ∧ ∀ o', o'.length = o.length → VecTrunc net (w ++ o') o' := by
  rcases h with ⟨h, rfl⟩ | ⟨h1, s, hs, rfl, h⟩
  · exact ⟨[], rfl, fun o' ho => .inl ⟨by rw [List.nil_append]; omega, rfl⟩⟩
  · refine ⟨_, rfl, fun o' ho => .inr ⟨?_, s, hs, rfl, by omega⟩⟩
    rw [List.length_append] at h1 ⊢
    omega

theorem velocity_same {net : I32} {v : Option Vector3f} {i o : Bits} (h : Velocity net v i o) :
    ∃ w, i = w ++ o ∧ ∀ o', o'.length = o.length → Velocity net v (w ++ o') o' := by
  cases v with
  | none => exact vecTrunc_same h
  | some x =>
    obtain ⟨b, hb, rfl⟩ := h
    exact ⟨b, rfl, fun o' _ => ⟨b, hb, rfl⟩⟩

theorem accepts_same {c : Spec.Ctx} {tag : AttributeTag} {v : Attribute} {i o : Bits}
    (h : AttrAccepts c tag v i o) :
    ∃ w, i = w ++ o ∧ ∀ o', o'.length = o.length → AttrAccepts c tag v (w ++ o') o' := by
  rcases h with ⟨bs, h1, h2⟩ | ⟨ht, r, hv, hs, h1, l, q, j, k, hl, hq, rfl, h2, h3⟩
  · exact ⟨bs, h2, fun o' _ => .inl ⟨bs, h1, rfl⟩⟩
  · obtain ⟨w2, rfl, hw2⟩ := velocity_same h2
    obtain ⟨w3, rfl, hw3⟩ := velocity_same h3
    refine ⟨[r.sleeping] ++ (l ++ (q ++ (w2 ++ w3))), by simp only [List.append_assoc], ?_⟩
    intro o' ho
    refine .inr ⟨ht, r, hv, hs, h1, l, q, w2 ++ (w3 ++ o'), w3 ++ o', hl, hq,
      by simp only [List.append_assoc], hw2 _ ?_, hw3 _ ho⟩
    rw [List.length_append, List.length_append, ho]

variable {c : Spec.Ctx} {n : Net} {known : Known} {i o : Bits}

theorem propsRel_same {cd : ClassDef} {id : ActorId} {us : List UpdatedAttribute}
    (h : PropsRel (AttrAccepts c) cd id us i o) :
    ∃ w, i = w ++ o ∧ ∀ o', o'.length = o.length →
      PropsRel (AttrAccepts c) cd id us (w ++ o') o' := by
  induction h with
  | done => exact ⟨[false], rfl, fun _ _ => .done⟩
  | @prop s tag obj v us j k o h1 h2 h3 h4 ih =>
    obtain ⟨w, rfl, hw⟩ := ih
    obtain ⟨u, rfl, hu⟩ := accepts_same h3
    refine ⟨true :: (bounded cd.limit.toNat s.toNat ++ (u ++ w)), by simp, fun o' ho => ?_⟩
    have := PropsRel.prop (A := AttrAccepts c) (id := id) h1 h2
      (hu (w ++ o') (by rw [List.length_append, List.length_append, ho])) (hw o' ho)
    simpa only [List.cons_append, List.append_assoc] using this

theorem eventRel_same {e : Event} (h : EventRel n (AttrAccepts c) known e i o) :
    ∃ w, i = w ++ o ∧ ∀ o', o'.length = o.length →
      EventRel n (AttrAccepts c) known e (w ++ o') o' := by
  cases h with
  | @new a cd j _ h1 h2 h3 =>
    obtain ⟨nm, b, sp, t, h4, h5, h6, rfl⟩ := h2
    refine ⟨actorId n a.actorId ++ (true :: true :: (nm ++ ([b] ++ (field 32 a.objectId ++ t)))),
      by simp, fun o' _ => ?_⟩
    have := EventRel.new (A := AttrAccepts c) (known := known) (o := o') h1
      ⟨nm, b, sp, t, h4, h5, h6, rfl⟩ h3
    simpa only [List.cons_append, List.append_assoc] using this
  | @delete id _ h1 =>
    refine ⟨actorId n id ++ [false], by simp, fun o' _ => ?_⟩
    have := EventRel.delete (A := AttrAccepts c) (known := known) (o := o') h1
    simpa only [List.cons_append, List.append_assoc, List.nil_append] using this
  | @update id obj cd us j _ h1 h2 h3 h4 =>
    obtain ⟨w, rfl, hw⟩ := propsRel_same h4
    refine ⟨actorId n id ++ (true :: false :: w), by simp, fun o' ho => ?_⟩
    have := EventRel.update h1 h2 h3 (hw o' ho)
    simpa only [List.cons_append, List.append_assoc] using this

theorem eventsRel_same {es : List Event} (h : EventsRel n (AttrAccepts c) known es i o) :
    ∃ w, i = w ++ o ∧ ∀ o', o'.length = o.length →
      EventsRel n (AttrAccepts c) known es (w ++ o') o' := by
  induction h with
  | done => exact ⟨[false], rfl, fun _ _ => .done⟩
  | @event known e es i j o h1 h2 ih =>
    obtain ⟨w, rfl, hw⟩ := ih
    obtain ⟨u, rfl, hu⟩ := eventRel_same h1
    refine ⟨true :: (u ++ w), by simp, fun o' ho => ?_⟩
    have := EventsRel.event (hu (w ++ o') (by rw [List.length_append, List.length_append, ho]))
      (hw o' ho)
    simpa only [List.cons_append, List.append_assoc] using this

theorem frameRel_same {f : Frame} {es : List Event}
    (h : FrameRel n (AttrAccepts c) known f es i o) :
    ∃ w, i = w ++ o ∧ ∀ o', o'.length = o.length →
      FrameRel n (AttrAccepts c) known f es (w ++ o') o' := by
  obtain ⟨h1, h2, h3, h4, h5, h6, j, rfl, h7⟩ := h
  obtain ⟨w, rfl, hw⟩ := eventsRel_same h7
  exact ⟨field 32 f.time ++ (field 32 f.delta ++ w), by simp, fun o' ho =>
    ⟨h1, h2, h3, h4, h5, h6, w ++ o', by simp, hw o' ho⟩⟩

/-- Frames that were read are read whatever the values of the bits that follow. -/
theorem framesAt_same {fs : List Frame} {ess : List (List Event)} {k : Known}
    (h : FramesAt n (AttrAccepts c) known fs ess k i o) :
    ∃ w, i = w ++ o ∧ ∀ o', o'.length = o.length →
      FramesAt n (AttrAccepts c) known fs ess k (w ++ o') o' := by
  induction h with
  | nil => exact ⟨[], rfl, fun _ _ => .nil⟩
  | cons h1 h2 ih =>
    obtain ⟨w, rfl, hw⟩ := ih
    obtain ⟨u, rfl, hu⟩ := frameRel_same h1
    refine ⟨u ++ w, by simp, fun o' ho => ?_⟩
    have := FramesAt.cons (hu (w ++ o') (by rw [List.length_append, List.length_append, ho]))
      (hw o' ho)
    simpa only [List.append_assoc] using this

end Boxcars
