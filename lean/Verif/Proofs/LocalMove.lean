import Verif.Proofs.CutLast
import Verif.Spec.Possible
/-!
# Frames without a body that is cut do not depend on what follows
-/
namespace Boxcars
open Spec

theorem accepts_moved {c : Spec.Ctx} {tag : AttributeTag} {v : Attribute} {i o : Bits}
    (h : AttrAccepts c tag v i o) (hm : ¬Unmoved v) :
    ∃ w, i = w ++ o ∧ ∀ o', AttrAccepts c tag v (w ++ o') o' := by
  rcases h with ⟨bs, h1, h2⟩ | ⟨_, r, hv, hs, h1, _⟩
  · exact ⟨bs, h2, fun o' => .inl ⟨bs, h1, rfl⟩⟩
  · exact absurd ⟨r, hv, hs, h1⟩ hm

variable {c : Spec.Ctx} {n : Net} {known : Known} {i o : Bits}

theorem propsRel_moved {cd : ClassDef} {id : ActorId} {us : List UpdatedAttribute}
    (h : PropsRel (AttrAccepts c) cd id us i o) (hm : ∀ u ∈ us, ¬Unmoved u.attr) :
    ∃ w, i = w ++ o ∧ ∀ o', PropsRel (AttrAccepts c) cd id us (w ++ o') o' := by
  induction h with
  | done => exact ⟨[false], rfl, fun _ => .done⟩
  | @prop s tag obj v us j k o h1 h2 h3 h4 ih =>
    obtain ⟨w, rfl, hw⟩ := ih (fun u hu => hm u (.tail _ hu))
    obtain ⟨u, rfl, hu⟩ := accepts_moved h3 (hm _ (.head _))
    refine ⟨true :: (bounded cd.limit.toNat s.toNat ++ (u ++ w)), by simp, fun o' => ?_⟩
    have := PropsRel.prop (A := AttrAccepts c) (id := id) h1 h2 (hu (w ++ o')) (hw o')
    simpa only [List.cons_append, List.append_assoc] using this

theorem eventRel_moved {e : Event} (h : EventRel n (AttrAccepts c) known e i o)
    (hm : ∀ u ∈ updates [e], ¬Unmoved u.attr) :
    ∃ w, i = w ++ o ∧ ∀ o', EventRel n (AttrAccepts c) known e (w ++ o') o' := by
  cases h with
  | @new a cd j _ h1 h2 h3 =>
    obtain ⟨nm, b, sp, t, h4, h5, h6, rfl⟩ := h2
    refine ⟨actorId n a.actorId ++ (true :: true :: (nm ++ ([b] ++ (Spec.field 32 a.objectId ++ t)))),
      by simp, fun o' => ?_⟩
    have := EventRel.new (A := AttrAccepts c) (known := known) (o := o') h1
      ⟨nm, b, sp, t, h4, h5, h6, rfl⟩ h3
    simpa only [List.cons_append, List.append_assoc] using this
  | @delete id _ h1 =>
    refine ⟨actorId n id ++ [false], by simp, fun o' => ?_⟩
    have := EventRel.delete (A := AttrAccepts c) (known := known) (o := o') h1
    simpa only [List.cons_append, List.append_assoc, List.nil_append] using this
  | @update id obj cd us j _ h1 h2 h3 h4 =>
    obtain ⟨w, rfl, hw⟩ := propsRel_moved h4
      (fun u hu => hm u (List.mem_append.2 (.inl hu)))
    refine ⟨actorId n id ++ (true :: false :: w), by simp, fun o' => ?_⟩
    have := EventRel.update h1 h2 h3 (hw o')
    simpa only [List.cons_append, List.append_assoc] using this

theorem updates_split (e : Event) (es : List Event) : updates (e :: es) = updates [e] ++ updates es := by
  cases e <;> simp [updates]

theorem eventsRel_moved {es : List Event} (h : EventsRel n (AttrAccepts c) known es i o)
    (hm : ∀ u ∈ updates es, ¬Unmoved u.attr) :
    ∃ w, i = w ++ o ∧ ∀ o', EventsRel n (AttrAccepts c) known es (w ++ o') o' := by
  induction h with
  | done => exact ⟨[false], rfl, fun _ => .done⟩
  | @event known e es i j o h1 h2 ih =>
    rw [updates_split] at hm
    obtain ⟨w, rfl, hw⟩ := ih (fun u hu => hm u (List.mem_append.2 (.inr hu)))
    obtain ⟨u, rfl, hu⟩ := eventRel_moved h1 (fun u hu => hm u (List.mem_append.2 (.inl hu)))
    refine ⟨true :: (u ++ w), by simp, fun o' => ?_⟩
    have := EventsRel.event (hu (w ++ o')) (hw o')
    simpa only [List.cons_append, List.append_assoc] using this

theorem frameRel_moved {f : Frame} {es : List Event} (h : FrameRel n (AttrAccepts c) known f es i o)
    (hm : ∀ u ∈ f.updatedActors, ¬Unmoved u.attr) :
    ∃ w, i = w ++ o ∧ ∀ o', FrameRel n (AttrAccepts c) known f es (w ++ o') o' := by
  obtain ⟨h1, h2, h3, h4, h5, h6, j, rfl, h7⟩ := h
  obtain ⟨w, rfl, hw⟩ := eventsRel_moved h7 (h6 ▸ hm)
  exact ⟨Spec.field 32 f.time ++ (Spec.field 32 f.delta ++ w), by simp, fun o' =>
    ⟨h1, h2, h3, h4, h5, h6, w ++ o', by simp, hw o'⟩⟩

theorem allMove_not {fs : List Frame} (h : AllMove fs) {f : Frame} (hf : f ∈ fs)
    {u : UpdatedAttribute} (hu : u ∈ f.updatedActors) : ¬Unmoved u.attr := by
  rintro ⟨b, hb, hs, hn⟩
  obtain ⟨h1, h2⟩ := h f hf u hu b hb hs
  rcases hn with hn | hn <;> simp_all

theorem framesAt_moved {fs : List Frame} {ess : List (List Event)} {k : Known}
    (h : FramesAt n (AttrAccepts c) known fs ess k i o) (hm : AllMove fs) :
    ∃ w, i = w ++ o ∧ ∀ o', FramesAt n (AttrAccepts c) known fs ess k (w ++ o') o' := by
  induction h with
  | nil => exact ⟨[], rfl, fun _ => .nil⟩
  | cons h1 h2 ih =>
    obtain ⟨w, rfl, hw⟩ := ih (fun f hf => hm f (.tail _ hf))
    obtain ⟨u, rfl, hu⟩ := frameRel_moved h1 (fun u hu => allMove_not hm (.head _) hu)
    refine ⟨u ++ w, by simp, fun o' => ?_⟩
    have := FramesAt.cons (hu (w ++ o')) (hw o')
    simpa only [List.append_assoc] using this

/-- No body is cut if enough data follow. -/
theorem framesAt_allMove {fs : List Frame} {ess : List (List Event)} {k : Known}
    (h : FramesAt n (AttrAccepts c) known fs ess k i o) (ho : 67 ≤ o.length) : AllMove fs := by
  have hl : leftOver c ≤ 69 := by unfold leftOver sizeClasses; split <;> omega
  induction h with
  | nil => intro f hf; cases hf
  | @cons _ _ es _ _ _ _ j _ h1 h2 ih =>
    intro f hf u hu b hb hs
    rcases List.mem_cons.1 hf with rfl | hf
    · obtain ⟨w, rfl, _⟩ := framesAt_moved h2 (ih ho)
      obtain ⟨_, _, _, _, _, e3, _, _, h1⟩ := h1
      rw [e3] at hu
      have key : ¬Unmoved u.attr := fun hn => by
        have := unmoved_events h1 hu hn
        rw [List.length_append] at this
        omega
      constructor
      · cases hv : b.linearVelocity with
        | some _ => rfl
        | none => exact absurd ⟨b, hb, hs, .inl hv⟩ key
      · cases hv : b.angularVelocity with
        | some _ => rfl
        | none => exact absurd ⟨b, hb, hs, .inr hv⟩ key
    · exact ih ho f hf u hu b hb hs

end Boxcars
