import Verif.Proofs.History
/-!
# What was read does not depend on what follows

except for rigid bodies cut off by the end of data, which leave fewer than 69 bits.
-/
namespace Boxcars
open Spec

theorem vecTrunc_short {net : I32} {i o : Bits} (h : VecTrunc net i o) : o.length < 69 := by
  rcases h with ⟨h, rfl⟩ | ⟨_, s, hs, _, h⟩
  · omega
  · have : sizeClasses net ≤ 22 := by unfold sizeClasses; split <;> omega
    omega

theorem accepts_local {c : Spec.Ctx} {tag : AttributeTag} {v : Attribute} {i o : Bits}
    (h : AttrAccepts c tag v i o) (ho : 69 ≤ o.length) :
    ∃ w, i = w ++ o ∧ ∀ o', AttrAccepts c tag v (w ++ o') o' := by
  rcases h with ⟨bs, h1, h2⟩ | ⟨_, r, _, hr⟩
  · exact ⟨bs, h2, fun o' => .inl ⟨bs, h1, rfl⟩⟩
  · obtain ⟨_, h1, l, q, j, k, _, _, _, h2, h3⟩ := hr
    exfalso
    unfold Velocity at h2 h3
    rcases h1 with h1 | h1
    · rw [h1] at h2
      have := vecTrunc_short h2
      cases hv : r.angularVelocity with
      | none =>
        rw [hv] at h3
        have := vecTrunc_short h3
        omega
      | some x =>
        rw [hv] at h3
        obtain ⟨b, _, rfl⟩ := h3
        rw [List.length_append] at this
        omega
    · rw [h1] at h3
      have := vecTrunc_short h3
      omega

variable {c : Spec.Ctx} {n : Net} {known : Known} {i o : Bits}

theorem propsRel_local {cd : ClassDef} {id : ActorId} {us : List UpdatedAttribute}
    (h : PropsRel (AttrAccepts c) cd id us i o)
    (ho : 69 ≤ o.length) :
    ∃ w, i = w ++ o ∧ ∀ o', PropsRel (AttrAccepts c) cd id us (w ++ o') o' := by
  induction h with
  | done => exact ⟨[false], rfl, fun _ => .done⟩
  | @prop s tag obj v us j k o h1 h2 h3 h4 ih =>
    obtain ⟨w, rfl, hw⟩ := ih ho
    obtain ⟨u, rfl, hu⟩ := accepts_local h3 (by rw [List.length_append]; omega)
    refine ⟨true :: (bounded cd.limit.toNat s.toNat ++ (u ++ w)), by simp, fun o' => ?_⟩
    have := PropsRel.prop (A := AttrAccepts c) (id := id) h1 h2 (hu (w ++ o')) (hw o')
    simpa only [List.cons_append, List.append_assoc] using this

theorem eventRel_local {e : Event}
    (h : EventRel n (AttrAccepts c) known e i o) (ho : 69 ≤ o.length) :
    ∃ w, i = w ++ o ∧ ∀ o', EventRel n (AttrAccepts c) known e (w ++ o') o' := by
  cases h with
  | @new a cd j _ h1 h2 h3 =>
    obtain ⟨nm, b, sp, t, h4, h5, h6, rfl⟩ := h2
    refine ⟨actorId n a.actorId ++ (true :: true :: (nm ++ ([b] ++ (field 32 a.objectId ++ t)))),
      by simp, fun o' => ?_⟩
    have := EventRel.new (A := AttrAccepts c) (known := known) (o := o') h1
      ⟨nm, b, sp, t, h4, h5, h6, rfl⟩ h3
    simpa only [List.cons_append, List.append_assoc] using this
  | @delete id _ h1 =>
    refine ⟨actorId n id ++ [false], by simp, fun o' => ?_⟩
    have := EventRel.delete (A := AttrAccepts c) (known := known) (o := o') h1
    simpa only [List.cons_append, List.append_assoc, List.nil_append] using this
  | @update id obj cd us j _ h1 h2 h3 h4 =>
    obtain ⟨w, rfl, hw⟩ := propsRel_local h4 ho
    refine ⟨actorId n id ++ (true :: false :: w), by simp, fun o' => ?_⟩
    have := EventRel.update h1 h2 h3 (hw o')
    simpa only [List.cons_append, List.append_assoc] using this

theorem eventsRel_local {es : List Event}
    (h : EventsRel n (AttrAccepts c) known es i o) (ho : 69 ≤ o.length) :
    ∃ w, i = w ++ o ∧ ∀ o', EventsRel n (AttrAccepts c) known es (w ++ o') o' := by
  induction h with
  | done => exact ⟨[false], rfl, fun _ => .done⟩
  | @event known e es i j o h1 h2 ih =>
    obtain ⟨w, rfl, hw⟩ := ih ho
    obtain ⟨u, rfl, hu⟩ := eventRel_local h1 (by rw [List.length_append]; omega)
    refine ⟨true :: (u ++ w), by simp, fun o' => ?_⟩
    have := EventsRel.event (hu (w ++ o')) (hw o')
    simpa only [List.cons_append, List.append_assoc] using this

theorem frameRel_local {f : Frame} {es : List Event}
    (h : FrameRel n (AttrAccepts c) known f es i o) (ho : 69 ≤ o.length) :
    ∃ w, i = w ++ o ∧ ∀ o', FrameRel n (AttrAccepts c) known f es (w ++ o') o' := by
  obtain ⟨h1, h2, h3, h4, h5, h6, j, rfl, h7⟩ := h
  obtain ⟨w, rfl, hw⟩ := eventsRel_local h7 ho
  exact ⟨field 32 f.time ++ (field 32 f.delta ++ w), by simp, fun o' =>
    ⟨h1, h2, h3, h4, h5, h6, w ++ o', by simp, hw o'⟩⟩

theorem framesAt_local {fs : List Frame} {ess : List (List Event)} {k : Known}
   
    (h : FramesAt n (AttrAccepts c) known fs ess k i o) (ho : 69 ≤ o.length) :
    ∃ w, i = w ++ o ∧ ∀ o', FramesAt n (AttrAccepts c) known fs ess k (w ++ o') o' := by
  induction h with
  | nil => exact ⟨[], rfl, fun _ => .nil⟩
  | cons h1 h2 ih =>
    obtain ⟨w, rfl, hw⟩ := ih ho
    obtain ⟨u, rfl, hu⟩ := frameRel_local h1 (by rw [List.length_append]; omega)
    refine ⟨u ++ w, by simp, fun o' => ?_⟩
    have := FramesAt.cons (hu (w ++ o')) (hw o')
    simpa only [List.append_assoc] using this

theorem framesAt_rel {A : AttrRel} {fs : List Frame} {ess : List (List Event)} {k : Known}
    (h : FramesAt n A known fs ess k i o) : FramesRel n A fs.length known fs i o := by
  induction h with
  | nil => exact .full
  | cons h1 _ ih => exact .frame h1 ih

theorem framesRel_take {A : AttrRel} {limit m : Nat} (hm : m ≤ limit) {fs : List Frame}
    (h : FramesRel n A limit known fs i o) : ∃ o', FramesRel n A m known (fs.take m) i o' := by
  induction h generalizing m with
  | full => obtain rfl : m = 0 := by omega
            exact ⟨_, .full⟩
  | empty => rw [List.take_nil]; exact ⟨_, .empty⟩
  | stop h1 h2 =>
    rw [List.take_nil]
    cases m with
    | zero => exact ⟨_, .full⟩
    | succ m => exact ⟨_, .stop h1 h2⟩
  | frame h1 _ ih =>
    cases m with
    | zero => exact ⟨_, .full⟩
    | succ m =>
      obtain ⟨o', ho'⟩ := ih (by omega : m ≤ _)
      exact ⟨o', .frame h1 ho'⟩

/-- A stream has at most one sequence of frames. -/
theorem framesRel_unique {h : Header} {body : ReplayBody} (hl : body.objects.length ≤ 2 ^ 31)
    (hr : InRange body.objects body.netCache) (hc : CtxOf h body c) (hn : NetOf h body c n)
    {limit : Nat} {fs fs' : List Frame} {o o' : Bits}
    (h1 : FramesRel n (AttrAccepts c) limit Known.none fs (bytes body.networkData) o)
    (h2 : FramesRel n (AttrAccepts c) limit Known.none fs' (bytes body.networkData) o') :
    fs = fs' := by
  obtain ⟨spawns, hsp, _⟩ := spawnTable_run (ε := NetworkError) Env.default64 body.objects hl
  obtain ⟨caches, hca, _⟩ := cacheTable_run Env.default64 body.objects hl body.netCache hr
  obtain ⟨hw, hnet⟩ := frameDecoder_of Env.default64 h body limit hl hsp hr hca
  have hctx := ctx_of h body limit spawns caches
  have e1 := ctxOf_unique hctx hc
  subst e1
  have e2 := netOf_unique hnet hn
  subst e2
  have hs := FrameDecoder.allFrames_spec _ hw
  have key := hs.okIff Env.default64 (Reader.new body.networkData)
    (FrameDecoder.reader_new_valid _) (by rw [FrameDecoder.reader_new_length]; exact Nat.le_refl _)
  obtain ⟨r1, a1, _⟩ := (key fs o).2 (bytes_new body.networkData ▸ h1)
  obtain ⟨r2, a2, _⟩ := (key fs' o').2 (bytes_new body.networkData ▸ h2)
  rw [a1] at a2
  cases a2
  rfl

end Boxcars
