import Verif.Spec.Alive
import Verif.Proofs.Stream
/-!
# The actors that exist
-/
namespace Boxcars
open Spec

theorem lastNew_cons (a : NewActor) (as : List NewActor) (id : ActorId) :
    lastNew (a :: as) id =
      if a.actorId = id then some ((lastNew as id).getD a) else lastNew as id := by
  unfold lastNew
  rw [List.filter_cons]
  by_cases h : a.actorId = id
  · rw [if_pos h, if_pos (by simp [h]), List.getLast?_cons]
  · rw [if_neg h, if_neg (by simp [h])]

theorem lastNew_mem {as : List NewActor} {id : ActorId} {a : NewActor}
    (h : lastNew as id = some a) : a ∈ as ∧ a.actorId = id := by
  unfold lastNew at h
  have := List.mem_of_getLast? h
  simpa using this

theorem lastNew_none {as : List NewActor} {id : ActorId} (h : lastNew as id = none) :
    ∀ a ∈ as, a.actorId ≠ id := by
  unfold lastNew at h
  rw [List.getLast?_eq_none_iff, List.filter_eq_nil_iff] at h
  simpa using h

/-- Without deletions of an id. -/
theorem alive_undeleted {id : ActorId} (es : List Event) (k : Known) (h : id ∉ deletes es) :
    aliveAfter k es id =
      match lastNew (news es) id with | some a => some a.objectId | none => k id := by
  induction es generalizing k with
  | nil => rfl
  | cons e es ih =>
    unfold aliveAfter at ih ⊢
    rw [List.foldl_cons]
    cases e with
    | new a =>
      rw [ih _ h, news, lastNew_cons]
      by_cases hc : a.actorId = id
      · rw [if_pos hc]
        cases lastNew (news es) id with
        | none => simp only [Event.alive, hc, if_pos]; rfl
        | some b => rfl
      · rw [if_neg hc]
        simp only [Event.alive, if_neg (fun h : id = a.actorId => hc h.symm)]
    | delete d =>
      rw [deletes, List.mem_cons, not_or] at h
      rw [ih _ h.2]
      simp only [Event.alive, if_neg h.1]
      rfl
    | update i us => exact ih _ h

/-- Without announcements of an id. -/
theorem alive_unannounced {id : ActorId} (es : List Event) (k : Known)
    (h : ∀ a ∈ news es, a.actorId ≠ id) :
    aliveAfter k es id = if id ∈ deletes es then none else k id := by
  induction es generalizing k with
  | nil => rfl
  | cons e es ih =>
    unfold aliveAfter at ih ⊢
    rw [List.foldl_cons]
    cases e with
    | new a =>
      rw [ih _ fun b hb => h b (List.mem_cons_of_mem _ hb)]
      have := h a List.mem_cons_self
      simp only [Event.alive, if_neg (fun h : id = a.actorId => this h.symm)]
      rfl
    | delete d =>
      rw [ih _ h, deletes]
      by_cases hc : id = d
      · simp [Event.alive, hc]
      · simp [Event.alive, hc]
    | update i us => exact ih _ h

theorem alive_frame {f : Frame} {es : List Event} (k : Known) (h : FrameOfRecords f es)
    (hp : OneSided f) : aliveAfter k es = tell k f := by
  funext id
  obtain ⟨h1, h2, _⟩ := h
  unfold tell
  by_cases hd : id ∈ f.deletedActors
  · have hn : ∀ a ∈ news es, a.actorId ≠ id := fun a ha he =>
      hp a (h1 ▸ ha) (he ▸ hd)
    rw [alive_unannounced es k hn, ← h2]
    cases hl : lastNew f.newActors id with
    | none => rfl
    | some a =>
      have := lastNew_mem hl
      exact absurd this.2 (hn a (h1 ▸ this.1))
  · rw [alive_undeleted es k (h2 ▸ hd), ← h1]
    simp only [if_neg hd]
    rfl

theorem aliveAfter_append (k : Known) (a b : List Event) :
    aliveAfter k (a ++ b) = aliveAfter (aliveAfter k a) b := by
  unfold aliveAfter; rw [List.foldl_append]

theorem alive_frames {fs : List Frame} {ess : List (List Event)} (k : Known) (h : Records fs ess)
    (hp : ∀ f ∈ fs, OneSided f) : aliveAfter k ess.flatten = fs.foldl tell k := by
  unfold Records at h
  induction h generalizing k with
  | nil => rfl
  | cons h1 _ ih =>
    rw [List.flatten_cons, aliveAfter_append, List.foldl_cons,
      alive_frame k h1 (hp _ List.mem_cons_self), ih _ fun f hf => hp f (List.mem_cons_of_mem _ hf)]

theorem framesAt_records {n : Net} {A : AttrRel} {known k : Known} {fs : List Frame}
    {ess : List (List Event)} {i o : Bits} (h : FramesAt n A known fs ess k i o) :
    Records fs ess := by
  induction h with
  | nil => exact .nil
  | cons h1 _ ih => exact .cons ⟨h1.2.2.2.1, h1.2.2.2.2.1, h1.2.2.2.2.2.1⟩ ih

theorem framesRel_at {n : Net} {A : AttrRel} {limit : Nat} {known : Known} {fs : List Frame}
    {i o : Bits} (h : FramesRel n A limit known fs i o) :
    ∃ ess k j, FramesAt n A known fs ess k i j := by
  induction h with
  | full => exact ⟨_, _, _, .nil⟩
  | empty => exact ⟨_, _, _, .nil⟩
  | stop => exact ⟨_, _, _, .nil⟩
  | frame h1 _ ih =>
    obtain ⟨ess, k, j, h⟩ := ih
    exact ⟨_, _, _, .cons h1 h⟩

/-- The records of the frames written. -/
def planEvents (n : Net) : Known → List Plan → List (List Event)
  | _, [] => []
  | k, p :: ps => recEvents n k p.recs :: planEvents n (liveAfter k p.recs) ps

theorem plans_at {x : Ctx} {n : Net} (hn : Classes n) {k kn : Known} (hs : Sub k kn)
    (ps : List Plan) (h : PlansOk n x k ps) (o : Bits) :
    ∃ kn', FramesAt n (AttrAccepts x) kn (planFrames n k ps) (planEvents n k ps) kn'
      (writePlans n k ps ++ o) o := by
  induction ps generalizing k kn with
  | nil => exact ⟨_, .nil⟩
  | cons p ps ih =>
    obtain ⟨h1, h2, h3, h4, h5⟩ := h
    obtain ⟨r1, r2⟩ := recs_rel hn hs p.recs h4 (writePlans n (liveAfter k p.recs) ps ++ o)
    obtain ⟨kn', ho'⟩ := ih r2 h5
    obtain ⟨l1, l2, l3⟩ := recEvents_lists n k p.recs
    refine ⟨kn', ?_⟩
    simp only [writePlans, planFrames, planEvents, List.append_assoc]
    exact .cons ⟨h1, h2, h3, l1.symm, l2.symm, l3.symm, _, rfl, r1⟩ ho'

end Boxcars
