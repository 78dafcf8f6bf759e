import Verif.Spec.LeaveOut
import Verif.Props.Reassign
/-!
# C108: updates and deletions can be left out
-/
namespace Boxcars.Props
open Boxcars Spec

variable {n : Net} {c : Ctx}

/-- Whatever is known in the one is known in the other. -/
def MoreKnown (known' known : Known) : Prop := ∀ id o, known id = some o → known' id = some o

theorem moreKnown_new {known' known : Known} (h : MoreKnown known' known) (a : NewActor) :
    MoreKnown (known'.after n (.new a)) (known.after n (.new a)) := by
  intro id o e
  simp only [Known.after] at e ⊢
  split at e
  next g => rw [if_pos g]; exact e
  next g => rw [if_neg g]; exact h _ _ e

theorem moreKnown_left {known' known : Known} (h : MoreKnown known' known) (d : ActorId) :
    MoreKnown known' (known.after n (.delete d)) := by
  intro id o e
  simp only [Known.after] at e
  split at e
  · cases e
  · exact h _ _ e

theorem moreKnown_delete {known' known : Known} (h : MoreKnown known' known) (d : ActorId) :
    MoreKnown (known'.after n (.delete d)) (known.after n (.delete d)) := by
  intro id o e
  simp only [Known.after] at e ⊢
  split at e
  · cases e
  next g => rw [if_neg g]; exact h _ _ e

theorem leaveOut_events {es : List Event} : ∀ {known known' : Known} {ds : List ActorId} {us : List UpdatedAttribute},
    MoreKnown known' known → EventsOf n c known es → ds.Sublist (deletes es) → us.Sublist (updates es) →
    ∃ es', news es' = news es ∧ deletes es' = ds ∧ updates es' = us ∧ EventsOf n c known' es' ∧
      MoreKnown (known'.afterAll n es') (known.afterAll n es) := by
  induction es with
  | nil =>
    intro known known' ds us hk _ hd hu
    cases List.sublist_nil.1 hd
    cases List.sublist_nil.1 hu
    exact ⟨[], rfl, rfl, rfl, trivial, hk⟩
  | cons e es ih =>
    intro known known' ds us hk he hd hu
    cases e with
    | new a =>
      obtain ⟨es', h1, h2, h3, h4, h5⟩ := ih (moreKnown_new hk a) he.2 hd hu
      exact ⟨.new a :: es', congrArg (a :: ·) h1, h2, h3, ⟨he.1, h4⟩, h5⟩
    | delete d =>
      cases hd with
      | cons _ hd =>
        obtain ⟨es', h1, h2, h3, h4, h5⟩ := ih (moreKnown_left hk d) he.2 hd hu
        exact ⟨es', h1, h2, h3, h4, h5⟩
      | cons_cons _ hd =>
        obtain ⟨es', h1, h2, h3, h4, h5⟩ := ih (moreKnown_delete hk d) he.2 hd hu
        exact ⟨.delete d :: es', h1, congrArg (d :: ·) h2, h3, ⟨he.1, h4⟩, h5⟩
    | update id vs =>
      obtain ⟨l1, l2, rfl, g1, g2⟩ := List.sublist_append_iff.1 (show us.Sublist (vs ++ updates es) from hu)
      obtain ⟨es', h1, h2, h3, h4, h5⟩ := ih (known := known) hk he.2 hd g2
      obtain ⟨k1, obj, cd, k2, k3, k4⟩ := he.1
      exact ⟨.update id l1 :: es', h1, h2, congrArg (l1 ++ ·) h3,
        ⟨⟨k1, obj, cd, hk _ _ k2, k3, fun u hu => k4 u (g1.subset hu)⟩, h4⟩, h5⟩

theorem leaveOut_frames {fs' fs : List Frame} (h : List.Forall₂ FewerIn fs' fs) :
    ∀ {ess : List (List Event)} {known known' : Known}, MoreKnown known' known → FramesOf n c known fs ess →
      ∃ ess', FramesOf n c known' fs' ess' := by
  induction h with
  | nil => exact fun _ _ => ⟨[], trivial⟩
  | cons hf _ ih =>
    intro ess known known' hk h
    cases ess with
    | nil => exact h.elim
    | cons es ess =>
      obtain ⟨h1, h2, h3, h4, h5, h6, h7, h8⟩ := h
      obtain ⟨es', g1, g2, g3, g4, g5⟩ := leaveOut_events hk h7 (h5 ▸ hf.deleted) (h6 ▸ hf.updated)
      obtain ⟨ess', g6⟩ := ih g5 h8
      refine ⟨es' :: ess', hf.time ▸ h1, hf.delta ▸ h2, ?_, ?_, g2.symm, g3.symm, g4, g6⟩
      · rw [hf.time, hf.delta]; exact h3
      · rw [hf.new, h4, g1]

/-- C108. Possible frames stay possible if any updates and deletions are left out. -/
theorem fewer_possible {fs' fs : List Frame} (h : List.Forall₂ FewerIn fs' fs) (hp : Possible n c fs) :
    Possible n c fs' := by
  obtain ⟨ess, hp⟩ := hp
  exact leaveOut_frames h (fun _ _ e => e) hp

/-- C108 for the frames of an accepted replay: what is left is possible with its header and tables. -/
theorem fewer_of_replay {env : Env} {data : List Byte} {check : CrcCheck} {np : NetworkParse} {r : Replay}
    {fs' fs : List Frame} (hs : data.length ≤ env.isizeMax) (h : parseWith check np env data = .ok r)
    (hf : r.networkFrames = some ⟨fs⟩) (hm : AllMove fs) (hl : List.Forall₂ FewerIn fs' fs) :
    ∃ c n, CtxOf (headerOf r) (bodyOf r []) c ∧ NetOf (headerOf r) (bodyOf r []) c n ∧ Possible n c fs' := by
  obtain ⟨c, n, h1, h2, h3, _⟩ := frames_possible hs h hf hm
  exact ⟨c, n, h1, h2, fewer_possible hl h3⟩

/-- One of the updates and both deletions left out. -/
example : Possible wroteNet wroteCtx
    [⟨0x3f800000, 0x3f000000, [demoNew 5], [], [⟨5, 1, 3, .byte 200⟩]⟩] :=
  fewer_possible (fs := [onceFrame])
    (.cons ⟨rfl, rfl, rfl, List.nil_sublist _, .cons _ (List.Sublist.refl _)⟩ .nil) ⟨_, once_possible⟩

/-- Announcements cannot be left out. -/
theorem announcement_needed : ¬Possible wroteNet wroteCtx
    [⟨0x3f800000, 0x3f000000, [], [], [⟨5, 1, 3, .byte 200⟩]⟩] := by
  rintro ⟨ess, h⟩
  match ess, h with
  | [es], h =>
    obtain ⟨_, _, _, h4, _, h6, h7, _⟩ := h
    have := nothing_announced (fun _ => rfl) h7 h4.symm
    rw [this] at h6
    cases h6

end Boxcars.Props
