import Verif.Proofs.CutShort
import Verif.Proofs.LocalMove
import Verif.Spec.CutNet
/-!
# Errors of frames that more data does not change
-/
namespace Boxcars
open Spec

theorem updatesMove_not {us : List UpdatedAttribute} (h : UpdatesMove us) {u : UpdatedAttribute}
    (hu : u ∈ us) : ¬Unmoved u.attr := by
  rintro ⟨b, hb, hs, hn⟩
  obtain ⟨h1, h2⟩ := h u hu b hb hs
  rcases hn with hn | hn <;> simp_all

theorem updatesMove_append {us vs : List UpdatedAttribute} :
    UpdatesMove (us ++ vs) ↔ UpdatesMove us ∧ UpdatesMove vs := by
  unfold UpdatesMove
  constructor
  · exact fun h => ⟨fun u hu => h u (List.mem_append.2 (.inl hu)),
      fun u hu => h u (List.mem_append.2 (.inr hu))⟩
  · intro h u hu
    rcases List.mem_append.1 hu with hu | hu
    · exact h.1 u hu
    · exact h.2 u hu

variable {c : Spec.Ctx} {n : Net} {known : Known}

theorem streamIdAt_append {cd : ClassDef} {s : StreamId} {i j : Bits} (h : StreamIdAt cd s i j)
    (b : Bits) : StreamIdAt cd s (i ++ b) (j ++ b) := by
  obtain ⟨h1, h2, h3, rfl⟩ := h
  exact ⟨h1, by rw [List.length_append]; omega, h3, by rw [List.append_assoc]⟩

theorem propsFail_final {cd : ClassDef} {id : ActorId} {obj : ObjectId} {us : List UpdatedAttribute}
    {e : FrameError} {i : Bits} (h : PropsFail (AttrAccepts c) (AttrFails c) cd id obj us e i)
    (he : ¬Awaits e) (hu : UpdatesMove us) (b : Bits) :
    PropsFail (AttrAccepts c) (AttrFails c) cd id obj us e (i ++ b) := by
  induction h with
  | flag => exact absurd trivial he
  | streamId => exact absurd trivial he
  | undeclared h1 h2 => exact .undeclared (streamIdAt_append h1 b) h2
  | unimplemented h1 h2 h3 =>
    exact .unimplemented (streamIdAt_append h1 b) h2 (finalError_stays h3 trivial b)
  | value h1 h2 h3 h4 =>
    exact .value (streamIdAt_append h1 b) h2
      (finalError_stays h3 (Classical.byContradiction he) b) h4
  | next h1 h2 h3 _ ih =>
    obtain ⟨w, rfl, hw⟩ := accepts_moved h3 (updatesMove_not hu (.head _))
    have h1' := streamIdAt_append h1 b
    rw [List.append_assoc] at h1'
    exact .next h1' h2 (hw _) (ih he (fun u h => hu u (.tail _ h)))

theorem newHead_append {obj : ObjectId} {i j : Bits} (h : NewHead n obj i j) (b : Bits) :
    NewHead n obj (i ++ b) (j ++ b) := by
  obtain ⟨v, nm, x, h1, rfl⟩ := h
  exact ⟨v, nm, x, h1, by simp only [List.append_assoc]⟩

theorem actorIdAt_append {id : ActorId} {i j : Bits} (h : ActorIdAt n id i j) (b : Bits) :
    ActorIdAt n id (i ++ b) (j ++ b) := by
  obtain ⟨h1, h2, rfl⟩ := h
  exact ⟨by rw [List.length_append]; omega, h2, by rw [List.append_assoc]⟩

theorem eventFail_final {us : List UpdatedAttribute} {e : FrameError} {i : Bits}
    (h : EventFail n (AttrAccepts c) (AttrFails c) known us e i) (he : ¬Awaits e)
    (hu : UpdatesMove us) (b : Bits) :
    EventFail n (AttrAccepts c) (AttrFails c) known us e (i ++ b) := by
  cases h with
  | actor => exact absurd trivial he
  | isNew => exact absurd trivial he
  | announce h1 h2 =>
    cases h2 with
    | short => exact absurd trivial he
    | place => exact absurd trivial he
    | object h3 h4 => exact .announce (actorIdAt_append h1 b) (.object (newHead_append h3 b) h4)
  | classless h1 h2 h3 =>
    obtain ⟨nm, x, sp, t, g1, g2, g3, rfl⟩ := h2
    have h1' := actorIdAt_append h1 b
    simp only [List.cons_append, List.append_assoc] at h1'
    exact .classless h1' ⟨nm, x, sp, t, g1, g2, g3, rfl⟩ h3
  | unknown h1 h2 => exact .unknown (actorIdAt_append h1 b) h2
  | props h1 h2 h3 h4 => exact .props (actorIdAt_append h1 b) h2 h3 (propsFail_final h4 he hu b)

theorem eventsFail_final {es : List Event} {us : List UpdatedAttribute} {e : FrameError} {i : Bits}
    (h : EventsFail n (AttrAccepts c) (AttrFails c) known es us e i) (he : ¬Awaits e)
    (hu : UpdatesMove (updates es ++ us)) (b : Bits) :
    EventsFail n (AttrAccepts c) (AttrFails c) known es us e (i ++ b) := by
  induction h with
  | flag => exact absurd trivial he
  | event h => exact .event (eventFail_final h he hu b)
  | @next _ _ _ _ _ _ j h1 h2 _ ih =>
    rw [updates_split, List.append_assoc, updatesMove_append] at hu
    obtain ⟨w, rfl, hw⟩ := eventRel_moved h2 (fun u h => updatesMove_not hu.1 h)
    rw [List.length_append] at h1
    have h2' := hw (j ++ b)
    rw [← List.append_assoc] at h2'
    refine .next ?_ h2' (ih he hu.2)
    change _ ≤ (w ++ j ++ b).length
    simp only [List.length_append]
    omega

theorem frameFail_final {es : List Event} {us : List UpdatedAttribute} {e : FrameError} {i : Bits}
    (h : FrameFail n (AttrAccepts c) (AttrFails c) known es us e i) (he : ¬Awaits e)
    (hu : UpdatesMove (updates es ++ us)) (b : Bits) :
    FrameFail n (AttrAccepts c) (AttrFails c) known es us e (i ++ b) := by
  cases h with
  | time => exact absurd trivial he
  | delta => exact absurd trivial he
  | timeRange h => rw [List.append_assoc]; exact .timeRange h
  | deltaRange h1 h2 => simp only [List.append_assoc]; exact .deltaRange h1 h2
  | records h1 h2 h3 h4 =>
    simp only [List.append_assoc]
    exact .records h1 h2 h3 (eventsFail_final h4 he hu b)

theorem framesFail_final {limit : Nat} {fs : List Frame} {k : Known} {es : List Event}
    {us : List UpdatedAttribute} {e : FrameError} {i : Bits}
    (h : FramesFail n (AttrAccepts c) (AttrFails c) limit known fs k es us e i) (he : ¬Awaits e)
    (hm : AllMove fs) (hu : UpdatesMove (updates es ++ us)) (b : Bits) :
    FramesFail n (AttrAccepts c) (AttrFails c) limit known fs k es us e (i ++ b) := by
  obtain ⟨ess, j, h1, h2, h3, h4⟩ := framesFail_iff.1 h
  obtain ⟨w, rfl, hw⟩ := framesAt_moved h1 hm
  rw [List.append_assoc]
  exact framesFail_iff.2 ⟨ess, j ++ b, hw _, h2, by simp [h3], frameFail_final h4 he hu b⟩

end Boxcars
