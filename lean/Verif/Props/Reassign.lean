import Verif.Spec.Reassign
import Verif.Props.Possible
/-!
# C107: actor ids are interchangeable
-/
namespace Boxcars.Props
open Boxcars Spec

variable {σ : ActorId → ActorId} {n : Net} {c : Ctx}

/-- Reassigned records. -/
def reEvent (σ : ActorId → ActorId) : Event → Event
  | .new a => .new (reNew σ a)
  | .delete d => .delete (σ d)
  | .update id us => .update (σ id) (us.map (reUpdate σ))

theorem news_re (es : List Event) : news (es.map (reEvent σ)) = (news es).map (reNew σ) := by
  induction es with
  | nil => rfl
  | cons e es ih => cases e <;> simp only [List.map_cons, reEvent, news, ih]

theorem deletes_re (es : List Event) : deletes (es.map (reEvent σ)) = (deletes es).map σ := by
  induction es with
  | nil => rfl
  | cons e es ih => cases e <;> simp only [List.map_cons, reEvent, deletes, ih]

theorem updates_re (es : List Event) : updates (es.map (reEvent σ)) = (updates es).map (reUpdate σ) := by
  induction es with
  | nil => rfl
  | cons e es ih => cases e <;> simp only [List.map_cons, reEvent, updates, ih, List.map_append]

theorem valueOf_re {tag : AttributeTag} {v : Attribute} (h : ValueOf c tag v) : ValueOf c tag (reValue σ v) := by
  cases v <;> first | exact h | (cases tag <;> exact h)

/-- What is known of an actor is known of the reassigned one. -/
def Carries (σ : ActorId → ActorId) (known known' : Known) : Prop :=
  ∀ id o, known id = some o → known' (σ id) = some o

theorem carries_after (hσ : Reassigns σ n) {known known' : Known} (hk : Carries σ known known') (e : Event) :
    Carries σ (known.after n e) (known'.after n (reEvent σ e)) := by
  intro id o h
  cases e with
  | new a =>
    simp only [Known.after, reEvent, reNew] at h ⊢
    split at h
    next he => rw [if_pos (congrArg σ he)]; exact h
    next he => rw [if_neg fun g => he (hσ.different _ _ g)]; exact hk _ _ h
  | delete d =>
    simp only [Known.after, reEvent] at h ⊢
    split at h
    next => cases h
    next he =>
      rw [if_neg]
      · exact hk _ _ h
      · rintro ⟨g1, g2⟩
        have g1 := hσ.different _ _ g1
        have : ¬n.sticky ≤ d.toNat := fun g => he ⟨g1, g⟩
        have := hσ.sticky d (by omega)
        omega
  | update id' us => exact hk _ _ h

theorem eventOf_re (hσ : Reassigns σ n) {known known' : Known} (hk : Carries σ known known') {e : Event}
    (h : EventOf n c known e) : EventOf n c known' (reEvent σ e) := by
  cases e with
  | new a => exact ⟨hσ.channels _ h.1, h.2⟩
  | delete d => exact hσ.channels _ h
  | update id us =>
    obtain ⟨h1, obj, cd, h2, h3, h4⟩ := h
    refine ⟨hσ.channels _ h1, obj, cd, hk _ _ h2, h3, ?_⟩
    intro u hu
    obtain ⟨v, hv, rfl⟩ := List.mem_map.1 hu
    obtain ⟨g1, g2, tag, g3, g4⟩ := h4 v hv
    exact ⟨congrArg σ g1, g2, tag, g3, valueOf_re g4⟩

theorem eventsOf_re (hσ : Reassigns σ n) {es : List Event} : ∀ {known known' : Known}, Carries σ known known' →
    EventsOf n c known es → EventsOf n c known' (es.map (reEvent σ)) ∧
      Carries σ (known.afterAll n es) (known'.afterAll n (es.map (reEvent σ))) := by
  induction es with
  | nil => exact fun hk _ => ⟨trivial, hk⟩
  | cons e es ih =>
    intro known known' hk h
    obtain ⟨h1, h2⟩ := ih (carries_after hσ hk e) h.2
    exact ⟨⟨eventOf_re hσ hk h.1, h1⟩, h2⟩

theorem framesOf_re (hσ : Reassigns σ n) {fs : List Frame} : ∀ {ess : List (List Event)} {known known' : Known},
    Carries σ known known' → FramesOf n c known fs ess →
    FramesOf n c known' (fs.map (reFrame σ)) (ess.map (List.map (reEvent σ))) := by
  induction fs with
  | nil =>
    intro ess known known' _ h
    cases ess with
    | nil => trivial
    | cons es ess => exact h.elim
  | cons f fs ih =>
    intro ess known known' hk h
    cases ess with
    | nil => exact h.elim
    | cons es ess =>
      obtain ⟨h1, h2, h3, h4, h5, h6, h7, h8⟩ := h
      obtain ⟨k1, k2⟩ := eventsOf_re hσ hk h7
      refine ⟨h1, h2, h3, ?_, ?_, ?_, k1, ih k2 h8⟩
      · rw [news_re, ← h4]; rfl
      · rw [deletes_re, ← h5]; rfl
      · rw [updates_re, ← h6]; rfl

/-- C107. If frames are possible, so are those with other actor ids. -/
theorem reassigned_possible (hσ : Reassigns σ n) {fs : List Frame} (h : Possible n c fs) :
    Possible n c (fs.map (reFrame σ)) := by
  obtain ⟨ess, h⟩ := h
  exact ⟨_, framesOf_re hσ (fun _ _ (e : none = some _) => nomatch e) h⟩

theorem reValue_back {τ : ActorId → ActorId} (h : ∀ i, τ (σ i) = i) (v : Attribute) :
    reValue τ (reValue σ v) = v := by
  have hm : ∀ o : Option ActorId, (o.map σ).map τ = o := fun o => by cases o <;> simp [h]
  cases v <;> simp only [reValue, reActive, h, hm]

theorem reFrame_back {τ : ActorId → ActorId} (h : ∀ i, τ (σ i) = i) (f : Frame) :
    reFrame τ (reFrame σ f) = f := by
  have h1 : ∀ l : List NewActor, (l.map (reNew σ)).map (reNew τ) = l := fun l => by
    rw [List.map_map]
    refine (List.map_congr_left fun a _ => ?_).trans (List.map_id l)
    simp only [Function.comp, reNew, h, id]
  have h2 : ∀ l : List UpdatedAttribute, (l.map (reUpdate σ)).map (reUpdate τ) = l := fun l => by
    rw [List.map_map]
    refine (List.map_congr_left fun a _ => ?_).trans (List.map_id l)
    simp only [Function.comp, reUpdate, h, reValue_back h, id]
  have h3 : ∀ l : List ActorId, (l.map σ).map τ = l := fun l => by
    rw [List.map_map]
    refine (List.map_congr_left fun a _ => ?_).trans (List.map_id l)
    simp only [Function.comp, h, id]
  simp only [reFrame, h1, h2, h3]

/-- C107. If the ids can be put back, the frames are possible exactly if those with other ids are. -/
theorem reassigned_iff {τ : ActorId → ActorId} (hσ : Reassigns σ n) (hτ : Reassigns τ n) (h : ∀ i, τ (σ i) = i)
    (fs : List Frame) : Possible n c (fs.map (reFrame σ)) ↔ Possible n c fs := by
  refine ⟨fun hp => ?_, reassigned_possible hσ⟩
  have := reassigned_possible hτ hp
  rw [List.map_map] at this
  rwa [(List.map_congr_left fun f _ => reFrame_back h f : fs.map (reFrame τ ∘ reFrame σ) = fs.map id), List.map_id] at this

theorem valueCost_re (v : Attribute) : valueCost (reValue σ v) = valueCost v := by cases v <;> rfl

theorem eventCost_re (e : Event) : eventCost (reEvent σ e) = eventCost e := by
  cases e with
  | new a => rfl
  | delete d => rfl
  | update id us =>
    simp only [reEvent, eventCost, List.map_map]
    congr 2
    refine List.map_congr_left fun u _ => ?_
    show 50 + valueCost (reValue σ u.attr) = _
    rw [valueCost_re]

theorem recordsCost_re (ess : List (List Event)) : recordsCost (ess.map (List.map (reEvent σ))) = recordsCost ess := by
  unfold recordsCost
  rw [List.map_map]
  congr 1
  refine List.map_congr_left fun es _ => ?_
  show 65 + ((es.map (reEvent σ)).map eventCost).sum = _
  rw [List.map_map]
  congr 2
  exact List.map_congr_left fun e _ => eventCost_re e

/-- C107. Frames with other actor ids are read from some network data, with the same header and
tables. -/
theorem reassigned_read (env : Env) {h : Header} {body : ReplayBody} (hσ : Reassigns σ n)
    (hc : CtxOf h body c) (hn : NetOf h body c n) (hr : InRange body.objects body.netCache)
    (hl : body.objects.length ≤ 2 ^ 31) {fs : List Frame} {ess : List (List Event)}
    (hp : FramesOf n c Known.none fs ess) {k : I32}
    (hk : headerInt h "NumFrames" = some k) (h0 : 0 ≤ k.toInt) (hle : fs.length ≤ k.toNat)
    (hd : recordsCost ess / 8 + k.toNat + 9 < 2 ^ 31)
    (hcap : (recordsCost ess / 8 + k.toNat + 9) * env.frameSize ≤ env.isizeMax) :
    ∃ blob, Network.parse env h { body with networkData := blob } = .ok ⟨fs.map (reFrame σ)⟩ := by
  have hp' := framesOf_re hσ (known' := Known.none) (fun _ _ (e : none = some _) => nomatch e) hp
  rw [← recordsCost_re (σ := σ)] at hd hcap
  obtain ⟨w, _, hw⟩ := possible_read env hc hn hr hl hp' hk h0 (by rw [List.length_map]; exact hle) hd hcap
  exact ⟨w, hw⟩

/-! ## Instances -/

/-- Two ids exchanged. -/
def exchange (a b : ActorId) (i : ActorId) : ActorId := if i = a then b else if i = b then a else i

theorem exchange_reassigns {a b : ActorId} (hc : InChannels n a ∧ InChannels n b)
    (hs : a.toNat < n.sticky ↔ b.toNat < n.sticky) : Reassigns (exchange a b) n := by
  refine ⟨fun i j h => ?_, fun i h => ?_, fun i h => ?_⟩
  · unfold exchange at h
    split at h <;> split at h <;> (try split at h) <;> (try split at h) <;> simp_all
  · unfold exchange
    split
    · exact hc.2
    · split
      · exact hc.1
      · exact h
  · unfold exchange
    split
    next e => exact hs.1 (e ▸ h)
    next =>
      split
      next e => exact hs.2 (e ▸ h)
      next => exact h

theorem exchange_back (a b i : ActorId) : exchange a b (exchange a b i) = i := by
  unfold exchange
  split <;> (try split) <;> simp_all

/-- C107. Two actors can be exchanged. -/
theorem exchanged_iff {a b : ActorId} (hc : InChannels n a ∧ InChannels n b)
    (hs : a.toNat < n.sticky ↔ b.toNat < n.sticky) (fs : List Frame) :
    Possible n c (fs.map (reFrame (exchange a b))) ↔ Possible n c fs :=
  reassigned_iff (exchange_reassigns hc hs) (exchange_reassigns hc hs) (exchange_back a b) fs

/-- Actor 5 and actor 7 can be exchanged. -/
example : ∃ fs, fs = [onceFrame].map (reFrame (exchange 5 7)) ∧ fs ≠ [onceFrame] ∧
    Possible wroteNet wroteCtx fs :=
  ⟨_, rfl, by decide +kernel, reassigned_possible (exchange_reassigns (n := wroteNet) (a := 5) (b := 7)
    ⟨(by decide : (5 : ActorId).toNat < max 1023 1), (by decide : (7 : ActorId).toNat < max 1023 1)⟩ (by decide))
    ⟨_, once_possible⟩⟩

/-- Without announcements an actor that is unknown or deleted stays unknown. -/
theorem gone_after {d : ActorId} (hd : n.sticky ≤ d.toNat) {es : List Event} (hn : news es = []) :
    ∀ {known : Known}, (known d = none ∨ d ∈ deletes es) → known.afterAll n es d = none := by
  induction es with
  | nil => exact fun h => h.elim id (fun g => nomatch g)
  | cons e es ih =>
    intro known h
    cases e with
    | new a => cases hn
    | delete x =>
      refine ih hn (known := known.after n (.delete x)) ?_
      by_cases hx : d = x
      · left
        subst hx
        exact if_pos ⟨rfl, hd⟩
      · rcases h with h | h
        · left
          simp only [Known.after]
          rw [if_neg fun g => hx g.1]
          exact h
        · exact .inr ((List.mem_cons.1 h).resolve_left hx)
    | update id us => exact ih hn (known := known) h

theorem gone_updates {d : ActorId} {es : List Event} (hn : news es = []) :
    ∀ {known : Known}, known d = none → EventsOf n c known es → ∀ u ∈ updates es, u.actorId ≠ d := by
  induction es with
  | nil => exact fun _ _ u hu => nomatch hu
  | cons e es ih =>
    intro known h he u hu
    cases e with
    | new a => cases hn
    | delete x =>
      refine ih hn (known := known.after n (.delete x)) ?_ he.2 u hu
      simp only [Known.after]
      split
      · rfl
      · exact h
    | update id us =>
      rcases List.mem_append.1 hu with hu | hu
      · obtain ⟨_, obj, cd, h2, _, h4⟩ := he.1
        rintro rfl
        rw [(h4 u hu).1, h2] at h
        cases h
      · exact ih hn (known := known) h he.2 u hu

/-- An actor is announced, deleted in the next frame and updated in the one after. -/
def goneFrames (id : ActorId) : List Frame :=
  [⟨0x3f800000, 0x3f000000, [demoNew id], [], []⟩, ⟨0x3f800000, 0x3f000000, [], [id], []⟩,
   ⟨0x3f800000, 0x3f000000, [], [], [⟨id, 0, 2, .boolean true⟩]⟩]

/-- That ids which stay known remain such is needed: these frames are possible of actor 5 and not
of actor 300. -/
theorem sticky_needed : Possible wroteNet wroteCtx (goneFrames 5) ∧ ¬Possible wroteNet wroteCtx (goneFrames 300) ∧
    (goneFrames 5).map (reFrame (exchange 5 300)) = goneFrames 300 := by
  have ht : TimeOk 0x3f800000 ∧ TimeOk 0x3f000000 ∧ ¬(IsZero 0x3f800000 ∧ IsZero 0x3f000000) :=
    ⟨(outOfRange_iff _).1 (by decide +kernel), (outOfRange_iff _).1 (by decide +kernel),
      fun h => absurd h.1.1 (by decide +kernel)⟩
  have hin : InChannels wroteNet 5 := (by decide : (5 : ActorId).toNat < max 1023 1)
  refine ⟨⟨[[.new (demoNew 5)], [.delete 5], [.update 5 [⟨5, 0, 2, .boolean true⟩]]], ?_⟩, ?_, by decide +kernel⟩
  · refine ⟨ht.1, ht.2.1, ht.2.2, rfl, rfl, rfl, ⟨⟨hin, by decide, by decide, .locationAndRotation, rfl, _, _, ?_, rfl⟩,
      trivial⟩, ht.1, ht.2.1, ht.2.2, rfl, rfl, rfl, ⟨hin, trivial⟩, ht.1, ht.2.1, ht.2.2, rfl, rfl, rfl,
      ⟨⟨hin, 0, wroteClass, rfl, rfl, ?_⟩, trivial⟩, trivial⟩
    · unfold Whole3 Coord
      decide
    · intro u hu
      cases List.mem_singleton.1 hu
      exact ⟨rfl, by decide, .boolean, rfl, trivial⟩
  · rintro ⟨ess, h⟩
    match ess, h with
    | [e1, e2, e3], h =>
      obtain ⟨_, _, _, _, _, _, _, _, _, _, n2, d2, _, _, _, _, _, n3, _, u3, v3, _⟩ := h
      have hg : ((Known.none.afterAll wroteNet e1).afterAll wroteNet e2) 300 = none :=
        gone_after (by decide) n2.symm (.inr (d2 ▸ List.mem_singleton.2 rfl))
      have hu : (⟨300, 0, 2, .boolean true⟩ : UpdatedAttribute) ∈ updates e3 := by
        rw [← u3]
        exact List.mem_singleton.2 rfl
      exact gone_updates n3.symm hg v3 _ hu rfl

end Boxcars.Props
