import Verif.Proofs.Replay
import Verif.Spec.History
/-!
# Histories of accepted streams
-/
namespace Boxcars
open Spec

theorem eventsRel_at {n : Net} {A : AttrRel} {known : Known} {es : List Event} {i o : Bits}
    (h : EventsRel n A known es i o) {before after : List Event} {e : Event}
    (he : es = before ++ e :: after) :
    ∃ j k, EventRel n A (known.afterAll n before) e j k := by
  induction h generalizing before with
  | done => simp at he
  | @event known e' es i j o h1 h2 ih =>
    cases before with
    | nil => simp at he; obtain ⟨rfl, rfl⟩ := he; exact ⟨_, _, h1⟩
    | cons b before =>
      simp at he
      obtain ⟨rfl, he⟩ := he
      exact ih he

theorem afterAll_append (n : Net) (k : Known) (a b : List Event) :
    k.afterAll n (a ++ b) = (k.afterAll n a).afterAll n b := by
  unfold Known.afterAll; rw [List.foldl_append]

theorem framesRel_limit {n : Net} {A : AttrRel} {limit : Nat} {known : Known} {fs : List Frame}
    {i o : Bits} (h : FramesRel n A limit known fs i o) : fs.length ≤ limit := by
  induction h with
  | full => simp
  | empty => simp
  | stop => simp
  | frame _ _ ih => simpa using ih

/-- The records of accepted frames. -/
theorem framesRel_history {n : Net} {A : AttrRel} {limit : Nat} {known : Known} {fs : List Frame}
    {i o : Bits} (h : FramesRel n A limit known fs i o) :
    ∃ ess, Records fs ess ∧ (∀ f ∈ fs, TimeOk f.time ∧ TimeOk f.delta ∧
        ¬(IsZero f.time ∧ IsZero f.delta)) ∧
      ∀ before e after, ess.flatten = before ++ e :: after →
        ∃ j k, EventRel n A (known.afterAll n before) e j k := by
  induction h with
  | full => exact ⟨[], .nil, by simp, by simp⟩
  | empty => exact ⟨[], .nil, by simp, by simp⟩
  | stop => exact ⟨[], .nil, by simp, by simp⟩
  | @frame limit known f es fs i j o h1 h2 ih =>
    obtain ⟨ess, e1, e2, e3⟩ := ih
    obtain ⟨t1, t2, t3, t4, t5, t6, j', t7, t8⟩ := h1
    refine ⟨es :: ess, .cons ⟨t4, t5, t6⟩ e1, ?_, ?_⟩
    · intro g hg
      rcases List.mem_cons.1 hg with rfl | hg
      · exact ⟨t1, t2, t3⟩
      · exact e2 g hg
    · intro before e after he
      rw [List.flatten_cons] at he
      rcases List.append_eq_append_iff.1 he with ⟨b', h1, h2⟩ | ⟨b', h1, h2⟩
      · subst h1
        obtain ⟨j, k, hr⟩ := e3 _ _ _ h2
        exact ⟨j, k, by rw [afterAll_append]; exact hr⟩
      · cases b' with
        | nil =>
          simp at h2
          obtain ⟨j, k, hr⟩ := e3 [] e after (by simpa using h2.symm)
          refine ⟨j, k, ?_⟩
          rw [List.append_nil] at h1
          rw [← h1]
          exact hr
        | cons b b' =>
          simp at h2
          obtain ⟨rfl, h2⟩ := h2
          exact eventsRel_at t8 h1

/-- An actor that is known was announced, most recently with that object; if it is not
sticky, it was not deleted since. -/
theorem known_latest {n : Net} {hist : List Event} {id : ActorId} {obj : ObjectId}
    (h : Known.none.afterAll n hist id = some obj) :
    ∃ b1 a b2, hist = b1 ++ .new a :: b2 ∧ a.actorId = id ∧ a.objectId = obj ∧
      (∀ e ∈ b2, ¬Announces id e) ∧ (n.sticky ≤ id.toNat → Event.delete id ∉ b2) := by
  induction hist using List.reverseRecOn with
  | nil => cases h
  | append_singleton hist e ih =>
    rw [afterAll_append] at h
    change Known.after n (Known.none.afterAll n hist) e id = _ at h
    cases e with
    | new a =>
      simp only [Known.after] at h
      split at h
      · rename_i he
        cases h
        exact ⟨hist, a, [], rfl, he.symm, rfl, by simp, by simp⟩
      · rename_i hne
        obtain ⟨b1, a', b2, h1, h2, h3, h4, h5⟩ := ih h
        refine ⟨b1, a', b2 ++ [.new a], by rw [h1]; simp, h2, h3, ?_, ?_⟩
        · intro e he
          rcases List.mem_append.1 he with he | he
          · exact h4 e he
          · rw [List.mem_singleton] at he; subst he; exact fun h => hne h.symm
        · intro hs hm
          rcases List.mem_append.1 hm with hm | hm
          · exact h5 hs hm
          · simp at hm
    | delete d =>
      simp only [Known.after] at h
      split at h
      · cases h
      · rename_i hne
        obtain ⟨b1, a', b2, h1, h2, h3, h4, h5⟩ := ih h
        refine ⟨b1, a', b2 ++ [.delete d], by rw [h1]; simp, h2, h3, ?_, ?_⟩
        · intro e he
          rcases List.mem_append.1 he with he | he
          · exact h4 e he
          · rw [List.mem_singleton] at he; subst he; exact fun h => h
        · intro hs hm
          rcases List.mem_append.1 hm with hm | hm
          · exact h5 hs hm
          · simp at hm; subst hm; exact hne ⟨rfl, hs⟩
    | update d us =>
      obtain ⟨b1, a', b2, h1, h2, h3, h4, h5⟩ := ih h
      refine ⟨b1, a', b2 ++ [.update d us], by rw [h1]; simp, h2, h3, ?_, ?_⟩
      · intro e he
        rcases List.mem_append.1 he with he | he
        · exact h4 e he
        · rw [List.mem_singleton] at he; subst he; exact fun h => h
      · intro hs hm
        rcases List.mem_append.1 hm with hm | hm
        · exact h5 hs hm
        · simp at hm

/-- An actor that was announced and not deleted since is known. -/
theorem known_of_latest {n : Net} {k : Known} {b1 b2 : List Event} {a : NewActor}
    (h : ∀ e ∈ b2, ¬Announces a.actorId e)
    (hd : n.sticky ≤ a.actorId.toNat → Event.delete a.actorId ∉ b2) :
    k.afterAll n (b1 ++ .new a :: b2) a.actorId = some a.objectId := by
  induction b2 using List.reverseRecOn with
  | nil =>
    rw [afterAll_append]
    show Known.after n _ (.new a) a.actorId = _
    simp [Known.after]
  | append_singleton b2 e ih =>
    have ih := ih (fun e he => h e (List.mem_append_left _ he))
      (fun hs hm => hd hs (List.mem_append_left _ hm))
    have : b1 ++ .new a :: (b2 ++ [e]) = (b1 ++ .new a :: b2) ++ [e] := by simp
    rw [this, afterAll_append]
    show Known.after n _ e a.actorId = _
    have he := h e (by simp)
    cases e with
    | new a' =>
      simp only [Known.after]
      rw [if_neg (fun hx => he hx.symm)]
      exact ih
    | delete d =>
      simp only [Known.after]
      rw [if_neg]
      · exact ih
      · rintro ⟨rfl, hs⟩; exact hd hs (by simp)
    | update => exact ih

/-- An actor that was deleted and not announced since is unknown, if it is not sticky. -/
theorem unknown_of_deleted {n : Net} {k : Known} {b1 b2 : List Event} {id : ActorId}
    (hs : n.sticky ≤ id.toNat) (h : ∀ e ∈ b2, ¬Announces id e) :
    k.afterAll n (b1 ++ .delete id :: b2) id = none := by
  induction b2 using List.reverseRecOn with
  | nil =>
    rw [afterAll_append]
    show Known.after n _ (.delete id) id = _
    simp [Known.after, hs]
  | append_singleton b2 e ih =>
    have ih := ih (fun e he => h e (List.mem_append_left _ he))
    have : b1 ++ .delete id :: (b2 ++ [e]) = (b1 ++ .delete id :: b2) ++ [e] := by simp
    rw [this, afterAll_append]
    show Known.after n _ e id = _
    have he := h e (by simp)
    cases e with
    | new a' =>
      simp only [Known.after]
      rw [if_neg (fun hx => he hx.symm)]
      exact ih
    | delete d =>
      simp only [Known.after]
      split
      · rfl
      · exact ih
    | update => exact ih

/-- Never announced means unknown. -/
theorem unknown_of_none {n : Net} {b : List Event} {id : ActorId}
    (h : ∀ e ∈ b, ¬Announces id e) : Known.none.afterAll n b id = none := by
  cases hk : Known.none.afterAll n b id with
  | none => rfl
  | some obj =>
    obtain ⟨b1, a, b2, h1, h2, _⟩ := known_latest hk
    exact absurd h2 (h (.new a) (by rw [h1]; simp))

theorem mem_news {es : List Event} {a : NewActor} : a ∈ news es ↔ Event.new a ∈ es := by
  induction es with
  | nil => simp [news]
  | cons e es ih => cases e <;> simp [news, ih]

theorem mem_deletes {es : List Event} {d : ActorId} : d ∈ deletes es ↔ Event.delete d ∈ es := by
  induction es with
  | nil => simp [deletes]
  | cons e es ih => cases e <;> simp [deletes, ih]

theorem mem_updates {es : List Event} {u : UpdatedAttribute} :
    u ∈ updates es ↔ ∃ id us, Event.update id us ∈ es ∧ u ∈ us := by
  induction es with
  | nil => simp [updates]
  | cons e es ih =>
    cases e with
    | new a => simp [updates, ih]
    | delete a => simp [updates, ih]
    | update id us =>
      simp only [updates, List.mem_append, ih, List.mem_cons, Event.update.injEq]
      constructor
      · rintro (h | ⟨id', us', h1, h2⟩)
        · exact ⟨id, us, .inl ⟨rfl, rfl⟩, h⟩
        · exact ⟨id', us', .inr h1, h2⟩
      · rintro ⟨id', us', ⟨rfl, rfl⟩ | h1, h2⟩
        · exact .inl h2
        · exact .inr ⟨id', us', h1, h2⟩

/-- What an update within a record says. -/
theorem propsRel_mem {A : AttrRel} {c : ClassDef} {id : ActorId} {us : List UpdatedAttribute}
    {i o : Bits} (h : PropsRel A c id us i o) {u : UpdatedAttribute} (hu : u ∈ us) :
    u.actorId = id ∧ (u.streamId.toNat : Int) < c.limit ∧
      ∃ tag j k, c.attr u.streamId = some (tag, u.objectId) ∧ A tag u.attr j k := by
  induction h with
  | done => cases hu
  | @prop s tag obj v us j k o h1 h2 h3 h4 ih =>
    rcases List.mem_cons.1 hu with rfl | hu
    · exact ⟨rfl, h1, tag, j, k, h2, h3⟩
    · exact ih hu

theorem hasType_of {c : Ctx} {tag : AttributeTag} {v : Attribute} {i o : Bits}
    (h : AttrAccepts c tag v i o) : HasType tag v := by
  rcases h with ⟨bs, h, _⟩ | ⟨rfl, v, rfl, _⟩
  · cases h <;> constructor
  · constructor

theorem hasType_implemented {v : Attribute} : ¬HasType .notImplemented v := by
  intro h; cases h

/-! ### Failing streams -/

theorem framesFail_iff {n : Net} {A : AttrRel} {X : AttrFail} {limit : Nat} {known k : Known}
    {fs : List Frame} {es : List Event} {us : List UpdatedAttribute} {e : FrameError} {i : Bits} :
    FramesFail n A X limit known fs k es us e i ↔
      ∃ ess j, FramesAt n A known fs ess k i j ∧ fs.length < limit ∧ j ≠ [] ∧
        FrameFail n A X k es us e j := by
  constructor
  · intro h
    induction h with
    | here h1 h2 => exact ⟨[], _, .nil, by simp, h1, h2⟩
    | next h1 _ ih =>
      obtain ⟨ess, j, h3, h4, h5, h6⟩ := ih
      exact ⟨_ :: ess, j, .cons h1 h3, by simpa using h4, h5, h6⟩
  · rintro ⟨ess, j, h1, h2, h3, h4⟩
    induction h1 generalizing limit with
    | nil =>
      obtain ⟨m, rfl⟩ : ∃ m, limit = m + 1 := ⟨limit - 1, by simp at h2; omega⟩
      exact .here h3 h4
    | cons f1 _ ih =>
      obtain ⟨m, rfl⟩ : ∃ m, limit = m + 1 := ⟨limit - 1, by simp at h2; omega⟩
      exact .next f1 (ih (by simpa using h2) h3 h4)

theorem framesAt_known {n : Net} {A : AttrRel} {known k : Known} {fs : List Frame}
    {ess : List (List Event)} {i j : Bits} (h : FramesAt n A known fs ess k i j) :
    k = known.afterAll n ess.flatten ∧ Records fs ess := by
  induction h with
  | nil => exact ⟨rfl, .nil⟩
  | cons h1 _ ih =>
    obtain ⟨_, _, _, t4, t5, t6, _⟩ := h1
    exact ⟨by rw [List.flatten_cons, afterAll_append]; exact ih.1, .cons ⟨t4, t5, t6⟩ ih.2⟩

theorem eventsAt_known {n : Net} {A : AttrRel} {known k : Known} {es : List Event} {i j : Bits}
    (h : EventsAt n A known es k i j) : k = known.afterAll n es := by
  induction h with
  | nil => rfl
  | cons _ _ _ ih => exact ih

theorem eventsFail_event {n : Net} {A : AttrRel} {X : AttrFail} {known k : Known}
    {es : List Event} {us : List UpdatedAttribute} {e : FrameError} {i j : Bits}
    (h : EventsAt n A known es k i (true :: j)) (hf : EventFail n A X k us e j) :
    EventsFail n A X known es us e i := by
  generalize hj : true :: j = j' at h
  induction h with
  | nil => subst hj; exact .event hf
  | cons h1 h2 _ ih => exact .next h1 h2 (ih hf hj)

/-- A replay fails in the frame after those read. -/
theorem reading_fails {env : Env} {h : Header} {body : ReplayBody} {c : Ctx} {n : Net}
    {fs : List Frame} {ess : List (List Event)} {known : Known} {j : Bits}
    (hl : body.objects.length ≤ 2 ^ 31) (hn : body.networkData.length < 2 ^ 31)
    (hcap : body.networkData.length * env.frameSize ≤ env.isizeMax)
    (hr : Reading h body c n fs ess known j) {es us e}
    (hf : FrameFail n (AttrAccepts c) (AttrFails c) known es us e j) :
    ∃ ctx, Network.parse env h body = .err (.frameError e ctx) ∧
      ContextOf n body.objects fs known es us ctx := by
  obtain ⟨k, k1, k2, k3, k4⟩ := hr.count
  have hff := framesFail_iff.2 ⟨ess, j, hr.frames, k4, hr.more, hf⟩
  obtain ⟨spawns, hsp, _⟩ := spawnTable_run (ε := NetworkError) env body.objects hl
  obtain ⟨caches, hca, _⟩ := cacheTable_run env body.objects hl body.netCache hr.inRange
  obtain ⟨hw, hnet⟩ := frameDecoder_of env h body k.toNat hl hsp hr.inRange hca
  have hctx := ctx_of h body k.toNat spawns caches
  have e1 := ctxOf_unique hctx hr.ctx
  subst e1
  have e2 := netOf_unique hnet hr.net
  subst e2
  obtain ⟨ctx, hc⟩ := FrameDecoder.ctx_exists hff
  refine ⟨ctx, ?_, hc.of⟩
  refine (network_err_iff env h body hl hn hcap _).2 (.frame hr.inRange k1 k2 k3 hctx hnet hff hc.of ?_)
  rw [hc.attributes]
  unfold tableOf
  rw [cacheTable_env Env.default64 env body.objects hl, hca]
  rfl

/-- The records of the frames of a replay, with the parameters of the stream. -/
theorem replay_history {check : CrcCheck} {np : NetworkParse} {env : Env} {data : List Byte}
    (hs : data.length ≤ env.isizeMax) {r : Replay} {fs : List Frame}
    (h : parseWith check np env data = .ok r) (hf : r.networkFrames = some ⟨fs⟩) :
    ∃ blob c n ess, r.objects.length ≤ 25000 ∧ CtxOf (headerOf r) (bodyOf r blob) c ∧
      NetOf (headerOf r) (bodyOf r blob) c n ∧ InRange r.objects r.netCache ∧ Records fs ess ∧
      (∀ f ∈ fs, TimeOk f.time ∧ TimeOk f.delta ∧ ¬(IsZero f.time ∧ IsZero f.delta)) ∧
      (∀ k, headerInt (headerOf r) "NumFrames" = some k → fs.length ≤ k.toNat) ∧
      (headerInt (headerOf r) "NumFrames" = none → fs = []) ∧
      ∀ before e after, ess.flatten = before ++ e :: after →
        ∃ j k, EventRel n (AttrAccepts c) (Known.none.afterAll n before) e j k := by
  obtain ⟨blob, hn, h1, h2, _⟩ := parse_network hs h hf
  have hc := ctxOf_attrDecoderOf (headerOf r) (bodyOf r blob)
  obtain ⟨hr, hn⟩ := hn
  cases hk : headerInt (headerOf r) "NumFrames" with
  | none =>
    rw [hk] at hn
    simp only at hn
    subst hn
    obtain ⟨spawns, hsp, _⟩ := spawnTable_run (ε := NetworkError) env r.objects (by omega)
    obtain ⟨caches, hca, _⟩ := cacheTable_run env r.objects (by omega) r.netCache hr
    obtain ⟨hw, hnet⟩ := frameDecoder_of env (headerOf r) (bodyOf r blob) 0
      (by show r.objects.length ≤ _; omega) hsp hr hca
    exact ⟨blob, _, _, [], h2, ctx_of _ _ _ _ _, hnet, hr, .nil, by simp, by simp, by simp, by simp⟩
  | some k =>
    rw [hk] at hn
    obtain ⟨k1, k2, c, n, o, c1, c2, c3⟩ := hn
    obtain ⟨ess, e1, e2, e3⟩ := framesRel_history c3
    refine ⟨blob, c, n, ess, h2, c1, c2, hr, e1, e2, ?_, by simp, e3⟩
    intro k' hk'
    cases hk'
    exact framesRel_limit c3

/-! ### Sizes -/

/-- Values are not longer than what they are read from. -/
def Shrinks (A : AttrRel) : Prop := ∀ tag v i o, A tag v i o → o.length ≤ i.length

theorem propsRel_le {A : AttrRel} (hA : Shrinks A) {c : ClassDef} {id : ActorId}
    {us : List UpdatedAttribute} {i o : Bits} (h : PropsRel A c id us i o) :
    o.length + 1 + us.length ≤ i.length := by
  induction h with
  | done => simp
  | prop _ _ h1 _ ih =>
    have := hA _ _ _ _ h1
    simp only [List.length_cons, List.length_append]
    omega

theorem eventRel_le {A : AttrRel} (hA : Shrinks A) {n : Net} {kn : Known} {e : Event}
    {i o : Bits} (h : EventRel n A kn e i o) : o.length + 1 ≤ i.length := by
  cases h with
  | new _ h2 =>
    obtain ⟨_, _, _, _, _, _, _, rfl⟩ := h2
    simp only [List.length_cons, List.length_append]
    omega
  | delete => simp only [List.length_cons, List.length_append]; omega
  | update _ _ _ h =>
    have := propsRel_le hA h
    simp only [List.length_cons, List.length_append]
    omega

theorem eventsRel_le {A : AttrRel} (hA : Shrinks A) {n : Net} {kn : Known} {es : List Event}
    {i o : Bits} (h : EventsRel n A kn es i o) : o.length + 1 + 2 * es.length ≤ i.length := by
  induction h with
  | done => simp
  | event h1 _ ih =>
    have := eventRel_le hA h1
    simp only [List.length_cons]
    omega

theorem frameRel_le {A : AttrRel} (hA : Shrinks A) {n : Net} {kn : Known} {f : Frame}
    {es : List Event} {i o : Bits} (h : FrameRel n A kn f es i o) :
    o.length + 65 + 2 * es.length ≤ i.length := by
  obtain ⟨_, _, _, _, _, _, j, rfl, h⟩ := h
  have := eventsRel_le hA h
  simp only [List.length_append, field_length]
  omega

/-- Each frame takes at least 65 bits. -/
theorem framesRel_bits {A : AttrRel} (hA : Shrinks A) {n : Net} {limit : Nat} {kn : Known}
    {fs : List Frame} {i o : Bits} (h : FramesRel n A limit kn fs i o) :
    o.length + 65 * fs.length ≤ i.length := by
  induction h with
  | full => simp
  | empty => simp
  | stop => simp only [List.length_append, List.length_nil]; omega
  | frame h1 h2 ih =>
    have := frameRel_le hA h1
    simp only [List.length_cons]
    omega

end Boxcars
