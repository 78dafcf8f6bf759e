import Verif.Spec.Unused
import Verif.Props.Extend
/-!
# C106: declarations that no update uses do not matter
-/
namespace Boxcars.Props
open Boxcars Spec

variable {S : StreamId → Prop} {b b' : ReplayBody} {n n' : Net} {A : AttrRel}

theorem sameUse_symm (h : SameUse S b b') : SameUse S b' b :=
  ⟨h.objects.symm, h.data.symm, h.range.symm, fun i s hs => (h.used i s hs).symm, h.right, h.left⟩

/-! ## Streams -/

/-- What can be read with the one layout can be read with the other, if all stream ids are in `S`. -/
structure UseAgree (S : StreamId → Prop) (n n' : Net) : Prop where
  net : n.net = n'.net
  channels : n.channels = n'.channels
  named : n.named = n'.named
  sticky : n.sticky = n'.sticky
  spawn : ∀ o, n.spawn o = n'.spawn o
  cls : ∀ o c, n.cls o = some c → ∃ c', n'.cls o = some c' ∧ c.limit = c'.limit ∧
    ∀ s, S s → c.attr s = c'.attr s

theorem propsRel_use {c c' : ClassDef} (hl : c.limit = c'.limit) (ha : ∀ s, S s → c.attr s = c'.attr s)
    {id : ActorId} {us : List UpdatedAttribute} {i o : Bits} (hr : PropsRel A c id us i o)
    (hs : ∀ u ∈ us, S u.streamId) : PropsRel A c' id us i o := by
  induction hr with
  | done => exact .done
  | prop h1 h2 h3 _ ih =>
    rw [hl]
    refine .prop (hl ▸ h1) ?_ h3 (ih fun u hu => hs u (List.mem_cons_of_mem _ hu))
    rw [← ha _ (hs _ List.mem_cons_self)]
    exact h2

theorem eventRel_use (h : UseAgree S n n') {known : Known} {e : Event} {i o : Bits}
    (he : ∀ id us, e = .update id us → ∀ u ∈ us, S u.streamId) (hr : EventRel n A known e i o) :
    EventRel n' A known e i o := by
  have ha : ∀ id, actorId n id = actorId n' id := fun id => by unfold actorId; rw [h.channels]
  have hc : ∀ {id}, InChannels n id → InChannels n' id := fun hi => by
    unfold InChannels at hi ⊢; rw [← h.channels]; exact hi
  cases hr with
  | @new a c j _ h1 h2 h3 =>
    rw [ha]
    obtain ⟨c', hc', _⟩ := h.cls _ _ h3
    refine .new (hc h1) ?_ hc'
    obtain ⟨nm, b, sp, t, g1, g2, g3, g4⟩ := h2
    refine ⟨nm, b, sp, t, ?_, (h.spawn _).symm.trans g2, ?_, g4⟩
    · rw [← h.named]; exact g1
    · rw [← h.net]; exact g3
  | delete h1 => rw [ha]; exact .delete (hc h1)
  | update h1 h2 h3 h4 =>
    rw [ha]
    obtain ⟨c', hc', hl, hat⟩ := h.cls _ _ h3
    exact .update (hc h1) h2 hc' (propsRel_use hl hat h4 (he _ _ rfl))

theorem use_after (h : UseAgree S n n') (known : Known) (e : Event) : known.after n e = known.after n' e := by
  cases e <;> simp only [Known.after, h.sticky]

theorem use_afterAll (h : UseAgree S n n') (es : List Event) (known : Known) :
    known.afterAll n es = known.afterAll n' es := by
  unfold Known.afterAll
  congr 1
  funext k e
  exact use_after h k e

theorem eventsRel_use (h : UseAgree S n n') {known : Known} {es : List Event} {i o : Bits}
    (hr : EventsRel n A known es i o) (hs : ∀ u ∈ updates es, S u.streamId) : EventsRel n' A known es i o := by
  induction hr with
  | done => exact .done
  | @event known e es i j o h1 h2 ih =>
    have e1 : ∀ id us, e = .update id us → ∀ u ∈ us, S u.streamId := by
      rintro id us rfl u hu
      exact hs u (List.mem_append_left _ hu)
    have e2 : ∀ u ∈ updates es, S u.streamId := by
      intro u hu
      cases e with
      | new a => exact hs u hu
      | delete d => exact hs u hu
      | update id us => exact hs u (List.mem_append_right _ hu)
    refine .event (eventRel_use h e1 h1) ?_
    rw [← use_after h]
    exact ih e2

theorem framesRel_use (h : UseAgree S n n') {k : Nat} {known : Known} {fs : List Frame} {i o : Bits}
    (hr : FramesRel n A k known fs i o) (hf : ∀ f ∈ fs, ∀ u ∈ f.updatedActors, S u.streamId) :
    FramesRel n' A k known fs i o := by
  induction hr with
  | full => exact .full
  | empty => exact .empty
  | stop h1 h2 => exact .stop h1 h2
  | @frame limit known f es fs i j o h1 h2 ih =>
    obtain ⟨t1, t2, t3, t4, t5, t6, j', t7, t8⟩ := h1
    have k1 := eventsRel_use h t8 (fun u hu => hf f List.mem_cons_self u (t6 ▸ hu))
    refine .frame ⟨t1, t2, t3, t4, t5, t6, j', t7, k1⟩ ?_
    rw [← use_afterAll h]
    exact ih (fun g hg => hf g (List.mem_cons_of_mem _ hg))

/-! ## Tables -/

theorem isLimit_mono {D D' : StreamId → Prop} (h : ∀ s, D s → ∃ t, s.toInt ≤ t.toInt ∧ D' t)
    (h' : ∀ s, D' s → ∃ t, s.toInt ≤ t.toInt ∧ D t) {m : Int} (hm : IsLimit D m) : IsLimit D' m := by
  rcases hm with ⟨h0, rfl⟩ | ⟨s, hs, hmax, rfl⟩
  · exact .inl ⟨fun s hs => by obtain ⟨t, _, ht⟩ := h' s hs; exact h0 t ht, rfl⟩
  · obtain ⟨t, hst, ht⟩ := h s hs
    have up : ∀ u, D' u → u.toInt ≤ s.toInt := by
      intro u hu
      obtain ⟨v, huv, hv⟩ := h' u hu
      have := hmax v hv
      omega
    have := up t ht
    have e : t.toInt = s.toInt := by omega
    exact .inr ⟨t, ht, fun u hu => e ▸ up u hu, by rw [e]⟩

theorem inherited_some {objects : List Str} {cs : List ClassNetCache} {ns : List Str} {s : StreamId} :
    inherited objects cs ns s ≠ none ↔ ∃ x ∈ ns, ∃ i, position objects x = some i ∧ declared cs s i ≠ none := by
  unfold inherited
  rw [ne_eq, List.findSome?_eq_none_iff]
  constructor
  · intro h
    by_contra hc
    refine h fun x hx => ?_
    cases hp : position objects x with
    | none => rfl
    | some i =>
      by_contra hd
      exact hc ⟨x, hx, i, hp, hd⟩
  · rintro ⟨x, hx, i, hp, hd⟩ h
    have := h x hx
    rw [hp] at this
    exact hd this

theorem inherited_cover {objects : List Str} {cs cs' : List ClassNetCache} (hc : Covers cs' cs) {ns : List Str}
    {s : StreamId} (h : inherited objects cs ns s ≠ none) :
    ∃ t : StreamId, s.toInt ≤ t.toInt ∧ inherited objects cs' ns t ≠ none := by
  obtain ⟨x, hx, i, hp, hd⟩ := inherited_some.1 h
  obtain ⟨t, ht, hd'⟩ := hc i s hd
  exact ⟨t, ht, inherited_some.2 ⟨x, hx, i, hp, hd'⟩⟩

theorem classOf_use (h : SameUse S b b') {o : ObjectId} {c : ClassDef} (hc : ClassOf b o c) :
    ∃ c', ClassOf b' o c' ∧ c.limit = c'.limit ∧ ∀ s, S s → c.attr s = c'.attr s := by
  obtain ⟨m, ns, h1, h2, h3, h4, h5⟩ := hc
  refine ⟨⟨c.limit, fun s => (inherited b'.objects b'.netCache ns s).map
    fun p => (attrType b'.objects p.objectInd, p.objectInd)⟩, ⟨m, ns, h.objects ▸ h1, h2, h3, fun _ => rfl, ?_⟩,
    rfl, fun s hs => ?_⟩
  · refine isLimit_mono (fun s hs => ?_) (fun s hs => ?_) h5
    · rw [h4, ne_eq, Option.map_eq_none_iff] at hs
      obtain ⟨t, ht, hi⟩ := inherited_cover h.right hs
      refine ⟨t, ht, ?_⟩
      dsimp only
      rw [ne_eq, Option.map_eq_none_iff, ← h.objects]
      exact hi
    · dsimp only at hs
      rw [ne_eq, Option.map_eq_none_iff, ← h.objects] at hs
      obtain ⟨t, ht, hi⟩ := inherited_cover h.left hs
      refine ⟨t, ht, ?_⟩
      rw [h4, ne_eq, Option.map_eq_none_iff]
      exact hi
  · rw [h4, ← h.objects]
    have : inherited b.objects b.netCache ns s = inherited b.objects b'.netCache ns s := by
      unfold inherited
      refine findSome_congr fun x _ => ?_
      cases position b.objects x with
      | none => rfl
      | some i => exact h.used i s hs
    rw [this]

theorem agree_use (h : SameUse S b b') {hd : Header} {c : Ctx} (hn : NetOf hd b c n) (hn' : NetOf hd b' c n') :
    UseAgree S n n' := by
  refine ⟨hn.net.trans hn'.net.symm, hn.channels.trans hn'.channels.symm, ?_, hn.sticky.trans hn'.sticky.symm,
    fun o => ?_, fun o d hd => ?_⟩
  · rw [Bool.eq_iff_iff, hn.named, hn'.named]
  · apply Option.ext
    intro sp
    rw [hn.spawn, hn'.spawn]
    unfold SpawnOf
    rw [h.objects]
  · obtain ⟨d', g1, g2⟩ := classOf_use h ((hn.cls o d).1 hd)
    exact ⟨d', (hn'.cls o d').2 g1, g2⟩

theorem networkOf_use (hd : Header) (h : SameUse S b b') {fs : List Frame}
    (hf : ∀ f ∈ fs, ∀ u ∈ f.updatedActors, S u.streamId) (hr : NetworkOf hd b fs) : NetworkOf hd b' fs := by
  unfold NetworkOf at hr ⊢
  refine ⟨h.range.1 hr.1, ?_⟩
  have hr := hr.2
  cases hk : headerInt hd "NumFrames" with
  | none => rw [hk] at hr; exact hr
  | some k =>
    rw [hk] at hr
    obtain ⟨k0, kl, c, n, o, hc, hn, hr⟩ := hr
    obtain ⟨n', hn'⟩ := netOf_exists hd b' c
    have hc' : CtxOf hd b' c := by
      obtain ⟨h1, h2, h3, h4, h5, h6, h7, h8, h9⟩ := hc
      rw [h.objects] at h4 h5 h6 h7 h8
      exact ⟨h1, h2, h3, h4, h5, h6, h7, h8, h9⟩
    exact ⟨k0, h.data ▸ kl, c, n', o, hc', hn', h.data ▸ framesRel_use (agree_use h hn hn') hr hf⟩

/-- C106. Declarations of stream ids that no update of the frames uses make no difference to them, as
long as the largest id of every class stays the same. -/
theorem unused_frames (env : Env) (hd : Header) (h : SameUse S b b') (hl : b.objects.length ≤ 2 ^ 31)
    (hn : b.networkData.length < 2 ^ 31) (hcap : b.networkData.length * env.frameSize ≤ env.isizeMax)
    (fs : List Frame) (hf : ∀ f ∈ fs, ∀ u ∈ f.updatedActors, S u.streamId) :
    Network.parse env hd b = .ok ⟨fs⟩ ↔ Network.parse env hd b' = .ok ⟨fs⟩ := by
  rw [network_iff env hd b hl hn hcap, network_iff env hd b' (h.objects ▸ hl) (h.data ▸ hn) (h.data ▸ hcap)]
  exact ⟨networkOf_use hd h hf, networkOf_use hd (sameUse_symm h) hf⟩

/-! ## Instances -/

/-- A ball is announced and its attributes 0 and 2 are updated; `ps` are the attributes declared. -/
def spareBody (ps : List CacheProp) : ReplayBody :=
  { wroteBody with
    networkData := [0, 0, 128, 63, 0, 0, 0, 63, 11, 248, 0, 0, 0, 0, 0, 0, 0, 0, 24, 15, 176, 128, 178, 200, 0],
    netCache := [⟨1, 0, 0, ps⟩] }

theorem declared_spare {ps : List CacheProp} {s : StreamId} {i : Nat} :
    declared (spareBody ps).netCache s i =
      if ((1 : ObjectId) == BitVec.ofNat 32 i) = true then ps.reverse.find? (fun p => p.streamId == s) else none := by
  unfold declared declarations spareBody
  dsimp only
  rw [List.filter_cons]
  dsimp only
  by_cases h : ((1 : ObjectId) == BitVec.ofNat 32 i) = true
  · rw [if_pos h, if_pos h, List.filter_nil, List.flatMap_cons, List.flatMap_nil, List.append_nil]
  · rw [if_neg h, if_neg h]; rfl

theorem spare_covers {ps qs : List CacheProp} (hq : ∀ p ∈ ps, ∃ q ∈ qs, p.streamId.toInt ≤ q.streamId.toInt) :
    Covers (spareBody qs).netCache (spareBody ps).netCache := by
  intro i s hs
  rw [declared_spare] at hs
  split at hs
  next hi =>
    cases hf : ps.reverse.find? (fun p => p.streamId == s) with
    | none => exact absurd hf hs
    | some p =>
      have hm := List.mem_reverse.1 (List.mem_of_find?_eq_some hf)
      have he : p.streamId = s := by have := List.find?_some hf; exact eq_of_beq this
      obtain ⟨q, hqm, hle⟩ := hq p hm
      refine ⟨q.streamId, he ▸ hle, ?_⟩
      rw [declared_spare, if_pos hi, ne_eq, List.find?_eq_none]
      exact fun h => h q (List.mem_reverse.2 hqm) (beq_self_eq_true _)
  next => exact absurd rfl hs

/-- Attribute 1 may be declared or not. -/
theorem spare_same : SameUse (fun s => s = 0 ∨ s = 2) (spareBody [⟨2, 0⟩, ⟨2, 1⟩, ⟨3, 2⟩])
    (spareBody [⟨2, 0⟩, ⟨3, 2⟩]) := by
  refine ⟨rfl, rfl, ⟨fun _ => ?_, fun _ => ?_⟩, ?_, spare_covers (by decide), spare_covers (by decide)⟩
  · unfold InRange; decide
  · unfold InRange; decide
  · intro i s hs
    rw [declared_spare, declared_spare]
    rcases hs with rfl | rfl <;> rfl

set_option maxRecDepth 100000 in
/-- There is one frame, and it is the frame without that attribute. -/
example : countOf oneFrame (spareBody [⟨2, 0⟩, ⟨2, 1⟩, ⟨3, 2⟩]) = some 1 ∧
    ∀ fs : List Frame, (∀ f ∈ fs, ∀ u ∈ f.updatedActors, u.streamId = 0 ∨ u.streamId = 2) →
      (Network.parse Env.default64 oneFrame (spareBody [⟨2, 0⟩, ⟨2, 1⟩, ⟨3, 2⟩]) = .ok ⟨fs⟩ ↔
        Network.parse Env.default64 oneFrame (spareBody [⟨2, 0⟩, ⟨3, 2⟩]) = .ok ⟨fs⟩) :=
  ⟨by decide +kernel, fun fs hf => unused_frames Env.default64 oneFrame spare_same (by decide)
    (by decide +kernel) (by decide +kernel) fs hf⟩

set_option maxRecDepth 100000 in
/-- An unused attribute with a larger id than all others does matter. -/
theorem larger_matters : framesOf oneFrame (spareBody [⟨2, 0⟩, ⟨3, 2⟩, ⟨3, 9⟩]) ≠
    framesOf oneFrame (spareBody [⟨2, 0⟩, ⟨3, 2⟩]) := ne_of_count (by decide +kernel)

end Boxcars.Props
