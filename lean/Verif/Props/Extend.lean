import Verif.Spec.Extend
import Verif.Props.Depends
/-!
# C103: further objects and attributes do not disturb
-/
namespace Boxcars.Props
open Boxcars Spec

/-! ## Streams -/

/-- Two layouts that agree on the objects in `P`. -/
structure AgreeOn (P : ObjectId → Prop) (n n' : Net) : Prop where
  net : n.net = n'.net
  channels : n.channels = n'.channels
  named : n.named = n'.named
  sticky : n.sticky = n'.sticky
  spawn : ∀ o, P o → n.spawn o = n'.spawn o
  cls : ∀ o, P o → n.cls o = n'.cls o

theorem AgreeOn.symm {P : ObjectId → Prop} {n n' : Net} (h : AgreeOn P n n') : AgreeOn P n' n :=
  ⟨h.net.symm, h.channels.symm, h.named.symm, h.sticky.symm, fun o ho => (h.spawn o ho).symm,
    fun o ho => (h.cls o ho).symm⟩

variable {P : ObjectId → Prop} {n n' : Net} {A : AttrRel}

theorem AgreeOn.after (h : AgreeOn P n n') (known : Known) (e : Event) :
    known.after n e = known.after n' e := by
  cases e <;> simp only [Known.after, h.sticky]

theorem AgreeOn.afterAll (h : AgreeOn P n n') (es : List Event) (known : Known) :
    known.afterAll n es = known.afterAll n' es := by
  unfold Known.afterAll
  congr 1
  funext k e
  exact h.after k e

theorem after_within {known : Known} {e : Event} (hk : ∀ id o, known id = some o → P o)
    (he : ∀ a, e = .new a → P a.objectId) : ∀ id o, known.after n e id = some o → P o := by
  intro id o h
  cases e with
  | new a =>
    simp only [Known.after] at h
    split at h
    · cases h; exact he a rfl
    · exact hk _ _ h
  | delete d =>
    simp only [Known.after] at h
    split at h
    · cases h
    · exact hk _ _ h
  | update id' us => exact hk _ _ h

theorem eventRel_agree (h : AgreeOn P n n') {known : Known} (hk : ∀ id o, known id = some o → P o)
    {e : Event} {i o : Bits} (he : ∀ a, e = .new a → P a.objectId) (hr : EventRel n A known e i o) :
    EventRel n' A known e i o := by
  have ha : ∀ id, actorId n id = actorId n' id := fun id => by unfold actorId; rw [h.channels]
  have hc : ∀ {id}, InChannels n id → InChannels n' id := fun hi => by
    unfold InChannels at hi ⊢; rw [← h.channels]; exact hi
  cases hr with
  | @new a c j _ h1 h2 h3 =>
    rw [ha]
    have hp := he a rfl
    refine .new (hc h1) ?_ ((h.cls _ hp).symm.trans h3)
    obtain ⟨nm, b, sp, t, g1, g2, g3, g4⟩ := h2
    refine ⟨nm, b, sp, t, ?_, (h.spawn _ hp).symm.trans g2, ?_, g4⟩
    · rw [← h.named]; exact g1
    · rw [← h.net]; exact g3
  | delete h1 => rw [ha]; exact .delete (hc h1)
  | update h1 h2 h3 h4 =>
    rw [ha]
    exact .update (hc h1) h2 ((h.cls _ (hk _ _ h2)).symm.trans h3) h4

theorem eventsRel_agree (h : AgreeOn P n n') {known : Known} {es : List Event} {i o : Bits}
    (hr : EventsRel n A known es i o) (hk : ∀ id o, known id = some o → P o)
    (he : ∀ a ∈ news es, P a.objectId) :
    EventsRel n' A known es i o ∧ ∀ id o, known.afterAll n es id = some o → P o := by
  induction hr with
  | done => exact ⟨.done, hk⟩
  | @event known e es i j o h1 h2 ih =>
    have e1 : ∀ a, e = .new a → P a.objectId := by
      rintro a rfl
      exact he a List.mem_cons_self
    have e2 : ∀ a ∈ news es, P a.objectId := by
      intro a ha
      cases e with
      | new b => exact he a (List.mem_cons_of_mem _ ha)
      | delete d => exact he a ha
      | update id us => exact he a ha
    obtain ⟨k1, k2⟩ := ih (after_within hk e1) e2
    refine ⟨.event (eventRel_agree h hk e1 h1) ?_, k2⟩
    rw [← h.after]
    exact k1

theorem framesRel_agree (h : AgreeOn P n n') {k : Nat} {known : Known} {fs : List Frame} {i o : Bits}
    (hr : FramesRel n A k known fs i o) (hk : ∀ id o, known id = some o → P o)
    (hf : ∀ f ∈ fs, ∀ a ∈ f.newActors, P a.objectId) : FramesRel n' A k known fs i o := by
  induction hr with
  | full => exact .full
  | empty => exact .empty
  | stop h1 h2 => exact .stop h1 h2
  | @frame limit known f es fs i j o h1 h2 ih =>
    obtain ⟨t1, t2, t3, t4, t5, t6, j', t7, t8⟩ := h1
    obtain ⟨k1, k2⟩ := eventsRel_agree h t8 hk (fun a ha => hf f List.mem_cons_self a (t4 ▸ ha))
    refine .frame ⟨t1, t2, t3, t4, t5, t6, j', t7, k1⟩ ?_
    rw [← h.afterAll]
    exact ih k2 (fun g hg => hf g (List.mem_cons_of_mem _ hg))

/-! ## Tables -/

theorem position_append {xs ys : List Str} {x : Str} (h : x ∈ ys → x ∈ xs) :
    position (xs ++ ys) x = position xs x := by
  unfold position
  rw [List.findIdx?_append]
  by_cases hx : x ∈ xs
  · obtain ⟨i, hi⟩ := position_mem hx
    unfold position at hi
    rw [hi]
    rfl
  · have hn : ys.findIdx? (fun m => m == x) = none := by
      rw [List.findIdx?_eq_none_iff]
      intro m hm
      have : m ≠ x := by rintro rfl; exact hx (h hm)
      simpa using this
    rw [hn]
    cases xs.findIdx? (fun m => m == x) <;> rfl

variable {extra : List Str} {more : List ClassNetCache} {b b' : ReplayBody}

theorem firstAt_added (ha : AddedTo extra more b b') {x : Str} {i : Nat} (hi : i < b.objects.length) :
    FirstAt b'.objects x i ↔ FirstAt b.objects x i := by
  unfold FirstAt
  rw [ha.objects, List.getElem?_append_left hi]
  refine and_congr_right fun _ => forall_congr' fun j => imp_congr_right fun hj => ?_
  rw [List.getElem?_append_left (by omega)]

theorem declarations_added (ha : AddedTo extra more b b') (hl : b.objects.length ≤ 2 ^ 31) {i : Nat}
    (hi : i < b.objects.length) : declarations b'.netCache i = declarations b.netCache i := by
  unfold declarations
  rw [ha.cache, List.filter_append]
  have : more.filter (fun c => c.objectInd == BitVec.ofNat 32 i) = [] := by
    rw [List.filter_eq_nil_iff]
    intro c hc h
    rw [beq_iff_eq] at h
    have h1 := ha.about c hc
    rw [h, BitVec.toNat_ofNat, Nat.mod_eq_of_lt (by omega)] at h1
    omega
  rw [this, List.append_nil]

theorem lineage_position (ha : AddedTo extra more b b') (hu : ∀ x ∈ extra, x ∈ b.objects ∨ Unrelated b x)
    {m : Str} (hm : m ∈ b.objects) {ns : List Str} (hns : Lineage m ns) {x : Str} (hx : x ∈ ns) :
    position b'.objects x = position b.objects x := by
  rw [ha.objects]
  refine position_append fun he => ?_
  rcases hu x he with h | h
  · exact h
  · exact absurd hx (h.2 m hm ns hns)

theorem findSome_congr {α β : Type} {l : List α} {f g : α → Option β} (h : ∀ x ∈ l, f x = g x) :
    l.findSome? f = l.findSome? g := by
  induction l with
  | nil => rfl
  | cons a l ih =>
    rw [List.findSome?_cons, List.findSome?_cons, h a List.mem_cons_self,
      ih fun x hx => h x (List.mem_cons_of_mem _ hx)]

theorem inherited_added (ha : AddedTo extra more b b') (hl : b.objects.length ≤ 2 ^ 31)
    (hu : ∀ x ∈ extra, x ∈ b.objects ∨ Unrelated b x)
    {m : Str} (hm : m ∈ b.objects) {ns : List Str} (hns : Lineage m ns) (s : StreamId) :
    inherited b'.objects b'.netCache ns s = inherited b.objects b.netCache ns s := by
  unfold inherited
  refine findSome_congr fun x hx => ?_
  rw [lineage_position ha hu hm hns hx]
  cases hp : position b.objects x with
  | none => rfl
  | some i =>
    show declared b'.netCache s i = declared b.netCache s i
    unfold declared
    rw [declarations_added ha hl (position_lt hp)]

theorem spawn_added (ha : AddedTo extra more b b') (hu : ∀ x ∈ extra, x ∈ b.objects ∨ Unrelated b x)
    {m : Str} (hm : m ∈ b.objects) {ns : List Str} (hns : Lineage m ns) :
    spawnOf b'.objects ns = spawnOf b.objects ns := by
  unfold spawnOf
  congr 1
  refine findSome_congr fun x hx => ?_
  rw [lineage_position ha hu hm hns hx]

theorem declared_mem {cs : List ClassNetCache} {s : StreamId} {i : Nat} {p : CacheProp}
    (h : declared cs s i = some p) : ∃ c ∈ cs, p ∈ c.properties := by
  unfold declared at h
  have := List.mem_of_find?_eq_some h
  rw [List.mem_reverse] at this
  unfold declarations at this
  rw [List.mem_flatMap] at this
  obtain ⟨c, hc, hp⟩ := this
  exact ⟨c, List.mem_of_mem_filter hc, hp⟩

theorem inherited_mem {objects : List Str} {cs : List ClassNetCache} {ns : List Str} {s : StreamId}
    {p : CacheProp} (h : inherited objects cs ns s = some p) : ∃ c ∈ cs, p ∈ c.properties := by
  unfold inherited at h
  obtain ⟨x, _, hx⟩ := List.exists_of_findSome?_eq_some h
  cases hp : position objects x with
  | none => rw [hp] at hx; cases hx
  | some i => rw [hp] at hx; exact declared_mem hx

theorem classOf_added (ha : AddedTo extra more b b') (hl : b.objects.length ≤ 2 ^ 31)
    (hr : InRange b.objects b.netCache)
    (hu : ∀ x ∈ extra, x ∈ b.objects ∨ Unrelated b x) {o : ObjectId} (ho : o.toNat < b.objects.length)
    (c : ClassDef) : ClassOf b' o c ↔ ClassOf b o c := by
  unfold ClassOf
  refine exists_congr fun m => exists_congr fun ns => ?_
  rw [firstAt_added ha ho]
  refine and_congr_right fun h1 => and_congr_right fun h2 => and_congr_right fun _ => and_congr_left fun _ => ?_
  refine forall_congr' fun s => ?_
  rw [inherited_added ha hl hu (List.mem_of_getElem? h1.1) h2]
  have : (inherited b.objects b.netCache ns s).map (fun p => (attrType b'.objects p.objectInd, p.objectInd)) =
      (inherited b.objects b.netCache ns s).map (fun p => (attrType b.objects p.objectInd, p.objectInd)) := by
    cases hp : inherited b.objects b.netCache ns s with
    | none => rfl
    | some p =>
      obtain ⟨c, hc, hm⟩ := inherited_mem hp
      have := (hr c hc p hm).2
      show some _ = some _
      unfold attrType
      dsimp only
      rw [ha.objects, List.getElem?_append_left this]
  rw [this]

theorem spawnOf_added (ha : AddedTo extra more b b')
    (hu : ∀ x ∈ extra, x ∈ b.objects ∨ Unrelated b x) {o : ObjectId} (ho : o.toNat < b.objects.length)
    (sp : SpawnTrajectory) : SpawnOf b' o sp ↔ SpawnOf b o sp := by
  unfold SpawnOf
  refine exists_congr fun m => ?_
  rw [firstAt_added ha ho, show b'.objects[o.toNat]? = b.objects[o.toNat]? by
    rw [ha.objects, List.getElem?_append_left ho]]
  refine and_congr_right fun h1 => or_congr (and_congr_right fun _ => exists_congr fun ns =>
    and_congr_right fun h2 => ?_) Iff.rfl
  rw [spawn_added ha hu (List.mem_of_getElem? h1) h2]

theorem ctxOf_added (ha : AddedTo extra more b b') (hu : ∀ x ∈ extra, x ∈ b.objects ∨ Unrelated b x)
    {h : Header} {c : Ctx} : CtxOf h b' c ↔ CtxOf h b c := by
  have e : ∀ k : String, k.toList ∈ productKinds → objectNamed b'.objects k = objectNamed b.objects k := by
    intro k hk
    unfold objectNamed
    rw [ha.objects, position_append fun he => ?_]
    rcases hu _ he with g | g
    · exact g
    · exact absurd hk g.1
  have e1 := e "TAGame.ProductAttribute_UserColor_TA" (by simp [productKinds])
  have e2 := e "TAGame.ProductAttribute_Painted_TA" (by simp [productKinds])
  have e3 := e "TAGame.ProductAttribute_TitleID_TA" (by simp [productKinds])
  have e4 := e "TAGame.ProductAttribute_SpecialEdition_TA" (by simp [productKinds])
  have e5 := e "TAGame.ProductAttribute_TeamEdition_TA" (by simp [productKinds])
  constructor
  · rintro ⟨h1, h2, h3, h4, h5, h6, h7, h8, h9⟩
    exact ⟨h1, h2, h3, e1 ▸ h4, e2 ▸ h5, e3 ▸ h6, e4 ▸ h7, e5 ▸ h8, h9⟩
  · rintro ⟨h1, h2, h3, h4, h5, h6, h7, h8, h9⟩
    exact ⟨h1, h2, h3, e1.symm ▸ h4, e2.symm ▸ h5, e3.symm ▸ h6, e4.symm ▸ h7, e5.symm ▸ h8, h9⟩

open Classical in
/-- Every body has a layout. -/
theorem netOf_exists (h : Header) (b : ReplayBody) (c : Ctx) : ∃ n, NetOf h b c n := by
  have pick : ∀ {α : Type} (p : α → Prop) (_ : ∀ x y, p x → p y → x = y), ∃ v : Option α, ∀ x, v = some x ↔ p x := by
    intro α p hp
    by_cases hx : ∃ x, p x
    · obtain ⟨x, hx⟩ := hx
      refine ⟨some x, fun y => ⟨?_, fun hy => congrArg some (hp x y hx hy)⟩⟩
      intro e; cases e; exact hx
    · exact ⟨none, fun x => ⟨(fun e => nomatch e), fun h => absurd ⟨x, h⟩ hx⟩⟩
  have h1 := fun o => pick (SpawnOf b o) (fun _ _ => spawnOf_unique)
  have h2 := fun o => pick (ClassOf b o) (fun _ _ => classOf_unique)
  refine ⟨⟨c.net, ((headerInt h "MaxChannels").getD 1023#32).toNat,
    decide (c.atLeast 868 20 0 ∨ (c.atLeast 868 14 0 ∧ headerStr h "MatchType" ≠ some "Lan".toList)), 200,
    fun o => (h1 o).choose, fun o => (h2 o).choose⟩, rfl, rfl, decide_eq_true_iff, rfl,
    fun o => (h1 o).choose_spec, fun o => (h2 o).choose_spec⟩

theorem agree_added (ha : AddedTo extra more b b') (hl : b.objects.length ≤ 2 ^ 31)
    (hr : InRange b.objects b.netCache) (hu : ∀ x ∈ extra, x ∈ b.objects ∨ Unrelated b x) {h : Header}
    {c : Ctx} (hn : NetOf h b c n) (hn' : NetOf h b' c n') :
    AgreeOn (fun o => o.toNat < b.objects.length) n n' := by
  refine ⟨hn.net.trans hn'.net.symm, hn.channels.trans hn'.channels.symm, ?_, hn.sticky.trans hn'.sticky.symm,
    fun o ho => ?_, fun o ho => ?_⟩
  · rw [Bool.eq_iff_iff, hn.named, hn'.named]
  · apply Option.ext
    intro sp
    rw [hn.spawn, hn'.spawn, spawnOf_added ha hu ho]
  · apply Option.ext
    intro sp
    rw [hn.cls, hn'.cls, classOf_added ha hl hr hu ho]

theorem news_listed {h : Header} {c : Ctx} (hn : NetOf h b c n) {known : Known} {es : List Event} {i o : Bits}
    (hr : EventsRel n A known es i o) : ∀ a ∈ news es, a.objectId.toNat < b.objects.length := by
  induction hr with
  | done => intro a ha; cases ha
  | @event known e es i j o h1 h2 ih =>
    intro a ha
    cases h1 with
    | new _ h3 _ =>
      rcases List.mem_cons.1 ha with rfl | ha
      · obtain ⟨_, _, sp, _, _, g, _⟩ := h3
        obtain ⟨m, hm, _⟩ := (hn.spawn _ _).1 g
        exact (List.getElem?_eq_some_iff.1 hm).1
      · exact ih a ha
    | delete => exact ih a ha
    | update => exact ih a ha

theorem frames_news {h : Header} {c : Ctx} (hn : NetOf h b c n) {k : Nat} {known : Known} {fs : List Frame}
    {i o : Bits} (hr : FramesRel n A k known fs i o) :
    ∀ f ∈ fs, ∀ a ∈ f.newActors, a.objectId.toNat < b.objects.length := by
  induction hr with
  | full => intro f hf; cases hf
  | empty => intro f hf; cases hf
  | stop => intro f hf; cases hf
  | frame h1 _ ih =>
    intro g hg a ha
    rcases List.mem_cons.1 hg with rfl | hg
    · obtain ⟨_, _, _, t4, _, _, _, _, t8⟩ := h1
      exact news_listed hn t8 a (t4 ▸ ha)
    · exact ih g hg a ha

/-- C103, as far as it holds: if no listed object descends from a further object and no further object
is the name of a kind of product, unless the name is listed already, the frames are the same: whatever
can be read without the further objects and declarations is read with them, and the other way round
whatever announces no further object. The full statement has no such condition; it fails, see
`added_ancestor` and `added_product`. -/
theorem added_partial (env : Env) (h : Header) (ha : AddedTo extra more b b')
    (hu : ∀ x ∈ extra, x ∈ b.objects ∨ Unrelated b x) (hl : b'.objects.length ≤ 2 ^ 31)
    (hn : b.networkData.length < 2 ^ 31) (hcap : b.networkData.length * env.frameSize ≤ env.isizeMax)
    (fs : List Frame) :
    Network.parse env h b = .ok ⟨fs⟩ ↔
      InRange b.objects b.netCache ∧ Network.parse env h b' = .ok ⟨fs⟩ ∧
        ∀ f ∈ fs, ∀ a ∈ f.newActors, a.objectId.toNat < b.objects.length := by
  have hlb : b.objects.length ≤ 2 ^ 31 := by
    have := ha.objects ▸ hl
    rw [List.length_append] at this
    omega
  rw [network_iff env h b hlb hn hcap, network_iff env h b' hl (by rw [ha.data]; exact hn)
    (by rw [ha.data]; exact hcap)]
  unfold NetworkOf
  have hr' : InRange b.objects b.netCache → InRange b'.objects b'.netCache := by
    intro hr c hc p hp
    rw [ha.cache, List.mem_append] at hc
    rcases hc with hc | hc
    · refine ⟨(hr c hc p hp).1, ?_⟩
      rw [ha.objects, List.length_append]
      have := (hr c hc p hp).2
      omega
    · exact ha.range c hc p hp
  cases hk : headerInt h "NumFrames" with
  | none =>
    constructor
    · rintro ⟨hr, rfl⟩
      exact ⟨hr, ⟨hr' hr, rfl⟩, fun f hf => nomatch hf⟩
    · rintro ⟨hr, ⟨_, rfl⟩, _⟩
      exact ⟨hr, rfl⟩
  | some k =>
    rw [ha.data]
    constructor
    · rintro ⟨hr, k0, kl, c, n, o, hc, hn, hf⟩
      obtain ⟨n', hn'⟩ := netOf_exists h b' c
      have hnews := frames_news hn hf
      exact ⟨hr, ⟨hr' hr, k0, kl, c, n', o, (ctxOf_added ha hu).2 hc, hn',
        framesRel_agree (agree_added ha hlb hr hu hn hn') hf (fun _ _ e => nomatch e) hnews⟩, hnews⟩
    · rintro ⟨hr, ⟨_, k0, kl, c, n', o, hc, hn', hf⟩, hnews⟩
      obtain ⟨n, hn⟩ := netOf_exists h b c
      exact ⟨hr, k0, kl, c, n, o, (ctxOf_added ha hu).1 hc, hn,
        framesRel_agree (agree_added ha hlb hr hu hn hn').symm hf (fun _ _ e => nomatch e) hnews⟩

/-! ## Witnesses -/

/-- `wroteBody` with all attributes declared for the ball itself. -/
def ballBody : ReplayBody :=
  { wroteBody with
    objects := ["TAGame.Ball_TA", "TAGame.CarComponent_TA", "TAGame.RBActor_TA:bFrozen",
      "TAGame.RBActor_TA:TeleportCounter"].map String.toList,
    netCache := [⟨0, 0, 0, [⟨2, 0⟩, ⟨3, 1⟩]⟩] }

/-- One frame is announced. -/
def oneFrame : Header := withProps [("NumFrames".toList, .int 1)]

/-- The same with a further object and an attribute for it. -/
def ballAnd (x : String) : ReplayBody :=
  { ballBody with
    objects := ballBody.objects ++ [x.toList],
    netCache := ballBody.netCache ++ [⟨4, 0, 0, [⟨2, 7⟩]⟩] }

theorem ballAnd_added (x : String) : AddedTo [x.toList] [⟨4, 0, 0, [⟨2, 7⟩]⟩] ballBody (ballAnd x) := by
  refine ⟨rfl, rfl, rfl, ?_, ?_⟩
  · intro c hc
    cases List.mem_singleton.1 hc
    decide
  · intro c hc p hp
    cases List.mem_singleton.1 hc
    cases List.mem_singleton.1 hp
    exact ⟨by decide, show 2 < (ballBody.objects ++ [x.toList]).length by
      rw [List.length_append, List.length_singleton]; decide⟩

set_option maxRecDepth 100000 in
/-- C103 fails: the class of physical actors, from which balls descend, is not listed; adding it with
an attribute of its own gives balls an initial location and rotation and a further attribute. -/
theorem added_ancestor :
    AddedTo ["TAGame.RBActor_TA".toList] [⟨4, 0, 0, [⟨2, 7⟩]⟩] ballBody (ballAnd "TAGame.RBActor_TA") ∧
    countOf oneFrame ballBody = some 1 ∧
    framesOf oneFrame (ballAnd "TAGame.RBActor_TA") ≠ framesOf oneFrame ballBody :=
  ⟨ballAnd_added _, by decide +kernel, ne_of_count (by decide +kernel)⟩

/-- A body with an update of products: one product of the object 0. -/
def productBody : ReplayBody :=
  { idBody with
    networkData := [0, 0, 128, 63, 0, 0, 0, 63, 11, 248, 0, 0, 0, 0, 0, 0, 0, 0, 24, 15, 176,
      128, 10, 8, 0, 0, 0, 0, 0, 0, 0, 0, 0, 0, 0, 0, 0, 0, 0, 0],
    objects := ["TAGame.Ball_TA", "TAGame.RBActor_TA", "TAGame.PRI_TA:ClientLoadoutOnline",
      "TAGame.RBActor_TA:TeleportCounter"].map String.toList }

/-- The same with the object of user colours. -/
def colorBody : ReplayBody :=
  { productBody with
    objects := productBody.objects ++ ["TAGame.ProductAttribute_UserColor_TA".toList] }

/-- Whether each update is of a single product without a colour. -/
def noColorsOf (h : Header) (b : ReplayBody) : Option (List (List Bool)) :=
  (framesOf h b).map fun fs => fs.map fun f => f.updatedActors.map fun u =>
    match u.attr with
    | .loadoutOnline [[⟨_, _, .noColor⟩]] => true
    | _ => false

set_option maxRecDepth 100000 in
/-- C103 fails: while user colours are not listed, the first object is taken for them. -/
theorem added_product :
    AddedTo ["TAGame.ProductAttribute_UserColor_TA".toList] [] productBody colorBody ∧
    noColorsOf oneFrame productBody = some [[true]] ∧
    noColorsOf oneFrame colorBody = some [[false]] :=
  ⟨⟨rfl, rfl, (List.append_nil _).symm, (fun _ hc => nomatch hc), (fun _ hc => nomatch hc)⟩,
    by decide +kernel, by decide +kernel⟩

theorem lineage_names {m : Str} {ns : List Str} (h : Lineage m ns) : ∀ x ∈ ns, parentOf x ≠ none := by
  induction h with
  | root => intro x hx; cases hx
  | step h1 _ ih =>
    intro x hx
    rcases List.mem_cons.1 hx with rfl | hx
    · rw [h1]; exact fun e => nomatch e
    · exact ih x hx

set_option maxRecDepth 100000 in
/-- `added_partial` for a further attribute with a declaration. -/
example (fs : List Frame) : Network.parse Env.default64 oneFrame ballBody = .ok ⟨fs⟩ →
    Network.parse Env.default64 oneFrame (ballAnd "TAGame.Ball_TA:GameEvent") = .ok ⟨fs⟩ := fun h =>
  ((added_partial Env.default64 oneFrame (ballAnd_added _) (fun x hx => .inr (by
    cases List.mem_singleton.1 hx
    refine ⟨by decide +kernel, fun n _ ns hns hx => ?_⟩
    exact lineage_names hns _ hx (by decide +kernel)))
    (by decide) (by decide +kernel) (by decide +kernel) fs).1 h).2.1

end Boxcars.Props
