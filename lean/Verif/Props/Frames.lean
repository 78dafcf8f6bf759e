import Verif.Proofs.History
import Verif.Proofs.FloatNearest
import Verif.Props.NetSample
/-!
# C29–C35: what the frames of a parsed replay look like

All theorems are about a replay returned by the parser and its frames.  Their hypotheses are
satisfied by the replay of `NetSample.lean` (`demo_ok`).
-/
namespace Boxcars.Props
open Boxcars Spec

variable {check : CrcCheck} {np : NetworkParse} {env : Env} {data : List Byte}
  {r : Replay} {fs : List Frame}

theorem demo_small : Small Env.default64 demo := small_lt (by decide +kernel)

theorem records_split {fs : List Frame} {ess : List (List Event)} (h : Records fs ess)
    {pre post : List Frame} {f : Frame} (hf : fs = pre ++ f :: post) :
    ∃ p es q, ess = p ++ es :: q ∧ Records pre p ∧ FrameOfRecords f es ∧ Records post q := by
  subst hf
  induction pre generalizing ess with
  | nil =>
    cases h with
    | cons h1 h2 => exact ⟨[], _, _, rfl, .nil, h1, h2⟩
  | cons g pre ih =>
    cases h with
    | cons h1 h2 =>
      obtain ⟨p, es, q, rfl, h3, h4, h5⟩ := ih h2
      exact ⟨_ :: p, es, q, rfl, .cons h1 h3, h4, h5⟩

/-! ## C29 -/

/-- C29. The object of every update is listed, its name is that of a known attribute, and the
value is of the type that name has. -/
theorem update_type (hs : data.length ≤ env.isizeMax) (h : parseWith check np env data = .ok r)
    (hf : r.networkFrames = some ⟨fs⟩) (f : Frame) (hm : f ∈ fs) (u : UpdatedAttribute)
    (hu : u ∈ f.updatedActors) :
    ∃ name tag, r.objects[u.objectId.toNat]? = some name ∧ attributeTag name = some tag ∧
      HasType tag u.attr := by
  obtain ⟨blob, c, n, ess, h1, h2, h3, h4, h5, h6, h7, h8, h9⟩ := replay_history hs h hf
  obtain ⟨pre, post, rfl⟩ := List.append_of_mem hm
  obtain ⟨p, es, q, rfl, _, g2, _⟩ := records_split h5 rfl
  rw [g2.2.2, mem_updates] at hu
  obtain ⟨id, us, hu1, hu2⟩ := hu
  obtain ⟨a, b, rfl⟩ := List.append_of_mem hu1
  obtain ⟨j, k, he⟩ := h9 (p.flatten ++ a) (.update id us) (b ++ q.flatten) (by simp)
  cases he with
  | @update _ obj cd _ j _ e1 e2 e3 e4 =>
    obtain ⟨p1, p2, tag, j', k', p3, p4⟩ := propsRel_mem e4 hu2
    obtain ⟨name, ns, c1, c2, c3, c4, c5⟩ := (h3.cls obj cd).1 e3
    rw [c4] at p3
    obtain ⟨cp, hcp, hp⟩ := Option.map_eq_some_iff.1 p3
    rw [Prod.mk.injEq] at hp
    obtain ⟨rfl, hp⟩ := hp
    rw [hp] at p4
    have ht := hasType_of p4
    unfold attrType at ht
    cases hx : (bodyOf r blob).objects[u.objectId.toNat]? with
    | none => rw [hx] at ht; exact absurd ht hasType_implemented
    | some nm =>
      rw [hx] at ht
      refine ⟨nm, ?_⟩
      simp only [Option.bind_some] at ht
      cases hy : attributeTag nm with
      | none => rw [hy] at ht; exact absurd ht hasType_implemented
      | some t => rw [hy] at ht; exact ⟨t, hx, rfl, ht⟩

/-- In the demo: the update of object 3 carries a byte, as its name says. -/
example : ∃ r, parseWith .always .always Env.default64 demo = .ok r ∧
    (∃ name tag, r.objects[3]? = some name ∧ attributeTag name = some tag ∧
      HasType tag (.byte 200)) ∧ attributeTag "TAGame.RBActor_TA:TeleportCounter".toList = some .byte := by
  obtain ⟨r, h1, h2, h3, _⟩ := demo_ok
  exact ⟨r, h1, update_type demo_small.len h1 h2 (demoFrames[0]) (by simp [demoFrames])
    ⟨5, 1, 3, .byte 200⟩ (by simp [demoFrames]), by decide +kernel⟩

/-! ## C30 -/

/-- C30. There is an order of the records of the frames such that every update refers to an
actor announced before, and every stream id is one that the object of its latest announcement
declares or inherits, with the object given in the declaration. -/
theorem updates_announced (hs : data.length ≤ env.isizeMax) (h : parseWith check np env data = .ok r)
    (hf : r.networkFrames = some ⟨fs⟩) :
    ∃ ess, Records fs ess ∧ ∀ before id us after,
      ess.flatten = before ++ .update id us :: after →
      ∃ a, Latest id a before ∧ ∀ u ∈ us, u.actorId = id ∧
        ∃ name ns p, FirstAt r.objects name a.objectId.toNat ∧ Lineage name ns ∧
          inherited r.objects r.netCache ns u.streamId = some p ∧ p.objectInd = u.objectId := by
  obtain ⟨blob, c, n, ess, h1, h2, h3, h4, h5, h6, h7, h8, h9⟩ := replay_history hs h hf
  refine ⟨ess, h5, fun before id us after he => ?_⟩
  obtain ⟨j, k, he⟩ := h9 _ _ _ he
  cases he with
  | @update _ obj cd _ j _ e1 e2 e3 e4 =>
    obtain ⟨b1, a, b2, rfl, rfl, rfl, k4, k5⟩ := known_latest e2
    refine ⟨a, ⟨b1, b2, rfl, rfl, k4⟩, fun u hu => ?_⟩
    obtain ⟨p1, p2, tag, j', k', p3, p4⟩ := propsRel_mem e4 hu
    obtain ⟨name, ns, c1, c2, c3, c4, c5⟩ := (h3.cls _ cd).1 e3
    rw [c4] at p3
    obtain ⟨cp, hcp, hp⟩ := Option.map_eq_some_iff.1 p3
    rw [Prod.mk.injEq] at hp
    exact ⟨p1, name, ns, cp, c1, c2, hcp, hp.2⟩

/-- C30. In terms of the frames alone: an updated actor was announced in the same frame or
an earlier one. -/
theorem update_after_new (hs : data.length ≤ env.isizeMax) (h : parseWith check np env data = .ok r)
    (hf : r.networkFrames = some ⟨fs⟩) (pre post : List Frame) (f : Frame)
    (hm : fs = pre ++ f :: post) (u : UpdatedAttribute) (hu : u ∈ f.updatedActors) :
    ∃ g ∈ pre ++ [f], ∃ a ∈ g.newActors, a.actorId = u.actorId := by
  obtain ⟨ess, h1, h2⟩ := updates_announced hs h hf
  obtain ⟨p, es, q, rfl, g1, g2, _⟩ := records_split h1 hm
  rw [g2.2.2, mem_updates] at hu
  obtain ⟨id, us, hu1, hu2⟩ := hu
  obtain ⟨x, y, rfl⟩ := List.append_of_mem hu1
  obtain ⟨a, ⟨b1, b2, e1, e2, _⟩, e4⟩ := h2 (p.flatten ++ x) id us (y ++ q.flatten) (by simp)
  have hin : Event.new a ∈ p.flatten ++ x := by rw [e1]; simp
  rw [(e4 u hu2).1]
  rcases List.mem_append.1 hin with hin | hin
  · obtain ⟨es', hes, hae⟩ := List.mem_flatten.1 hin
    obtain ⟨i, hi, rfl⟩ := List.mem_iff_getElem.1 hes
    have hlen : pre.length = p.length := List.Forall₂.length_eq g1
    have hrec := (List.forall₂_iff_get.1 g1).2 i (by omega) hi
    refine ⟨pre[i]'(by omega), by simp, a, ?_, e2⟩
    have := hrec.1
    simp only [List.get_eq_getElem] at this
    rw [this, mem_news]
    exact hae
  · refine ⟨f, by simp, a, ?_, e2⟩
    rw [g2.1, mem_news]
    exact List.mem_append_left _ hin

/-! ## C31 -/

/-- C31, for actor ids from 200 on: there is an order of the records of the frames such that
between a deletion and an update of the same actor there is an announcement.

Full statement: the same without the condition `200 ≤ id.toNat`.  It is false, see
`stale_update`. -/
theorem no_stale_update_partial (hs : data.length ≤ env.isizeMax) (h : parseWith check np env data = .ok r)
    (hf : r.networkFrames = some ⟨fs⟩) :
    ∃ ess, Records fs ess ∧ ∀ before id mid us after, 200 ≤ id.toNat →
      ess.flatten = before ++ .delete id :: (mid ++ .update id us :: after) →
      ∃ a, Event.new a ∈ mid ∧ a.actorId = id := by
  obtain ⟨blob, c, n, ess, h1, h2, h3, h4, h5, h6, h7, h8, h9⟩ := replay_history hs h hf
  refine ⟨ess, h5, fun before id mid us after hid he => ?_⟩
  obtain ⟨j, k, he⟩ := h9 (before ++ .delete id :: mid) (.update id us) after (by rw [he]; simp)
  cases he with
  | @update _ obj cd _ j _ e1 e2 e3 e4 =>
    apply Classical.byContradiction
    intro hno
    rw [unknown_of_deleted (by rw [h3.sticky]; exact hid)] at e2
    · cases e2
    · intro e he
      cases e with
      | new a => exact fun ha => hno ⟨a, he, ha⟩
      | delete => exact fun h => h
      | update => exact fun h => h

/-- C31 is false below 200: the parser accepts a replay with an actor that is deleted in one
frame, announced neither there nor later, and updated in a later frame. -/
theorem stale_update : ∃ data r pre f mid g post u, Small Env.default64 data ∧
    parseWith .always .always Env.default64 data = .ok r ∧
    r.networkFrames = some ⟨pre ++ f :: (mid ++ g :: post)⟩ ∧
    u ∈ g.updatedActors ∧ u.actorId ∈ f.deletedActors ∧
    ∀ h ∈ f :: (mid ++ g :: post), ∀ a ∈ h.newActors, a.actorId ≠ u.actorId := by
  obtain ⟨r, h1, h2, h3, _⟩ := demo_ok
  refine ⟨demo, r, demoFrames.take 1, demoFrames[1], [], demoFrames[2], [], ⟨5, 1, 3, .byte 7⟩,
    demo_small, h1, h2, by simp [demoFrames], by simp [demoFrames], ?_⟩
  intro h hh a ha
  simp only [demoFrames, List.nil_append, List.mem_cons, List.not_mem_nil, or_false] at hh
  rcases hh with rfl | rfl <;> cases ha

/-- C31 for ids from 200 on, what happens instead: if, after the frames and records read so
far, the next record is an update of an actor that was deleted and not announced since,
network parsing fails with `MissingActor`. -/
theorem stale_update_error_partial (env : Env) (h : Header) (body : ReplayBody)
    (hl : body.objects.length ≤ 2 ^ 31) (hn : body.networkData.length < 2 ^ 31)
    (hcap : body.networkData.length * env.frameSize ≤ env.isizeMax)
    {c n fs ess known i j k id es known' b1 b2} {t d : F32}
    (hr : Reading h body c n fs ess known (field 32 t ++ (field 32 d ++ i)))
    (ht : TimeOk t) (hd : TimeOk d) (hz : ¬(IsZero t ∧ IsZero d))
    (he : EventsAt n (AttrAccepts c) known es known' i (true :: j))
    (hi : ActorIdAt n id j (true :: false :: k)) (hid : 200 ≤ id.toNat)
    (hist : ess.flatten ++ es = b1 ++ .delete id :: b2) (hb : ∀ e ∈ b2, ¬Announces id e) :
    ∃ ctx, Network.parse env h body = .err (.frameError (.missingActor id) ctx) := by
  have hk : known' id = none := by
    rw [eventsAt_known he, (framesAt_known hr.frames).1, ← afterAll_append, hist]
    exact unknown_of_deleted (by rw [hr.net.sticky]; exact hid) hb
  obtain ⟨ctx, h1, _⟩ := reading_fails hl hn hcap hr
    (.records ht hd hz (eventsFail_event he (.unknown hi hk)))
  exact ⟨ctx, h1⟩

/-- The same for an actor that was never announced, whatever its id. -/
theorem unannounced_update_error (env : Env) (h : Header) (body : ReplayBody)
    (hl : body.objects.length ≤ 2 ^ 31) (hn : body.networkData.length < 2 ^ 31)
    (hcap : body.networkData.length * env.frameSize ≤ env.isizeMax)
    {c n fs ess known i j k id es known'} {t d : F32}
    (hr : Reading h body c n fs ess known (field 32 t ++ (field 32 d ++ i)))
    (ht : TimeOk t) (hd : TimeOk d) (hz : ¬(IsZero t ∧ IsZero d))
    (he : EventsAt n (AttrAccepts c) known es known' i (true :: j))
    (hi : ActorIdAt n id j (true :: false :: k))
    (hb : ∀ e ∈ ess.flatten ++ es, ¬Announces id e) :
    ∃ ctx, Network.parse env h body = .err (.frameError (.missingActor id) ctx) := by
  have hk : known' id = none := by
    rw [eventsAt_known he, (framesAt_known hr.frames).1, ← afterAll_append]
    exact unknown_of_none hb
  obtain ⟨ctx, h1, _⟩ := reading_fails hl hn hcap hr
    (.records ht hd hz (eventsFail_event he (.unknown hi hk)))
  exact ⟨ctx, h1⟩

/-- It happens: see `demoStray`. -/
example : ∃ ctx, parseWith .always .always Env.default64 demoStray =
    .err (.networkError (.frameError (.missingActor 300) ctx)) := by
  have h := demoStray_check
  split at h
  · rename_i id c hp
    simp only [Bool.and_eq_true, beq_iff_eq] at h
    obtain ⟨⟨⟨⟨⟨rfl, _⟩, _⟩, _⟩, _⟩, _⟩ := h
    exact ⟨c, hp⟩
  · cases h

/-! ## C32 -/

/-- The version of a replay is at least `(a, b, 0)`. -/
def versionAtLeast (r : Replay) (a b : Int) : Prop :=
  a < r.majorVersion.toInt ∨ (a = r.majorVersion.toInt ∧
    (b < r.minorVersion.toInt ∨ (b = r.minorVersion.toInt ∧ 0 ≤ (r.netVersion.getD 0#32).toInt)))

theorem placed_of {net : I32} {sp : SpawnTrajectory} {t : Trajectory} {bs : Bits}
    (h : SpawnEnc net sp t bs) : Placed sp t := by
  unfold SpawnEnc at h
  cases sp with
  | none => obtain ⟨rfl, _⟩ := h; simp [Placed]
  | location => obtain ⟨v, _, rfl⟩ := h; simp [Placed]
  | locationAndRotation => obtain ⟨v, r, b, _, _, rfl⟩ := h; simp [Placed]

/-- C32. A new actor's object is listed, and is the first with its name; a name id is present
exactly from version 868.20 on or, except in LAN matches, from 868.14 on; location and rotation
are present exactly as prescribed by the nearest listed class of its lineage. -/
theorem new_actor (hs : data.length ≤ env.isizeMax) (h : parseWith check np env data = .ok r)
    (hf : r.networkFrames = some ⟨fs⟩) (f : Frame) (hm : f ∈ fs) (a : NewActor)
    (ha : a ∈ f.newActors) :
    (∃ name ns, FirstAt r.objects name a.objectId.toNat ∧ Lineage name ns ∧
      Placed (spawnOf r.objects ns) a.initialTrajectory) ∧
    (a.nameId.isSome ↔ versionAtLeast r 868 20 ∨
      (versionAtLeast r 868 14 ∧ headerStr (headerOf r) "MatchType" ≠ some "Lan".toList)) := by
  obtain ⟨blob, c, n, ess, h1, h2, h3, h4, h5, h6, h7, h8, h9⟩ := replay_history hs h hf
  obtain ⟨pre, post, rfl⟩ := List.append_of_mem hm
  obtain ⟨p, es, q, rfl, _, g2, _⟩ := records_split h5 rfl
  rw [g2.1, mem_news] at ha
  obtain ⟨x, y, rfl⟩ := List.append_of_mem ha
  obtain ⟨j, k, he⟩ := h9 (p.flatten ++ x) (.new a) (y ++ q.flatten) (by simp)
  have hv : ∀ m, c.atLeast 868 m 0 ↔ versionAtLeast r 868 m := by
    intro m
    unfold Ctx.atLeast versionAtLeast
    rw [h2.major, h2.minor, h2.net]
    rfl
  cases he with
  | @new _ cd j _ e1 e2 e3 =>
    obtain ⟨name, ns, c1, c2, c3, c4, c5⟩ := (h3.cls _ cd).1 e3
    obtain ⟨nm, b, sp, t, k1, k2, k3, k4⟩ := e2
    constructor
    · refine ⟨name, ns, c1, c2, ?_⟩
      obtain ⟨name', d1, ⟨d2, ns', d3, d4⟩ | ⟨d2, _⟩⟩ := (h3.spawn _ _).1 k2
      · have : name' = name := by
          have := c1.1
          rw [d1] at this
          exact Option.some.inj this
        subst this
        rw [lineage_unique c2 d3, ← show sp = spawnOf r.objects ns' from d4]
        exact placed_of k3
      · have : name' = name := by
          have := c1.1
          rw [d1] at this
          exact Option.some.inj this
        subst this
        exact absurd c1 d2
    · rw [← hv 20, ← hv 14, ← show n.named = true ↔ _ from h3.named]
      rcases k1 with ⟨hc, v, hv, _⟩ | ⟨hc, hv, _⟩
      · rw [hv]; simp [hc]
      · rw [hv]; simp [hc]

/-- In the demo: a ball has a name, a location and a rotation. -/
example : ∃ r, parseWith .always .always Env.default64 demo = .ok r ∧
    (∃ name ns, FirstAt r.objects name 0 ∧ Lineage name ns ∧
      Placed (spawnOf r.objects ns) (demoNew 5).initialTrajectory) := by
  obtain ⟨r, h1, h2, h3, _⟩ := demo_ok
  exact ⟨r, h1, (new_actor demo_small.len h1 h2 (demoFrames[0]) (by simp [demoFrames]) (demoNew 5)
    (by simp [demoFrames])).1⟩

/-! ## C33 -/

/-- C33. Actor ids are below `MaxChannels`, read as unsigned number (1023 if there is no such
integer property), or 0 if it is 0. -/
theorem actor_ids (hs : data.length ≤ env.isizeMax) (h : parseWith check np env data = .ok r)
    (hf : r.networkFrames = some ⟨fs⟩) (f : Frame) (hm : f ∈ fs) (id : ActorId)
    (hi : (∃ a ∈ f.newActors, a.actorId = id) ∨ id ∈ f.deletedActors ∨
      ∃ u ∈ f.updatedActors, u.actorId = id) :
    id.toNat < max ((headerInt (headerOf r) "MaxChannels").getD 1023#32).toNat 1 := by
  obtain ⟨blob, c, n, ess, h1, h2, h3, h4, h5, h6, h7, h8, h9⟩ := replay_history hs h hf
  obtain ⟨pre, post, rfl⟩ := List.append_of_mem hm
  obtain ⟨p, es, q, rfl, _, g2, _⟩ := records_split h5 rfl
  rw [g2.1, g2.2.1, g2.2.2] at hi
  rw [← h3.channels]
  have key : ∀ e ∈ es, ∃ kn j k, EventRel n (AttrAccepts c) kn e j k := by
    intro e he
    obtain ⟨x, y, rfl⟩ := List.append_of_mem he
    obtain ⟨j, k, h⟩ := h9 (p.flatten ++ x) e (y ++ q.flatten) (by simp)
    exact ⟨_, j, k, h⟩
  rcases hi with ⟨a, ha, rfl⟩ | hd | ⟨u, hu, rfl⟩
  · obtain ⟨kn, j, k, he⟩ := key _ (mem_news.1 ha)
    cases he with
    | new e1 => exact e1
  · obtain ⟨kn, j, k, he⟩ := key _ (mem_deletes.1 hd)
    cases he with
    | delete e1 => exact e1
  · obtain ⟨id, us, hu1, hu2⟩ := mem_updates.1 hu
    obtain ⟨kn, j, k, he⟩ := key _ hu1
    cases he with
    | update e1 _ _ e4 => rw [(propsRel_mem e4 hu2).1]; exact e1

/-- In the demo. -/
example : ∃ r, parseWith .always .always Env.default64 demo = .ok r ∧
    300 < max ((headerInt (headerOf r) "MaxChannels").getD 1023#32).toNat 1 := by
  obtain ⟨r, h1, h2, h3, _⟩ := demo_ok
  exact ⟨r, h1, actor_ids demo_small.len h1 h2 (demoFrames[1]) (by simp [demoFrames]) 300
    (.inr (.inl (by simp [demoFrames])))⟩

/-! ## C34 -/

/-- C34. There are at most `NumFrames` frames, and none without such an integer property. -/
theorem frame_count (hs : data.length ≤ env.isizeMax) (h : parseWith check np env data = .ok r)
    (hf : r.networkFrames = some ⟨fs⟩) :
    match headerInt (headerOf r) "NumFrames" with
    | some k => 0 ≤ k.toInt ∧ (fs.length : Int) ≤ k.toInt
    | none => fs = [] := by
  obtain ⟨blob, hn, _, _⟩ := parse_network hs h hf
  obtain ⟨_, hn⟩ := hn
  cases hk : headerInt (headerOf r) "NumFrames" with
  | none => rw [hk] at hn; exact hn
  | some k =>
    rw [hk] at hn
    obtain ⟨k1, k2, c, n, o, c1, c2, c3⟩ := hn
    refine ⟨k1, ?_⟩
    have := framesRel_limit c3
    have h1 := FrameDecoder.toInt_of_nonneg k1
    omega

/-- C34. Each frame takes at least 65 bits of the network section, which is part of the
file. -/
theorem frame_bits (hs : data.length ≤ env.isizeMax) (h : parseWith check np env data = .ok r)
    (hf : r.networkFrames = some ⟨fs⟩) : 65 * fs.length ≤ 8 * data.length := by
  obtain ⟨blob, hn, hb, _⟩ := parse_network hs h hf
  obtain ⟨_, hn⟩ := hn
  cases hk : headerInt (headerOf r) "NumFrames" with
  | none => rw [hk] at hn; simp only at hn; subst hn; simp
  | some k =>
    rw [hk] at hn
    obtain ⟨k1, k2, c, n, o, c1, c2, c3⟩ := hn
    cases ctxOf_unique c1 (ctxOf_attrDecoderOf _ _)
    have h1 := framesRel_bits (fun _ _ _ _ h => FrameDecoder.accepts_length _ rfl h) c3
    have h2 : (bytes (bodyOf r blob).networkData).length = 8 * blob.length := BSpec.bytes_length _
    omega

/-- C34. An announced number of frames that is negative or larger than the network section is an
error, whatever the section contains. -/
theorem too_many_frames (env : Env) (h : Header) (body : ReplayBody)
    (hl : body.objects.length ≤ 2 ^ 31) (hn : body.networkData.length < 2 ^ 31)
    (hcap : body.networkData.length * env.frameSize ≤ env.isizeMax)
    (hr : InRange body.objects body.netCache) (k : I32) (hk : headerInt h "NumFrames" = some k)
    (hb : k.toInt < 0 ∨ (body.networkData.length : Int) < k.toInt) :
    Network.parse env h body = .err (.tooManyFrames k) := by
  refine (network_err_iff env h body hl hn hcap _).2 (.count hr hk ?_)
  rintro ⟨h1, h2⟩
  have := FrameDecoder.toInt_of_nonneg h1
  omega

/-- For example: five frames in four bytes, or a negative number. -/
example : Network.parse Env.default64
      ⟨868, 20, some 10, "G".toList, [("NumFrames".toList, .int 5)]⟩
      ⟨[], [], [], [], [], [], [], [], [], [0, 0, 0, 0]⟩ = .err (.tooManyFrames 5) ∧
    Network.parse Env.release32
      ⟨868, 20, some 10, "G".toList, [("NumFrames".toList, .int (-1))]⟩
      ⟨[], [], [], [], [], [], [], [], [], [0, 0, 0, 0]⟩ = .err (.tooManyFrames (-1)) := by
  constructor
  · exact too_many_frames _ _ _ (by decide) (by decide) (by decide) (by intro c hc; cases hc) 5
      (by unfold headerInt; simp) (.inr (by decide))
  · exact too_many_frames _ _ _ (by decide) (by decide) (by decide) (by intro c hc; cases hc) (-1)
      (by unfold headerInt; simp) (.inl (by decide))

/-! ## C35 -/

/-- C35. Times and time differences of frames are accepted values, and not both zero.

Full statement: in addition they are numbers.  It is false, see `nan_frame`. -/
theorem frame_times_partial (hs : data.length ≤ env.isizeMax) (h : parseWith check np env data = .ok r)
    (hf : r.networkFrames = some ⟨fs⟩) (f : Frame) (hm : f ∈ fs) :
    TimeOk f.time ∧ TimeOk f.delta ∧ ¬(IsZero f.time ∧ IsZero f.delta) := by
  obtain ⟨blob, c, n, ess, h1, h2, h3, h4, h5, h6, h7, h8, h9⟩ := replay_history hs h hf
  exact h6 f hm

/-- An accepted value that is a finite number is not negative and not between 0 and `1e-10`. -/
theorem timeOk_finite (t : F32) (hfin : IsFinite t) :
    TimeOk t ↔ fval t = 0 ∨ fval 0x2edbe6ff#32 ≤ fval t := by
  unfold TimeOk IsFinite at *
  simp [hfin]

/-- The threshold is the binary32 nearest to `1e-10`. -/
theorem threshold : Nearest (1 / 10 ^ 10) 0x2edbe6ff#32 := by
  have h := F32.ofRat_nearest (neg := false) (p := 1) (q := 10 ^ 10) (by decide) (by decide +kernel)
  have e : F32.ofRat false 1 (10 ^ 10) = 0x2edbe6ff#32 := by decide +kernel
  rw [e] at h
  have q : (if false = true then -(((1 : Nat) : Rat) / ((10 ^ 10 : Nat) : Rat)) else
      ((1 : Nat) : Rat) / ((10 ^ 10 : Nat) : Rat)) = 1 / 10 ^ 10 := by decide +kernel
  exact q ▸ h

/-- Negative infinity is not accepted; NaN and positive infinity are. -/
theorem timeOk_nonfinite (t : F32) (hfin : ¬IsFinite t) :
    TimeOk t ↔ t ≠ 0xff800000#32 := by
  unfold TimeOk IsFinite at *
  have hf : fexp t = 255 := by simpa using hfin
  simp only [hf, ne_eq, not_true_eq_false, false_and, or_false, true_and]
  unfold fexp at hf
  unfold ffrac fneg
  have ht := t.isLt
  constructor
  · rintro h rfl
    revert h
    decide
  · intro h
    by_cases h0 : t.toNat % 2 ^ 23 = 0
    · right
      rw [decide_eq_false_iff_not]
      intro hneg
      apply h
      apply BitVec.eq_of_toNat_eq
      show t.toNat = 4286578688
      omega
    · exact .inl h0

/-- C35. A time that is not accepted is an error. -/
theorem bad_time (env : Env) (h : Header) (body : ReplayBody)
    (hl : body.objects.length ≤ 2 ^ 31) (hn : body.networkData.length < 2 ^ 31)
    (hcap : body.networkData.length * env.frameSize ≤ env.isizeMax)
    {c n fs ess known i} {t : F32}
    (hr : Reading h body c n fs ess known (field 32 t ++ i)) (ht : ¬TimeOk t) :
    ∃ ctx, Network.parse env h body = .err (.frameError (.timeOutOfRange t) ctx) := by
  obtain ⟨ctx, h1, _⟩ := reading_fails hl hn hcap hr (.timeRange ht)
  exact ⟨ctx, h1⟩

/-- C35. A time difference that is not accepted is an error. -/
theorem bad_delta (env : Env) (h : Header) (body : ReplayBody)
    (hl : body.objects.length ≤ 2 ^ 31) (hn : body.networkData.length < 2 ^ 31)
    (hcap : body.networkData.length * env.frameSize ≤ env.isizeMax)
    {c n fs ess known i} {t d : F32}
    (hr : Reading h body c n fs ess known (field 32 t ++ (field 32 d ++ i))) (ht : TimeOk t)
    (hd : ¬TimeOk d) :
    ∃ ctx, Network.parse env h body = .err (.frameError (.deltaOutOfRange d) ctx) := by
  obtain ⟨ctx, h1, _⟩ := reading_fails hl hn hcap hr (.deltaRange ht hd)
  exact ⟨ctx, h1⟩

/-- C35. The times of a parsed replay need not be numbers: the parser accepts a frame whose time
difference is NaN. -/
theorem nan_frame : ∃ data r fs, Small Env.default64 data ∧
    parseWith .always .always Env.default64 data = .ok r ∧ r.networkFrames = some ⟨fs⟩ ∧
    ∃ f ∈ fs, fexp f.delta = 255 ∧ ffrac f.delta ≠ 0 := by
  obtain ⟨r, h1, h2, h3, _⟩ := demo_ok
  exact ⟨demo, r, _, demo_small, h1, h2, demoFrames[2], by simp [demoFrames], by decide, by decide⟩

end Boxcars.Props
