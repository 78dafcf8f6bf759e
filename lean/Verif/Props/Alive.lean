import Verif.Proofs.Alive
import Verif.Props.Frames
import Verif.Props.Stream
/-!
# C82: which actors exist, and whose the updates are

A frame has its announcements, deletions and updates in three lists.  Their order relative to
each other is not kept.
-/
namespace Boxcars.Props
open Boxcars Spec

variable {check : CrcCheck} {np : NetworkParse} {env : Env} {data : Bytes} {r : Replay}
  {fs : List Frame}

theorem records_take {fs : List Frame} {ess : List (List Event)} (h : Records fs ess) (m : Nat) :
    Records (fs.take m) (ess.take m) := by
  unfold Records at h ⊢
  induction h generalizing m with
  | nil => rw [List.take_nil, List.take_nil]; exact .nil
  | cons h1 _ ih =>
    cases m with
    | zero => exact .nil
    | succ m => exact .cons h1 (ih m)

/-- C82. As long as no frame announces and deletes the same actor, the frames of a replay tell
after each of them which actors exist and what they are: the deleted ones do not, the announced
ones do.

The full statement, without `OneSided`, is false: `alive_false`. -/
theorem alive_partial (hs : data.length ≤ env.isizeMax) (h : parseWith check np env data = .ok r)
    (hf : r.networkFrames = some ⟨fs⟩) :
    ∃ blob c n, CtxOf (headerOf r) (bodyOf r blob) c ∧ NetOf (headerOf r) (bodyOf r blob) c n ∧
      (∃ ess k o, FramesAt n (AttrAccepts c) Known.none fs ess k (bytes blob) o) ∧
      ∀ ess k o, FramesAt n (AttrAccepts c) Known.none fs ess k (bytes blob) o →
        ∀ m, (∀ f ∈ fs.take m, OneSided f) →
          aliveAfter Known.none (ess.take m).flatten = (fs.take m).foldl tell Known.none := by
  obtain ⟨blob', c', n', _, _, hc', hn', _⟩ := replay_history hs h hf
  obtain ⟨blob, ⟨_, hn⟩, _⟩ := parse_network hs h hf
  have key : ∀ n A i ess k o, FramesAt n A Known.none fs ess k i o →
      ∀ m, (∀ f ∈ fs.take m, OneSided f) →
        aliveAfter Known.none (ess.take m).flatten = (fs.take m).foldl tell Known.none :=
    fun n A i ess k o h m hp => alive_frames _ (records_take (framesAt_records h) m) hp
  cases hk : headerInt (headerOf r) "NumFrames" with
  | none =>
    rw [hk] at hn
    simp only at hn
    subst hn
    exact ⟨blob', c', n', hc', hn', ⟨[], _, _, .nil⟩, key _ _ _⟩
  | some k =>
    rw [hk] at hn
    obtain ⟨_, _, c, n, o, h1, h2, h3⟩ := hn
    exact ⟨blob, c, n, h1, h2, framesRel_at h3, key _ _ _⟩

theorem latest_split {id : ActorId} {a : NewActor} {p es : List Event}
    (h : Latest id a (p ++ es)) :
    (Event.new a ∈ es ∧ a.actorId = id) ∨ Latest id a p := by
  obtain ⟨b1, b2, he, ha, hb⟩ := h
  rcases List.append_eq_append_iff.1 he.symm with ⟨t, h1, h2⟩ | ⟨t, h1, h2⟩
  · cases t with
    | nil =>
      rw [List.nil_append] at h2
      left
      exact ⟨by rw [← h2]; exact List.mem_cons_self, ha⟩
    | cons x t =>
      rw [List.cons_append, List.cons.injEq] at h2
      obtain ⟨rfl, h2⟩ := h2
      right
      refine ⟨b1, t, h1, ha, fun e he => hb e ?_⟩
      rw [h2]; exact List.mem_append_left _ he
  · left
    refine ⟨?_, ha⟩
    rw [h2]
    exact List.mem_append_right _ List.mem_cons_self

theorem news_append (a b : List Event) : news (a ++ b) = news a ++ news b := by
  induction a with
  | nil => rfl
  | cons e es ih => cases e <;> simp [news, ih]

theorem latest_lastNew {id : ActorId} {a : NewActor} {p : List Event} (h : Latest id a p) :
    lastNew (news p) id = some a := by
  obtain ⟨b1, b2, rfl, ha, hb⟩ := h
  have hb' : (news b2).filter (fun x => x.actorId == id) = [] := by
    rw [List.filter_eq_nil_iff]
    intro x hx
    have := hb _ (mem_news.1 hx)
    simpa [Announces] using this
  unfold lastNew
  rw [news_append, List.filter_append, news, List.filter_cons, hb', if_pos (by simp [ha])]
  simp

theorem records_news {fs : List Frame} {ess : List (List Event)} (h : Records fs ess) :
    news ess.flatten = fs.flatMap Frame.newActors := by
  unfold Records at h
  induction h with
  | nil => rfl
  | cons h1 _ ih => rw [List.flatten_cons, news_append, List.flatMap_cons, ih, h1.1]

/-- C82. An update belongs to the object `o` if the announcements of its actor in the same frame
and the last one before, as far as there are any, are all of this object: the class of `o`
declares or inherits the attribute.

The full statement, for the object announced last before or in the frame, is false:
`alive_false`. -/
theorem update_object_partial (hs : data.length ≤ env.isizeMax) (h : parseWith check np env data = .ok r)
    (hf : r.networkFrames = some ⟨fs⟩) (pre post : List Frame) (f : Frame)
    (hm : fs = pre ++ f :: post) (u : UpdatedAttribute) (hu : u ∈ f.updatedActors) (o : ObjectId)
    (h1 : ∀ a ∈ f.newActors, a.actorId = u.actorId → a.objectId = o)
    (h2 : ∀ a, lastNew (pre.flatMap Frame.newActors) u.actorId = some a → a.objectId = o) :
    ∃ name ns p, FirstAt r.objects name o.toNat ∧ Lineage name ns ∧
      inherited r.objects r.netCache ns u.streamId = some p ∧ p.objectInd = u.objectId := by
  obtain ⟨ess, g1, g2⟩ := updates_announced hs h hf
  obtain ⟨p, es, q, rfl, e1, e2, _⟩ := records_split g1 hm
  rw [e2.2.2, mem_updates] at hu
  obtain ⟨id, us, hu1, hu2⟩ := hu
  obtain ⟨x, y, rfl⟩ := List.append_of_mem hu1
  obtain ⟨a, hl, hd⟩ := g2 (p.flatten ++ x) id us (y ++ q.flatten) (by simp)
  obtain ⟨hid, name, ns, cp, c1, c2, c3, c4⟩ := hd u hu2
  subst hid
  have ho : a.objectId = o := by
    rcases latest_split hl with ⟨k1, k2⟩ | hl
    · refine h1 a ?_ k2
      rw [e2.1, mem_news]
      exact List.mem_append_left _ k1
    · refine h2 a ?_
      rw [← records_news e1]
      exact latest_lastNew hl
  rw [ho] at c1
  exact ⟨name, ns, cp, c1, c2, c3, c4⟩

/-! ## In general the frames do not tell -/

def aliveWire : Bits := bounded 22 0 ++ coord 0 1 ++ coord 0 (-2) ++ coord 0 0 ++
  rotation ⟨some 3, none, none⟩

/-- The actor of `demoNew` again, as another object. -/
def otherNew (id : ActorId) : NewActor := { demoNew id with objectId := 1 }

/-- Actor 5 is announced; in the second frame it is updated, deleted and announced again as another
object. -/
def updateFirst : List Plan :=
  [⟨0x3f800000, 0x3f000000, [.new (demoNew 5) false aliveWire]⟩,
   ⟨0x3fc00000, 0x3f000000, [.update 5 [⟨0, .boolean true, [true]⟩], .delete 5,
     .new (otherNew 5) false aliveWire]⟩]

/-- Actor 5 is announced; in the second frame it is announced again as another object, updated and
deleted. -/
def updateLater : List Plan :=
  [⟨0x3f800000, 0x3f000000, [.new (demoNew 5) false aliveWire]⟩,
   ⟨0x3fc00000, 0x3f000000, [.new (otherNew 5) false aliveWire,
     .update 5 [⟨0, .boolean true, [true]⟩], .delete 5]⟩]

def aliveFrames : List Frame :=
  [⟨0x3f800000, 0x3f000000, [demoNew 5], [], []⟩,
   ⟨0x3fc00000, 0x3f000000, [otherNew 5], [5], [⟨5, 0, 2, .boolean true⟩]⟩]

/-- An end marker and a bit. -/
def aliveTail : Bits := field 32 0#32 ++ (field 32 0#32 ++ [false])

def firstBody : ReplayBody := { wroteBody with
  networkData := [0, 0, 128, 63, 0, 0, 0, 63, 11, 248, 0, 0, 0, 0, 0, 0, 0, 0, 24, 15, 0, 0, 0, 248,
    7, 0, 0, 224, 103, 1, 213, 2, 44, 224, 3, 0, 0, 0, 1, 0, 0, 0, 96, 60, 0,
    0, 0, 0, 0, 0, 0, 0, 0] }

def laterBody : ReplayBody := { wroteBody with
  networkData := [0, 0, 128, 63, 0, 0, 0, 63, 11, 248, 0, 0, 0, 0, 0, 0, 0, 0, 24, 15, 0, 0, 0, 248,
    7, 0, 0, 224, 103, 1, 31, 0, 0, 0, 8, 0, 0, 0, 0, 227, 1, 22, 80, 45, 0,
    0, 0, 0, 0, 0, 0, 0, 0] }

theorem first_bits : bytes firstBody.networkData =
    writePlans wroteNet Known.none updateFirst ++ aliveTail := by decide +kernel

theorem later_bits : bytes laterBody.networkData =
    writePlans wroteNet Known.none updateLater ++ aliveTail := by decide +kernel

theorem alive_ok : PlansOk wroteNet wroteCtx Known.none updateFirst ∧
    PlansOk wroteNet wroteCtx Known.none updateLater := by
  have c5 : InChannels wroteNet 5 := by unfold InChannels; decide
  have n0 : ∀ k, RecOk wroteNet wroteCtx k (.new (demoNew 5) false aliveWire) := fun k =>
    ⟨c5, rfl, ⟨_, rfl, wrote_vec 0 (.inl rfl)⟩,
      fun h => by rw [show wroteNet.cls _ = some wroteClass from rfl] at h; cases h⟩
  have n1 : ∀ k, RecOk wroteNet wroteCtx k (.new (otherNew 5) false aliveWire) := fun k =>
    ⟨c5, rfl, ⟨_, rfl, wrote_vec 0 (.inl rfl)⟩,
      fun h => by rw [show wroteNet.cls _ = some wroteClass from rfl] at h; cases h⟩
  have hp : ∀ p ∈ [(⟨0, .boolean true, [true]⟩ : Put)], PutOk wroteCtx wroteClass p := by
    intro p hp
    simp only [List.mem_cons, List.not_mem_nil, or_false] at hp
    subst hp
    exact ⟨.boolean, 2, rfl, by decide, .boolean true⟩
  have ok : ∀ t d : F32, FrameDecoder.outOfRange t = false → FrameDecoder.outOfRange d = false →
      fexp t ≠ 0 → TimeOk t ∧ TimeOk d ∧ ¬(IsZero t ∧ IsZero d) :=
    fun t d h1 h2 h3 => ⟨(outOfRange_iff _).1 h1, (outOfRange_iff _).1 h2, fun h => h3 h.1.1⟩
  obtain ⟨a1, a2, a3⟩ := ok 0x3f800000 0x3f000000 (by decide +kernel) (by decide +kernel)
    (by decide +kernel)
  obtain ⟨b1, b2, b3⟩ := ok 0x3fc00000 0x3f000000 (by decide +kernel) (by decide +kernel)
    (by decide +kernel)
  exact ⟨⟨a1, a2, a3, ⟨n0 _, trivial⟩, b1, b2, b3,
      ⟨⟨c5, wroteClass, rfl, hp⟩, c5, n1 _, trivial⟩, trivial⟩,
    ⟨a1, a2, a3, ⟨n0 _, trivial⟩, b1, b2, b3,
      ⟨n1 _, ⟨c5, wroteClass, rfl, hp⟩, c5, trivial⟩, trivial⟩⟩

/-- The parameters of the stream do not depend on its bits. -/
theorem alive_net (d : List Byte) :
    CtxOf wroteHeader { wroteBody with networkData := d } wroteCtx ∧
    NetOf wroteHeader { wroteBody with networkData := d } wroteCtx wroteNet :=
  ⟨⟨wrote_ctx.1, wrote_ctx.2, wrote_ctx.3, wrote_ctx.4, wrote_ctx.5, wrote_ctx.6, wrote_ctx.7,
    wrote_ctx.8, wrote_ctx.9⟩,
   ⟨wrote_net.1, wrote_net.2, wrote_net.3, wrote_net.4, wrote_net.5, wrote_net.6⟩⟩

theorem alive_frames_eq : planFrames wroteNet Known.none updateFirst = aliveFrames ∧
    planFrames wroteNet Known.none updateLater = aliveFrames := ⟨rfl, rfl⟩

theorem alive_ending : Ending 2 3 aliveTail :=
  .inr (.inr ⟨by decide, 0, 0, [false], by unfold IsZero; decide +kernel,
    by unfold IsZero; decide +kernel, rfl⟩)

theorem first_parse : Network.parse Env.default64 wroteHeader firstBody = .ok ⟨aliveFrames⟩ :=
  stream_round_trip _ wroteHeader firstBody wroteCtx wroteNet (alive_net _).1 (alive_net _).2
    (by unfold InRange; decide +kernel) (by decide +kernel) (by decide +kernel)
    (by decide +kernel) updateFirst alive_ok.1 3 (by decide +kernel) (by decide) (by decide +kernel)
    aliveTail alive_ending first_bits

theorem later_parse : Network.parse Env.default64 wroteHeader laterBody = .ok ⟨aliveFrames⟩ :=
  stream_round_trip _ wroteHeader laterBody wroteCtx wroteNet (alive_net _).1 (alive_net _).2
    (by unfold InRange; decide +kernel) (by decide +kernel) (by decide +kernel)
    (by decide +kernel) updateLater alive_ok.2 3 (by decide +kernel) (by decide) (by decide +kernel)
    aliveTail alive_ending later_bits

/-- C82 is false in general: two files with the same frames, in one of which actor 5 exists at the
end, in the other not, and the update of actor 5 is of the object announced in the first frame in
one and of the object announced in the second frame in the other. -/
theorem alive_false : ∃ b b' : ReplayBody, ∃ ess ess' k k',
    Network.parse Env.default64 wroteHeader b = .ok ⟨aliveFrames⟩ ∧
    Network.parse Env.default64 wroteHeader b' = .ok ⟨aliveFrames⟩ ∧
    b' = { b with networkData := b'.networkData } ∧
    FramesAt wroteNet (AttrAccepts wroteCtx) Known.none aliveFrames ess k (bytes b.networkData)
      aliveTail ∧
    FramesAt wroteNet (AttrAccepts wroteCtx) Known.none aliveFrames ess' k' (bytes b'.networkData)
      aliveTail ∧
    aliveAfter Known.none ess.flatten 5 = some 1 ∧ aliveAfter Known.none ess'.flatten 5 = none ∧
    ess.flatten = [.new (demoNew 5), .update 5 [⟨5, 0, 2, .boolean true⟩], .delete 5,
      .new (otherNew 5)] ∧
    ess'.flatten = [.new (demoNew 5), .new (otherNew 5), .update 5 [⟨5, 0, 2, .boolean true⟩],
      .delete 5] := by
  obtain ⟨k, h1⟩ := plans_at (netOf_classes wrote_net) (k := Known.none) (kn := Known.none)
    (fun _ _ h => h) updateFirst alive_ok.1 aliveTail
  obtain ⟨k', h2⟩ := plans_at (netOf_classes wrote_net) (k := Known.none) (kn := Known.none)
    (fun _ _ h => h) updateLater alive_ok.2 aliveTail
  rw [← first_bits, alive_frames_eq.1] at h1
  rw [← later_bits, alive_frames_eq.2] at h2
  exact ⟨firstBody, laterBody, _, _, k, k', first_parse, later_parse, rfl, h1, h2, rfl, rfl, rfl, rfl⟩

/-- Both are accepted as files. -/
theorem alive_files (check : CrcCheck) :
    (∃ r, parseWith check .always Env.default64 (encFile wroteHeader firstBody) = .ok r ∧
      r.networkFrames = some ⟨aliveFrames⟩) ∧
    (∃ r, parseWith check .always Env.default64 (encFile wroteHeader laterBody) = .ok r ∧
      r.networkFrames = some ⟨aliveFrames⟩) := by
  have hb : ∀ d : List Byte, d.length < 2 ^ 31 → BodyOk { wroteBody with networkData := d } :=
    fun d hd => ⟨wroteBody_ok.1, wroteBody_ok.2.1, hd, wroteBody_ok.2.2.2⟩
  constructor
  · have := file_round_trip_network check .always Env.default64 wroteHeader firstBody wroteHeader_ok
      (hb _ (by decide)) [] (by decide +kernel) (Room.of_lt (by decide +kernel)).1 _ first_parse (by simp)
    rw [List.append_nil] at this
    exact ⟨_, this, rfl⟩
  · have := file_round_trip_network check .always Env.default64 wroteHeader laterBody wroteHeader_ok
      (hb _ (by decide)) [] (by decide +kernel) (Room.of_lt (by decide +kernel)).1 _ later_parse (by simp)
    rw [List.append_nil] at this
    exact ⟨_, this, rfl⟩

/-- The frames of `wrotePlan` are such, and tell that actors 5 and 300 exist at the end. -/
example : (∀ f ∈ planFrames wroteNet Known.none wrotePlan, OneSided f) ∧
    (planFrames wroteNet Known.none wrotePlan).foldl tell Known.none 5 = some 0 ∧
    ((planFrames wroteNet Known.none wrotePlan).take 2).foldl tell Known.none 5 = none := by
  refine ⟨?_, by decide +kernel, by decide +kernel⟩
  unfold OneSided
  decide +kernel

end Boxcars.Props
