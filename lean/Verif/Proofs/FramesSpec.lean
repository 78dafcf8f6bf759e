import Verif.Proofs.FrameSpec
import Verif.Proofs.FloatOrder
import Verif.Model.Network
/-!
# Frames and the frame loop
-/
namespace Boxcars
open Spec
namespace FrameDecoder

variable {N : Nat}

/-! ### The state after all records of a frame -/

theorem fold_ok {d : FrameDecoder} (es : List Event) {st : FrameSt} (h : d.ActorsOk st.actors) :
    d.ActorsOk (es.foldl d.applyEvent st).actors := by
  induction es generalizing st with
  | nil => exact h
  | cons e es ih => exact ih (applyEvent_ok h e)

theorem fold_known {d : FrameDecoder} {A : AttrRel} {es : List Event} {st : FrameSt} {i o : Bits}
    (h : d.ActorsOk st.actors) (he : EventsRel d.netOf A (known st.actors) es i o) :
    known (es.foldl d.applyEvent st).actors = (known st.actors).afterAll d.netOf es := by
  induction es generalizing st i with
  | nil => rfl
  | cons e es ih =>
    cases he with
    | event h1 h2 =>
      rw [← known_applyEvent h h1] at h2
      have := ih (applyEvent_ok h e) h2
      rw [known_applyEvent h h1] at this
      exact this

theorem fold_lists {d : FrameDecoder} {A : AttrRel} {es : List Event} {k : Known} {st : FrameSt}
    {i o : Bits} (he : EventsRel d.netOf A k es i o) :
    (es.foldl d.applyEvent st).newActors = st.newActors ++ news es ∧
    (es.foldl d.applyEvent st).deleted = st.deleted ++ deletes es ∧
    (es.foldl d.applyEvent st).updated = st.updated ++ updates es := by
  induction es generalizing st i k with
  | nil => simp [news, deletes, updates]
  | cons e es ih =>
    cases he with
    | event h1 h2 =>
      obtain ⟨a, b, c⟩ := ih (st := d.applyEvent st e) h2
      rw [List.foldl_cons, a, b, c]
      cases h1 with
      | new hin hn hc =>
        obtain ⟨ci, hci, _⟩ := cls_eq_some.1 hc
        rw [applyEvent_new hci]
        simp [news, deletes, updates]
      | delete => simp [news, deletes, updates, applyEvent]
      | update => simp [news, deletes, updates, applyEvent]

/-! ### One frame -/

theorem isZero_timeOk {t : F32} (h : IsZero t) : TimeOk t := by
  right
  refine ⟨by rw [h.1]; decide, .inl ((fval_eq_zero_iff t).2 h)⟩

/-- What one call of `decode_frame` accepts: an end marker or a frame. -/
def FrameRes (d : FrameDecoder) (A : AttrRel) (actors : SegArray (ObjectId × CacheInfo)) :
    BRel (Option (Frame × SegArray (ObjectId × CacheInfo))) := fun res i o =>
  (res = none ∧ ∃ t dt, IsZero t ∧ IsZero dt ∧ i = field 32 t ++ (field 32 dt ++ o)) ∨
  (∃ f es, FrameRel d.netOf A (known actors) f es i o ∧
    res = some (f, (es.foldl d.applyEvent ⟨actors, [], [], []⟩).actors))

theorem decodeFrame_spec (d : FrameDecoder) (hw : d.Wf) (ad : AttrDecoder)
    (hp : ad.product.version = ad.version) (fuel : Nat) (hN : N < fuel)
    (actors : SegArray (ObjectId × CacheInfo)) (ha : d.ActorsOk actors) :
    BSpec N (d.decodeFrame ad fuel actors) (FrameRes d (AttrAccepts ad.ctx) actors) := by
  unfold decodeFrame
  have hl := actorLoop_spec d hw ad hp fuel N hN ⟨actors, [], [], []⟩ ha
  refine (BSpec.bind' (BSpec.readU32.okOr _) fun t => BSpec.ite (fun _ => BSpec.fail _) fun ht =>
    BSpec.bind' (BSpec.readU32.okOr _) fun dt => BSpec.ite (fun _ => BSpec.fail _) fun hd =>
    BSpec.ite (fun hz => BSpec.pure _) fun hz => BSpec.bind' hl fun st => BSpec.pure _).congr ?_
  intro res i o _
  unfold FrameRes
  constructor
  · rintro ⟨t, _, rfl, h⟩
    split at h
    · exact h.elim
    rename_i ht
    obtain ⟨dt, _, rfl, h⟩ := h
    split at h
    · exact h.elim
    rename_i hd
    split at h
    · rename_i hz
      obtain ⟨rfl, rfl⟩ := h
      rw [Bool.and_eq_true, eq_zero_iff, eq_zero_iff] at hz
      exact .inl ⟨rfl, t, dt, hz.1, hz.2, rfl⟩
    · rename_i hz
      rw [Bool.and_eq_true, eq_zero_iff, eq_zero_iff] at hz
      obtain ⟨st, _, ⟨es, hes, rfl⟩, rfl, rfl⟩ := h
      obtain ⟨a, b, c⟩ := fold_lists (st := ⟨actors, [], [], []⟩) hes
      refine .inr ⟨⟨t, dt, news es, deletes es, updates es⟩, es, ⟨?_, ?_, hz, rfl, rfl, rfl, _, rfl, hes⟩, ?_⟩
      · rw [← outOfRange_iff]; simpa using ht
      · rw [← outOfRange_iff]; simpa using hd
      · rw [a, b, c]; simp
  · rintro (⟨rfl, t, dt, ht, hd, rfl⟩ | ⟨f, es, ⟨ht, hd, hz, h1, h2, h3, j, rfl, hes⟩, rfl⟩)
    · refine ⟨t, _, rfl, ?_⟩
      have a := (outOfRange_iff t).2 (isZero_timeOk ht)
      have b := (outOfRange_iff dt).2 (isZero_timeOk hd)
      rw [if_neg (by rw [a]; decide)]
      refine ⟨dt, _, rfl, ?_⟩
      rw [if_neg (by rw [b]; decide), if_pos]
      · exact ⟨rfl, rfl⟩
      · rw [Bool.and_eq_true, eq_zero_iff, eq_zero_iff]; exact ⟨ht, hd⟩
    · have a := (outOfRange_iff f.time).2 ht
      have b := (outOfRange_iff f.delta).2 hd
      refine ⟨f.time, _, rfl, ?_⟩
      rw [if_neg (by rw [a]; decide)]
      refine ⟨f.delta, _, rfl, ?_⟩
      rw [if_neg (by rw [b]; decide), if_neg]
      · refine ⟨_, o, ⟨es, hes, rfl⟩, ?_, rfl⟩
        obtain ⟨a', b', c'⟩ := fold_lists (st := ⟨actors, [], [], []⟩) hes
        obtain ⟨ft, fd, fn, fdel, fu⟩ := f
        simp only at h1 h2 h3
        subst h1 h2 h3
        rw [a', b', c']
        simp
      · rw [Bool.and_eq_true, eq_zero_iff, eq_zero_iff]; exact hz

theorem isEmpty_spec {ε : Type} : BSpec N (isEmptyBM : BM ε Bool)
    (fun b i o => b = i.isEmpty ∧ i = o) where
  good env r hv hl := ⟨hv, List.suffix_refl _⟩
  okIff env r hv hl b o := by
    show (∃ r', BRes.ok _ r = BRes.ok b r' ∧ _) ↔ _
    constructor
    · rintro ⟨r', h, rfl⟩; cases h; exact ⟨rfl, rfl⟩
    · rintro ⟨rfl, h⟩; exact ⟨r, rfl, h⟩
  agn env env' r r' hv hv' hl he := by
    refine ⟨?_, he⟩
    unfold Reader.isEmpty
    rw [he]

theorem frameRel_length {n : Net} {A : AttrRel} {k : Known} {f : Frame} {es : List Event}
    {i o : Bits} (h : FrameRel n A k f es i o) : 65 ≤ i.length := by
  obtain ⟨_, _, _, _, _, _, j, rfl, he⟩ := h
  have := eventsRel_length he
  simp only [List.length_append, field_length]
  omega

theorem framesLoop_spec (d : FrameDecoder) (hw : d.Wf) (ad : AttrDecoder)
    (hp : ad.product.version = ad.version) (bitFuel : Nat) (hN : N < bitFuel) (fuel : Nat)
    (frames : List Frame) (hf : d.framesLen < fuel + frames.length)
    (hle : frames.length ≤ d.framesLen)
    (actors : SegArray (ObjectId × CacheInfo)) (ha : d.ActorsOk actors) :
    BSpec N (d.framesLoop ad bitFuel fuel frames actors) (fun fs' i o =>
      ∃ fs, FramesRel d.netOf (AttrAccepts ad.ctx) (d.framesLen - frames.length)
        (known actors) fs i o ∧ fs' = frames ++ fs) := by
  induction fuel generalizing frames actors with
  | zero => omega
  | succ fuel ih =>
    rw [framesLoop]
    refine (BSpec.bind' isEmpty_spec (R' := fun b fs' i o =>
      if (!b && decide (frames.length < d.framesLen)) = true then
        ∃ res j, FrameRes d (AttrAccepts ad.ctx) actors res i j ∧
          ((res = none ∧ fs' = frames ∧ j = o) ∨
           (∃ f as, d.ActorsOk as ∧ res = some (f, as) ∧
            ∃ fs, FramesRel d.netOf (AttrAccepts ad.ctx) (d.framesLen - (frames.length + 1))
              (known as) fs j o ∧ fs' = frames ++ [f] ++ fs))
      else fs' = frames ∧ i = o) fun b => ?_).congr ?_
    · by_cases hc : (!b && decide (frames.length < d.framesLen)) = true
      case neg => simp only [if_neg hc]; exact BSpec.pure _
      simp only [if_pos hc]
      rw [Bool.and_eq_true, decide_eq_true_iff] at hc
      refine (BSpec.bind ((decodeFrame_spec d hw ad hp bitFuel hN actors ha).mapErr _)
        (R' := fun res fs' j o => ((res = none ∧ fs' = frames ∧ j = o) ∨
           (∃ f as, d.ActorsOk as ∧ res = some (f, as) ∧
            ∃ fs, FramesRel d.netOf (AttrAccepts ad.ctx) (d.framesLen - (frames.length + 1))
              (known as) fs j o ∧ fs' = frames ++ [f] ++ fs))) ?_)
      intro res i j hi hr
      have hj : j.length ≤ N :=
        Nat.le_trans ((decodeFrame_spec d hw ad hp bitFuel hN actors ha).suffix hi hr).length_le hi
      rcases res with _ | ⟨f, as⟩
      · refine (BSpec.pure _).congr fun fs' i o _ => ?_
        simp
      · have hok : d.ActorsOk as := by
          rcases hr with ⟨h, _⟩ | ⟨f', es, hf', he⟩
          · cases h
          · cases he; exact fold_ok es ha
        refine ((ih (frames ++ [f]) (by simp; omega) (by simp; omega) as hok).mono hj).congr ?_
        intro fs' i o _
        rw [List.length_append, List.length_singleton]
        constructor
        · rintro ⟨fs, h1, h2⟩
          exact .inr ⟨f, as, hok, rfl, fs, h1, h2⟩
        · rintro (⟨h, _⟩ | ⟨f', as', _, h, fs, h1, h2⟩)
          · cases h
          · cases h; exact ⟨fs, h1, h2⟩
    · intro fs' i o _
      constructor
      · rintro ⟨b, j, ⟨rfl, rfl⟩, h⟩
        split at h
        · rename_i hc
          rw [Bool.and_eq_true, decide_eq_true_iff] at hc
          obtain ⟨n, hn⟩ : ∃ n, d.framesLen - frames.length = n + 1 :=
            ⟨d.framesLen - frames.length - 1, by omega⟩
          rw [hn]
          have hn' : d.framesLen - (frames.length + 1) = n := by omega
          rw [hn'] at h
          rcases h with ⟨res, k, hres, ⟨rfl, rfl, rfl⟩ | ⟨f, as, _, rfl, fs, hfs, rfl⟩⟩
          · rcases hres with ⟨_, t, dt, ht, hd, rfl⟩ | ⟨f, es, _, h⟩
            · exact ⟨[], .stop ht hd, by simp⟩
            · cases h
          · rcases hres with ⟨h, _⟩ | ⟨f', es, hf', h⟩
            · cases h
            · cases h
              refine ⟨f :: fs, .frame hf' ?_, by simp⟩
              obtain ⟨_, _, _, _, _, _, _, _, hes⟩ := hf'
              have := fold_known (st := ⟨actors, [], [], []⟩) ha hes
              rw [this] at hfs
              exact hfs
        · rename_i hc
          obtain ⟨rfl, rfl⟩ := h
          refine ⟨[], ?_, by simp⟩
          by_cases hz : i = []
          · subst hz; exact .empty
          · have : d.framesLen - fs'.length = 0 := by
              cases i with
              | nil => exact absurd rfl hz
              | cons => simp at hc; omega
            rw [this]
            exact .full
      · rintro ⟨fs, hfs, rfl⟩
        refine ⟨_, i, ⟨rfl, rfl⟩, ?_⟩
        generalize hm : d.framesLen - frames.length = m at hfs
        cases hfs with
        | full =>
          rw [if_neg (by simp; omega)]
          exact ⟨by simp, rfl⟩
        | empty =>
          rw [if_neg (by simp)]
          exact ⟨by simp, rfl⟩
        | @stop n _ t dt _ ht hd =>
          have he : (field 32 t ++ (field 32 dt ++ o)).isEmpty = false := by
            rw [List.isEmpty_eq_false_iff, ne_eq, List.append_eq_nil_iff]
            rintro ⟨h, _⟩
            have := field_length 32 t
            rw [h] at this; cases this
          rw [he, if_pos (by simp; omega)]
          exact ⟨none, o, .inl ⟨rfl, t, dt, ht, hd, rfl⟩, .inl ⟨rfl, by simp, rfl⟩⟩
        | @frame n _ f es fs _ j _ hf' hrest =>
          have he : i.isEmpty = false := by
            have := frameRel_length hf'
            cases i with
            | nil => simp at this
            | cons => rfl
          rw [he, if_pos (by simp; omega)]
          refine ⟨_, j, .inr ⟨f, es, hf', rfl⟩, .inr ⟨f, _, fold_ok es ha, rfl, fs, ?_, by simp⟩⟩
          obtain ⟨_, _, _, _, _, _, _, _, hes⟩ := hf'
          have := fold_known (st := ⟨actors, [], [], []⟩) ha hes
          rw [this]
          have hn' : d.framesLen - (frames.length + 1) = n := by omega
          rw [hn']
          exact hrest

theorem new_ok (d : FrameDecoder) : d.ActorsOk (SegArray.new 200) :=
  ⟨List.length_replicate, fun id obj c h => by rw [SegArray.get_new] at h; cases h⟩

theorem known_new : known (SegArray.new 200) = Known.none := by
  funext id; unfold known; rw [SegArray.get_new]; rfl

/-! ### All frames -/

theorem reader_new_length (data : List Byte) : (Reader.new data).bits.length = 8 * data.length := by
  unfold Reader.new
  induction data with
  | nil => rfl
  | cons b bs ih =>
    simp only [List.flatMap_cons, List.length_append, List.length_cons] at ih ⊢
    rw [ih]
    simp [byteBits]
    omega

theorem reader_new_valid (data : List Byte) : (Reader.new data).Valid :=
  ⟨Nat.zero_le _, Nat.zero_le _⟩

/-- The frame loop started by `decode_frames`. -/
def allFrames (d : FrameDecoder) : BM NetworkError (List Frame) :=
  d.framesLoop d.attrDecoder (8 * d.networkData.length + 1) (d.framesLen + 1) [] (SegArray.new 200)

theorem allFrames_spec (d : FrameDecoder) (hw : d.Wf) :
    BSpec (8 * d.networkData.length) d.allFrames
      (FramesRel d.netOf (AttrAccepts d.attrDecoder.ctx) d.framesLen Known.none) := by
  refine (framesLoop_spec d hw d.attrDecoder hw.product _ (Nat.lt_succ_self _) (d.framesLen + 1) []
    (by simp) (by simp) _ (new_ok d)).congr fun fs i o _ => ?_
  rw [known_new]
  simp

theorem _root_.Boxcars.BM.bind_fault {ε α β : Type} {m : BM ε α} {f : α → BM ε β} {env : Env}
    {r : Reader} {x : Fault} (h : m env r = .fault x) : (m >>= f) env r = .fault x := by
  show BM.bind m f env r = _
  unfold BM.bind
  rw [h]

theorem decodeFrames_run (d : FrameDecoder) (env : Env)
    (hcap : d.framesLen * env.frameSize ≤ env.isizeMax) (r : Reader) :
    Network.runBM env d.decodeFrames r = Network.runBM env d.allFrames r := by
  have e : d.decodeFrames = (reserveFrames d.framesLen >>= fun _ => d.allFrames >>= fun frames =>
      if d.version.ge 868 24 10 then
        BM.attempt readU32 >>= fun _ => pure frames
      else pure frames) := rfl
  rw [e]
  unfold Network.runBM
  rw [BM.bind_ok (show reserveFrames d.framesLen env r = .ok () r by
    unfold reserveFrames; rw [if_neg (by omega)])]
  cases h : d.allFrames env r with
  | ok fs r' =>
    rw [BM.bind_ok h]
    cases d.version.ge 868 24 10
    · rfl
    · simp only [if_true]
      have : ∃ x r'', (BM.attempt readU32 : BM NetworkError _) env r' = .ok x r'' := by
        unfold BM.attempt readU32 readBits
        simp only [Bind.bind, BM.bind]
        by_cases hc : 32 ≤ r'.bits.length
        · simp only [if_pos hc]; exact ⟨_, _, rfl⟩
        · simp only [if_neg hc]; exact ⟨_, _, rfl⟩
      obtain ⟨x, r'', hx⟩ := this
      rw [BM.bind_ok hx]
      rfl
  | err x r' => rw [BM.bind_err h]
  | fault x =>
    rw [BM.bind_fault h]

/-- `decode_frames` returns frames exactly if the data starts with their representation. -/
theorem decodeFrames_iff (d : FrameDecoder) (hw : d.Wf) (env : Env)
    (hcap : d.framesLen * env.frameSize ≤ env.isizeMax) (fs : List Frame) :
    Network.runBM env d.decodeFrames (Reader.new d.networkData) = .ok fs ↔
      ∃ o, FramesRel d.netOf (AttrAccepts d.attrDecoder.ctx) d.framesLen Known.none fs
        (Reader.new d.networkData).bits o := by
  rw [decodeFrames_run d env hcap]
  have hs := allFrames_spec d hw
  have h := hs.okIff env (Reader.new d.networkData) (reader_new_valid _)
    (by rw [reader_new_length]) fs
  unfold Network.runBM
  constructor
  · intro hr
    cases hm : d.allFrames env (Reader.new d.networkData) with
    | ok a r' =>
      rw [hm] at hr
      cases hr
      exact ⟨r'.bits, (h _).1 ⟨r', hm, rfl⟩⟩
    | err e r' => rw [hm] at hr; cases hr
    | fault x => rw [hm] at hr; cases hr
  · rintro ⟨o, ho⟩
    obtain ⟨r', hm, _⟩ := (h o).2 ho
    rw [hm]

/-- No fault, and the same result in every environment. -/
theorem decodeFrames_agn (d : FrameDecoder) (hw : d.Wf) (env env' : Env)
    (hcap : d.framesLen * env.frameSize ≤ env.isizeMax)
    (hcap' : d.framesLen * env'.frameSize ≤ env'.isizeMax) :
    Network.runBM env d.decodeFrames (Reader.new d.networkData) =
      Network.runBM env' d.decodeFrames (Reader.new d.networkData) ∧
    ∀ x, Network.runBM env d.decodeFrames (Reader.new d.networkData) ≠ .fault x := by
  rw [decodeFrames_run d env hcap, decodeFrames_run d env' hcap']
  have hs := allFrames_spec d hw
  have h := hs.agn env env' (Reader.new d.networkData) (Reader.new d.networkData)
    (reader_new_valid _) (reader_new_valid _) (by rw [reader_new_length]) rfl
  unfold Network.runBM
  revert h
  cases d.allFrames env (Reader.new d.networkData) <;>
  cases d.allFrames env' (Reader.new d.networkData) <;> intro h
  · exact ⟨by rw [h.1], by intro x hx; cases hx⟩
  all_goals first | exact h.elim | exact ⟨by rw [h.1], by intro x hx; cases hx⟩

end FrameDecoder
end Boxcars
