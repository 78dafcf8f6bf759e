import Verif.Proofs.FrameFail
import Verif.Proofs.NetworkSpec
/-!
# Failures of the frame loop and of network parsing
-/
namespace Boxcars
open Spec

/-! ### The reported actor table -/

theorem SegArray.canon_delete {ν : Type} {a : SegArray ν} (h : a.Canon) (k : I32) :
    (a.delete k).Canon := by
  have hc := fun x => SegArray.inArray_congr (SegArray.delete_length a k) x
  by_cases hk : a.inArray k = true
  · have e : a.delete k = a := by unfold SegArray.delete; rw [if_pos hk]
    rw [e]; exact h
  · have e : a.delete k = { a with map := a.map.remove k } := by
      unfold SegArray.delete; rw [if_neg hk]
    refine ⟨by rw [e]; exact h.sorted.filter _, fun x hx => ?_⟩
    rw [hc] at hx
    rw [e]
    simp only
    rw [HMap.get_remove, h.sep x hx]
    split <;> rfl

theorem entriesFrom_last {ν : Type} (xs : List (Option ν)) (i : Nat) (hi : i + xs.length ≤ 2 ^ 31)
    (x : I32) : lastOf (SegArray.entriesFrom i xs) x =
      if i ≤ x.toNat then (xs[x.toNat - i]?).getD none else none := by
  induction xs generalizing i with
  | nil => simp [SegArray.entriesFrom, lastOf]
  | cons y ys ih =>
    rw [List.length_cons] at hi
    have ih' := ih (i + 1) (by omega)
    have hx : x = i32OfNat i ↔ x.toNat = i := by
      constructor
      · rintro rfl; exact i32OfNat_toNat (by omega)
      · intro h; apply BitVec.eq_of_toNat_eq; rw [i32OfNat_toNat (by omega), h]
    have key : lastOf (SegArray.entriesFrom i (y :: ys)) x =
        (lastOf (SegArray.entriesFrom (i + 1) ys) x).orElse
          fun _ => if x = i32OfNat i then y else none := by
      cases y with
      | none =>
        show lastOf (SegArray.entriesFrom (i + 1) ys) x = _
        rw [ite_self]
        cases lastOf (SegArray.entriesFrom (i + 1) ys) x <;> rfl
      | some v =>
        show lastOf ((i32OfNat i, v) :: SegArray.entriesFrom (i + 1) ys) x = _
        rw [lastOf_cons]
    rw [key, ih']
    by_cases h1 : x.toNat = i
    · rw [if_neg (by omega), if_pos (hx.2 h1), if_pos (by omega), h1]
      simp
    · rw [if_neg (fun h => h1 (hx.1 h))]
      by_cases h2 : i + 1 ≤ x.toNat
      · rw [if_pos h2, if_pos (by omega)]
        obtain ⟨m, hm⟩ : ∃ m, x.toNat - i = m + 1 := ⟨x.toNat - i - 1, by omega⟩
        have hm' : x.toNat - (i + 1) = m := by omega
        rw [hm, hm', List.getElem?_cons_succ]
        cases (ys[m]?).getD none <;> rfl
      · rw [if_neg h2, if_neg (by omega)]
        rfl

theorem lastOf_comp {ν μ : Type} (f : ν → μ) (l : List (I32 × ν)) (x : I32) :
    lastOf (l.map fun p => (p.1, f p.2)) x = (lastOf l x).map f := by
  unfold lastOf
  rw [← List.map_reverse, List.find?_map, Option.map_map, Option.map_map]
  rfl

theorem HMap.mem_iff_get {ν : Type} {m : HMap ν} (h : m.Sorted) (x : I32) (v : ν) :
    (x, v) ∈ m ↔ m.get x = some v := by
  constructor
  · exact fun hm => HMap.get_of_mem h hm
  · intro hg
    unfold HMap.get at hg
    rw [List.lookup_eq_some_iff] at hg
    obtain ⟨a, b, rfl, _⟩ := hg
    simp

namespace FrameDecoder

theorem context_actors (d : FrameDecoder) (frames : List Frame) (st : FrameSt)
    (ha : d.ActorsOk st.actors) (hc : st.actors.Canon) :
    (d.context frames st).actors.Sorted ∧
    ∀ id, (d.context frames st).actors.get id = known st.actors id := by
  refine ⟨HMap.sorted_extend _ HMap.sorted_nil, fun id => ?_⟩
  show (HMap.extend [] _).get id = _
  rw [get_extend, lastOf_comp (fun q : ObjectId × CacheInfo => q.1), lastOf_append,
    lastOf_perm hc.sorted (List.Perm.refl _),
    entriesFrom_last _ _ (by rw [ha.length]; decide)]
  unfold known SegArray.get
  by_cases hi : st.actors.inArray id = true
  · rw [if_pos hi, hc.sep id hi, if_pos (Nat.zero_le _)]
    simp only [Nat.sub_zero, Option.orElse_none, HMap.get_nil]
    cases (st.actors.array[id.toNat]?).getD none <;> rfl
  · rw [if_neg hi, if_pos (Nat.zero_le _)]
    have : st.actors.array[id.toNat - 0]? = none := by
      rw [SegArray.inArray_iff _ (by rw [ha.length]; decide)] at hi
      rw [List.getElem?_eq_none_iff]
      omega
    rw [this]
    simp only [Option.getD_none, HMap.get_nil]
    cases st.actors.map.get id <;> rfl

theorem applyEvent_canon {d : FrameDecoder} {st : FrameSt} (h : st.actors.Canon) (e : Event) :
    (d.applyEvent st e).actors.Canon := by
  cases e with
  | new a =>
    rcases hc : nth d.objectIndAttributes a.objectId with _ | _ | c
    · unfold applyEvent; simp only [hc]; exact h
    · unfold applyEvent; simp only [hc]; exact h
    · rw [applyEvent_new hc]; exact SegArray.canon_insert h _ _
  | delete x => exact SegArray.canon_delete h x
  | update x us => exact h

theorem fold_canon {d : FrameDecoder} (es : List Event) {st : FrameSt} (h : st.actors.Canon) :
    (es.foldl d.applyEvent st).actors.Canon := by
  induction es generalizing st with
  | nil => exact h
  | cons e es ih => exact ih (applyEvent_canon h e)

/-! ### The state after the records of a failing frame -/

theorem failFold {d : FrameDecoder} {A : AttrRel} {X : AttrFail} {es : List Event}
    {us : List UpdatedAttribute} {e : FrameError} {st : FrameSt} {i : Bits}
    (h : d.ActorsOk st.actors) (hf : EventsFail d.netOf A X (known st.actors) es us e i) :
    known (es.foldl d.applyEvent st).actors = (known st.actors).afterAll d.netOf es ∧
    (es.foldl d.applyEvent st).newActors = st.newActors ++ news es ∧
    (es.foldl d.applyEvent st).updated = st.updated ++ updates es := by
  induction es generalizing st i with
  | nil => exact ⟨rfl, by simp [news], by simp [updates]⟩
  | cons ev es ih =>
    cases hf with
    | next _ h1 h2 =>
      rw [← known_applyEvent h h1] at h2
      obtain ⟨a, b, c⟩ := ih (applyEvent_ok h ev) h2
      rw [List.foldl_cons]
      refine ⟨?_, ?_, ?_⟩
      · rw [a, known_applyEvent h h1]; rfl
      · rw [b]
        cases h1 with
        | new hin hn hc =>
          obtain ⟨ci, hci, _⟩ := cls_eq_some.1 hc
          rw [applyEvent_new hci]; simp [news]
        | delete => simp [news, applyEvent]
        | update => simp [news, applyEvent]
      · rw [c]
        cases h1 with
        | new hin hn hc =>
          obtain ⟨ci, hci, _⟩ := cls_eq_some.1 hc
          rw [applyEvent_new hci]; simp [updates]
        | delete => simp [updates, applyEvent]
        | update => simp [updates, applyEvent]

theorem frameFail_fold {d : FrameDecoder} {A : AttrRel} {X : AttrFail} {es : List Event}
    {us : List UpdatedAttribute} {e : FrameError} {st : FrameSt} {i : Bits}
    (h : d.ActorsOk st.actors) (hf : FrameFail d.netOf A X (known st.actors) es us e i) :
    known (es.foldl d.applyEvent st).actors = (known st.actors).afterAll d.netOf es ∧
    (es.foldl d.applyEvent st).newActors = st.newActors ++ news es ∧
    (es.foldl d.applyEvent st).updated = st.updated ++ updates es := by
  cases hf with
  | records _ _ _ hf => exact failFold h hf
  | _ => exact ⟨rfl, by simp [news], by simp [updates]⟩

/-- The context the frame decoder reports. -/
structure Ctx (d : FrameDecoder) (fs : List Frame) (k : Known) (es : List Event)
    (us : List UpdatedAttribute) (ctx : FrameContext) : Prop where
  of : ContextOf d.netOf d.objects fs k es us ctx
  attributes : ctx.objectAttributes = d.objectIndAttributes

theorem ctx_unique {d : FrameDecoder} {fs : List Frame} {k : Known} {es : List Event}
    {us : List UpdatedAttribute} {c c' : FrameContext} (h : Ctx d fs k es us c)
    (h' : Ctx d fs k es us c') : c = c' := by
  obtain ⟨⟨a1, a2, a3, a4, a5, a6⟩, a7⟩ := h
  obtain ⟨⟨b1, b2, b3, b4, b5, b6⟩, b7⟩ := h'
  obtain ⟨c1, c2, c3, c4, c5, c6⟩ := c
  obtain ⟨d1, d2, d3, d4, d5, d6⟩ := c'
  simp only at *
  subst a1 a2 a3 a4 a7
  have : c4 = d4 := by
    apply HMap.ext a5 b5
    intro x
    apply Option.ext
    intro v
    rw [← HMap.mem_iff_get a5, ← HMap.mem_iff_get b5, a6, b6]
  subst this b1 b2 b3 b4 b7
  rfl

theorem ctx_of_fail {d : FrameDecoder} {A : AttrRel} {X : AttrFail} {frames : List Frame}
    {es : List Event} {us : List UpdatedAttribute} {e : FrameError}
    {actors : SegArray (ObjectId × CacheInfo)} {i : Bits}
    (ha : d.ActorsOk actors) (hc : actors.Canon)
    (hf : FrameFail d.netOf A X (known actors) es us e i) :
    Ctx d frames (known actors) es us (d.context frames
      { es.foldl d.applyEvent ⟨actors, [], [], []⟩ with
        updated := (es.foldl d.applyEvent ⟨actors, [], [], []⟩).updated ++ us }) := by
  obtain ⟨h1, h2, h3⟩ := frameFail_fold (st := ⟨actors, [], [], []⟩) ha hf
  obtain ⟨h4, h5⟩ := context_actors d frames
    { es.foldl d.applyEvent ⟨actors, [], [], []⟩ with
        updated := (es.foldl d.applyEvent ⟨actors, [], [], []⟩).updated ++ us }
    (fold_ok es ha) (fold_canon es hc)
  refine ⟨⟨rfl, rfl, ?_, ?_, h4, fun id obj => ?_⟩, rfl⟩
  · show (es.foldl d.applyEvent ⟨actors, [], [], []⟩).newActors = _
    rw [h2]; simp
  · show (es.foldl d.applyEvent ⟨actors, [], [], []⟩).updated ++ us = _
    rw [h3]; simp
  · rw [HMap.mem_iff_get h4, h5]
    simp only
    rw [h1]

theorem ctx_exists_from {d : FrameDecoder} {A : AttrRel} {X : AttrFail} {limit : Nat} {kn k : Known}
    {fs : List Frame} {es : List Event} {us : List UpdatedAttribute} {e : FrameError} {i : Bits}
    (hf : FramesFail d.netOf A X limit kn fs k es us e i)
    {actors : SegArray (ObjectId × CacheInfo)} (hk : known actors = kn)
    (ha : d.ActorsOk actors) (hc : actors.Canon) (frames : List Frame) :
    ∃ ctx, Ctx d (frames ++ fs) k es us ctx := by
  induction hf generalizing actors frames with
  | here h1 h2 =>
    subst hk
    rw [List.append_nil]
    exact ⟨_, ctx_of_fail ha hc h2⟩
  | @next limit kn f evs fs k es us e i j h1 h2 ih =>
    subst hk
    obtain ⟨_, _, _, _, _, _, _, _, hes⟩ := h1
    have := fold_known (st := ⟨actors, [], [], []⟩) ha hes
    obtain ⟨ctx, h3⟩ := ih this (fold_ok evs ha) (fold_canon evs hc) (frames ++ [f])
    exact ⟨ctx, by simpa using h3⟩

theorem ctx_exists {d : FrameDecoder} {A : AttrRel} {X : AttrFail} {limit : Nat} {k : Known}
    {fs : List Frame} {es : List Event} {us : List UpdatedAttribute} {e : FrameError} {i : Bits}
    (hf : FramesFail d.netOf A X limit Known.none fs k es us e i) :
    ∃ ctx, Ctx d fs k es us ctx :=
  ctx_exists_from hf known_new (new_ok d) (SegArray.canon_new _) []

/-! ### The frame loop -/

theorem isEmpty_espec {ε : Type} {N : Nat} : ESpec N (isEmptyBM : BM ε Bool) (fun _ _ => False) :=
  ESpec.never fun env r e r' h => by cases h

/-- What an error of the frame loop says. -/
def LoopFail (d : FrameDecoder) (ad : AttrDecoder) (frames : List Frame)
    (actors : SegArray (ObjectId × CacheInfo)) (x : NetworkError) (i : Bits) : Prop :=
  ∃ fs k es us e ctx, FramesFail d.netOf (AttrAccepts ad.ctx) (attrFail ad)
    (d.framesLen - frames.length) (known actors) fs k es us e i ∧
    x = .frameError e ctx ∧ Ctx d (frames ++ fs) k es us ctx

theorem framesLoop_espec {N : Nat} (d : FrameDecoder) (hw : d.Wf) (ad : AttrDecoder)
    (hp : ad.product.version = ad.version) (bitFuel : Nat) (hN : N < bitFuel) (fuel : Nat)
    (frames : List Frame) (hf : d.framesLen < fuel + frames.length)
    (hle : frames.length ≤ d.framesLen)
    (actors : SegArray (ObjectId × CacheInfo)) (ha : d.ActorsOk actors) (hc : actors.Canon) :
    ESpec N (d.framesLoop ad bitFuel fuel frames actors) (LoopFail d ad frames actors) := by
  induction fuel generalizing N frames actors with
  | zero => omega
  | succ fuel ih =>
    rw [framesLoop]
    have hd := decodeFrame_spec d hw ad hp bitFuel hN actors ha
    refine (ESpec.bind' isEmpty_spec isEmpty_espec (E' := fun b x i =>
      (!b && decide (frames.length < d.framesLen)) = true ∧
      ((∃ p : FrameError × FrameSt, (∃ es us,
        FrameFail d.netOf (AttrAccepts ad.ctx) (attrFail ad) (known actors) es us p.1 i ∧
        p.2 = { es.foldl d.applyEvent ⟨actors, [], [], []⟩ with
          updated := (es.foldl d.applyEvent ⟨actors, [], [], []⟩).updated ++ us }) ∧
        x = NetworkError.frameError p.1 (d.context frames p.2)) ∨
       ∃ f es j, FrameRel d.netOf (AttrAccepts ad.ctx) (known actors) f es i j ∧
         LoopFail d ad (frames ++ [f]) (es.foldl d.applyEvent ⟨actors, [], [], []⟩).actors x j))
      fun b => ?_).congr ?_
    · by_cases hcnd : (!b && decide (frames.length < d.framesLen)) = true
      case neg =>
        simp only [if_neg hcnd]
        refine (ESpec.pure _).congr fun _ _ _ => ?_
        constructor
        · exact False.elim
        · exact fun h => absurd h.1 hcnd
      simp only [if_pos hcnd]
      refine (ESpec.bind (hd.mapErr _)
        ((decodeFrame_espec d hw ad hp bitFuel hN actors ha).mapErr _)
        (E' := fun res x j => ∃ f as, res = some (f, as) ∧ LoopFail d ad (frames ++ [f]) as x j)
        ?_).congr ?_
      · intro res i j hi hr
        have hj : j.length ≤ N := Nat.le_trans (hd.suffix hi hr).length_le hi
        rcases res with _ | ⟨f, as⟩
        · refine (ESpec.pure _).congr fun fs' i _ => ?_
          simp
        · have hok : d.ActorsOk as ∧ as.Canon := by
            rcases hr with ⟨h, _⟩ | ⟨f', es, hf', he⟩
            · cases h
            · cases he; exact ⟨fold_ok es ha, fold_canon es hc⟩
          rw [Bool.and_eq_true, decide_eq_true_iff] at hcnd
          refine ((ih hN (frames ++ [f]) (by simp; omega) (by simp; omega) as hok.1 hok.2).mono
            hj).congr ?_
          intro x i _
          simp
      · intro x i _
        constructor
        · rintro (h | ⟨res, j, hr, f, as, rfl, h⟩)
          · exact ⟨hcnd, .inl h⟩
          · rcases hr with ⟨h', _⟩ | ⟨f', es, hf', he⟩
            · cases h'
            · cases he; exact ⟨hcnd, .inr ⟨f, es, j, hf', h⟩⟩
        · rintro ⟨_, h | ⟨f, es, j, hf', h⟩⟩
          · exact .inl h
          · exact .inr ⟨_, j, .inr ⟨f, es, hf', rfl⟩, f, _, rfl, h⟩
    · intro x i _
      constructor
      · rintro (h | ⟨b, j, ⟨rfl, rfl⟩, hcnd, h⟩)
        · exact h.elim
        · rw [Bool.and_eq_true, decide_eq_true_iff] at hcnd
          obtain ⟨n, hn⟩ : ∃ n, d.framesLen - frames.length = n + 1 :=
            ⟨d.framesLen - frames.length - 1, by omega⟩
          unfold LoopFail
          rw [hn]
          rcases h with ⟨⟨e, st'⟩, ⟨es, us, h1, h2⟩, rfl⟩ | ⟨f, es, j, hf', fs, k, es', us, e, ctx, h1, h2, h3⟩
          · simp only at h1 h2
            subst h2
            refine ⟨[], _, es, us, e, _, .here ?_ h1, rfl, ?_⟩
            · rintro rfl; simp at hcnd
            · rw [List.append_nil]
              exact ctx_of_fail ha hc h1
          · have hn' : d.framesLen - (frames ++ [f]).length = n := by simp; omega
            rw [hn'] at h1
            have hf'' := hf'
            obtain ⟨_, _, _, _, _, _, _, _, hes⟩ := hf''
            have := fold_known (st := ⟨actors, [], [], []⟩) ha hes
            rw [this] at h1
            exact ⟨f :: fs, k, es', us, e, ctx, .next hf' h1, h2, by simpa using h3⟩
      · rintro ⟨fs, k, es, us, e, ctx, h1, rfl, h3⟩
        refine .inr ⟨_, i, ⟨rfl, rfl⟩, ?_⟩
        generalize hm : d.framesLen - frames.length = m at h1
        cases h1 with
        | @here n _ es us e _ hne h1 =>
          refine ⟨?_, .inl ⟨(e, _), ⟨es, us, h1, rfl⟩, ?_⟩⟩
          · cases i with
            | nil => exact absurd rfl hne
            | cons => simp; omega
          · rw [List.append_nil] at h3
            rw [ctx_unique h3 (ctx_of_fail ha hc h1)]
        | @next n _ f evs fs k es us e _ j hf' h1 =>
          refine ⟨?_, .inr ⟨f, evs, j, hf', fs, k, es, us, e, ctx, ?_, rfl, by simpa using h3⟩⟩
          · have := frameRel_length hf'
            cases i with
            | nil => simp at this
            | cons => simp; omega
          · obtain ⟨_, _, _, _, _, _, _, _, hes⟩ := hf'
            have := fold_known (st := ⟨actors, [], [], []⟩) ha hes
            rw [this]
            have hn' : d.framesLen - (frames ++ [f]).length = n := by simp; omega
            rw [hn']
            exact h1

/-- `decode_frames` fails exactly on the streams that break off, with the error and the
context described. -/
theorem decodeFrames_err_iff (d : FrameDecoder) (hw : d.Wf) (env : Env)
    (hcap : d.framesLen * env.frameSize ≤ env.isizeMax) (x : NetworkError) :
    Network.runBM env d.decodeFrames (Reader.new d.networkData) = .err x ↔
      ∃ fs k es us e ctx, FramesFail d.netOf (AttrAccepts d.attrDecoder.ctx)
        (attrFail d.attrDecoder) d.framesLen Known.none fs k es us e
        (Reader.new d.networkData).bits ∧
        x = .frameError e ctx ∧ Ctx d fs k es us ctx := by
  rw [decodeFrames_run d env hcap]
  have hs := framesLoop_espec d hw d.attrDecoder hw.product (8 * d.networkData.length + 1)
    (Nat.lt_succ_self _) (d.framesLen + 1) [] (by simp) (by simp) _ (new_ok d) (SegArray.canon_new _)
  have h := hs env (Reader.new d.networkData) (reader_new_valid _) (by rw [reader_new_length]) x
  unfold LoopFail at h
  rw [known_new] at h
  simp only [List.length_nil, Nat.sub_zero, List.nil_append] at h
  rw [← h]
  show Network.runBM env d.allFrames _ = _ ↔ ∃ r', d.allFrames env _ = _
  unfold Network.runBM
  cases d.allFrames env (Reader.new d.networkData) <;> simp

end FrameDecoder
end Boxcars
