import Verif.Proofs.CacheTable
import Verif.Proofs.FramesSpec
import Verif.Spec.Network
/-!
# `network::parse` accepts exactly `Spec.NetworkOf`
-/
namespace Boxcars
open Spec Network

/-! ### Limits -/

theorem foldMax (x : Int) (xs : List Int) :
    xs.foldl max x ∈ x :: xs ∧ ∀ y ∈ x :: xs, y ≤ xs.foldl max x := by
  induction xs generalizing x with
  | nil => simp
  | cons z zs ih =>
    obtain ⟨h1, h2⟩ := ih (max x z)
    rw [List.foldl_cons]
    constructor
    · rcases List.mem_cons.1 h1 with h1 | h1
      · rw [h1]
        by_cases hxz : x ≤ z
        · rw [Int.max_eq_right hxz]; simp
        · rw [Int.max_eq_left (by omega)]; simp
      · simp [h1]
    · intro y hy
      have := h2 (max x z) List.mem_cons_self
      rcases List.mem_cons.1 hy with rfl | hy
      · omega
      · rcases List.mem_cons.1 hy with rfl | hy
        · omega
        · exact h2 y (List.mem_cons_of_mem _ hy)

theorem HMap.mem_of_get {ν : Type} {m : HMap ν} {k : I32} {v : ν} (h : m.get k = some v) :
    (k, v) ∈ m := by
  induction m with
  | nil => cases h
  | cons p m ih =>
    obtain ⟨k', v'⟩ := p
    rw [HMap.get_cons] at h
    split at h
    · rename_i he; cases h; subst he; exact List.mem_cons_self
    · exact List.mem_cons_of_mem _ (ih h)

theorem ofInt_small {m : Int} (h1 : -2147483648 ≤ m) (h2 : m ≤ 2147483647) :
    (BitVec.ofInt 32 m).toInt = m := by
  rw [BitVec.toInt_ofInt]
  apply Int.bmod_eq_of_le <;> omega

theorem i32_bounds (x : I32) : -2147483648 ≤ x.toInt ∧ x.toInt ≤ 2147483647 := by
  have h1 := BitVec.le_toInt x
  have h2 := BitVec.toInt_le (x := x)
  simp at h1 h2
  omega

theorem maxProp_limit {t : HMap ObjectAttribute} (ht : t.Sorted) :
    IsLimit (fun s => t.get s ≠ none) (maxProp t).toInt := by
  unfold maxProp
  cases t with
  | nil => left; exact ⟨fun s h => h rfl, by decide⟩
  | cons p t =>
    right
    simp only [List.map_cons]
    obtain ⟨h1, h2⟩ := foldMax p.1.toInt (t.map fun p => p.1.toInt)
    rw [← List.map_cons (f := fun p : I32 × ObjectAttribute => p.1.toInt)] at h1 h2
    obtain ⟨q, hq, he⟩ := List.mem_map.1 h1
    have hb := i32_bounds q.1
    refine ⟨q.1, ?_, ?_, ?_⟩
    · rw [HMap.get_of_mem ht hq]; simp
    · intro s hs
      obtain ⟨v, hv⟩ := Option.ne_none_iff_exists'.1 hs
      have := h2 _ (List.mem_map.2 ⟨_, HMap.mem_of_get hv, rfl⟩)
      simp only at he this
      omega
    · rw [← he, ofInt_small (by omega) (by omega)]
      rfl

theorem u64_bits_neg {x : I32} (h : x.toInt < 0) : Nat.max (bitWidth (u64OfI32 x)) 1 - 1 = 63 := by
  have hb := (i32_bounds x).1
  rw [bitWidth_log2]
  unfold u64OfI32
  rw [if_pos h]
  have : (2 ^ 64 - x.toInt.natAbs).log2 = 63 := by
    rw [Nat.log2_eq_iff (by omega)]
    omega
  rw [this]

theorem cacheInfo_ok (env : Env) {t : HMap ObjectAttribute} (ht : t.Sorted) :
    (cacheInfo env t).Ok := by
  have hlim := maxProp_limit ht
  unfold CacheInfo.Ok
  rw [cacheInfo_get env ht]
  show (0 ≤ (maxProp t).toInt ∧ Nat.max (bitWidth (u64OfI32 (maxProp t))) 1 - 1 =
      (maxProp t).toNat.log2 ∧ _) ∨ (_ ∧ 63 ≤ Nat.max (bitWidth (u64OfI32 (maxProp t))) 1 - 1)
  by_cases hneg : (maxProp t).toInt < 0
  · right
    exact ⟨hneg, by rw [u64_bits_neg hneg]⟩
  · left
    refine ⟨by omega, ?_, ?_⟩
    · rw [bitWidth_log2]
      unfold u64OfI32
      rw [if_neg hneg, Nat.add_sub_cancel]
    · intro h0
      have h0 : (maxProp t).toInt = 0 := h0
      cases hg : t.get 0#32 with
      | none => rfl
      | some v =>
        exfalso
        rcases hlim with ⟨hn, _⟩ | ⟨s, _, hs, hm⟩
        · exact hn 0#32 (by simp only [hg]; simp)
        · have := hs 0#32 (by simp only [hg]; simp)
          have : (0#32 : I32).toInt = 0 := rfl
          omega

/-! ### Header lookups -/

theorem headerInt_eq (h : Header) :
    headerInt h "NumFrames" = h.numFrames ∧ headerInt h "MaxChannels" = h.maxChannels := by
  constructor
  · unfold headerInt Header.numFrames Header.findProp lit
    cases h.properties.find? (fun p => p.1 == "NumFrames".toList) with
    | none => rfl
    | some p => obtain ⟨k, v⟩ := p; cases v <;> rfl
  · unfold headerInt Header.maxChannels Header.findProp lit
    cases h.properties.find? (fun p => p.1 == "MaxChannels".toList) with
    | none => rfl
    | some p => obtain ⟨k, v⟩ := p; cases v <;> rfl

theorem headerStr_eq (h : Header) :
    headerStr h "MatchType" = h.matchType ∧ headerStr h "BuildVersion" = h.buildVersion := by
  constructor
  · unfold headerStr Header.matchType Header.findProp lit
    cases h.properties.find? (fun p => p.1 == "MatchType".toList) with
    | none => rfl
    | some p => obtain ⟨k, v⟩ := p; cases v <;> rfl
  · unfold headerStr Header.buildVersion Header.findProp lit
    cases h.properties.find? (fun p => p.1 == "BuildVersion".toList) with
    | none => rfl
    | some p => obtain ⟨k, v⟩ := p; cases v <;> rfl

theorem strGe_iff (x y : Str) : strGe x y = true ↔ y ≤ x := by
  induction x generalizing y with
  | nil => cases y <;> simp [strGe]
  | cons a as ih =>
    cases y with
    | nil => simp [strGe]
    | cons b bs =>
      rw [strGe]
      by_cases he : a = b
      · subst he
        rw [if_pos rfl, ih, List.cons_le_cons_iff]
        simp [Char.lt_irrefl]
      · rw [if_neg he, List.cons_le_cons_iff]
        simp only [decide_eq_true_eq]
        constructor
        · intro h; left; exact h
        · rintro (h | ⟨h, _⟩)
          · exact h
          · exact absurd h.symm he

theorem objectNamed_eq (objects : List Str) (k : String) :
    (byName objects (lit k)).getD 0#32 = objectNamed objects k := by
  rw [byName_eq]
  unfold objectNamed lit
  cases position objects k.toList <;> rfl

theorem bytes_new (data : List Byte) : (Reader.new data).bits = bytes data := by
  unfold Reader.new bytes
  simp only
  congr 1

/-! ### Parameters of the stream -/

/-- The decoder made for a header and a body. -/
def decoderFor (env : Env) (h : Header) (body : ReplayBody) (k : Nat) (d : FrameDecoder) : Prop :=
  ∃ spawns caches, (spawnTable env body.objects : Res NetworkError _) = .ok spawns ∧
    cacheTable env body.objects body.netCache = .ok caches ∧
    d = frameDecoder h body k spawns caches

theorem ctx_of (h : Header) (body : ReplayBody) (k : Nat) (spawns caches) :
    CtxOf h body (frameDecoder h body k spawns caches).attrDecoder.ctx where
  major := rfl
  minor := rfl
  net := rfl
  color := objectNamed_eq _ _
  painted := objectNamed_eq _ _
  titleId := objectNamed_eq _ _
  special := objectNamed_eq _ _
  team := objectNamed_eq _ _
  rl223 := by
    show isRl223 h = true ↔ _
    rw [(headerStr_eq h).2]
    unfold isRl223
    cases h.buildVersion with
    | none => simp
    | some x => simp only [strGe_iff, Option.some.injEq, exists_eq_left']

theorem nth_eq_some {α : Type} {xs : List α} (hl : xs.length ≤ 2 ^ 31) {o : I32} {a : α} :
    nth xs o = some a ↔ xs[o.toNat]? = some a := by
  have hd := Env.default64
  rw [← nth_eq Env.default64 hl]
  by_cases h : 0 ≤ o.toInt
  · rw [usizeOfI32_nonneg _ h]
  · have h1 := usizeOfI32_neg Env.default64 (x := o) (by omega)
    have h2 : 2 ^ 31 ≤ o.toNat := by
      rw [BitVec.toInt_eq_toNat_cond] at h
      split at h <;> omega
    rw [List.getElem?_eq_none (by omega), List.getElem?_eq_none (by omega)]

/-- A class is determined by its table. -/
theorem isLimit_unique {decl : StreamId → Prop} {m m' : Int} (h : IsLimit decl m)
    (h' : IsLimit decl m') : m = m' := by
  rcases h with ⟨h1, h2⟩ | ⟨s, h1, h2, h3⟩
  · rcases h' with ⟨_, k2⟩ | ⟨s', k1, _, _⟩
    · rw [h2, k2]
    · exact absurd k1 (h1 s')
  · rcases h' with ⟨k1, _⟩ | ⟨s', k1, k2, k3⟩
    · exact absurd h1 (k1 s)
    · have := h2 _ k1
      have := k2 _ h1
      rw [h3, k3]
      omega

theorem firstAt_unique {objects : List Str} {n m : Str} {i : Nat} (h : FirstAt objects n i)
    (h' : FirstAt objects m i) : n = m := by
  have := h.1
  rw [h'.1] at this
  cases this; rfl

theorem classOf_unique {body : ReplayBody} {o : ObjectId} {c c' : ClassDef}
    (h : ClassOf body o c) (h' : ClassOf body o c') : c = c' := by
  obtain ⟨n, ns, h1, h2, h3, h4, h5⟩ := h
  obtain ⟨n', ns', k1, k2, k3, k4, k5⟩ := h'
  cases firstAt_unique h1 k1
  cases lineage_unique h2 k2
  obtain ⟨l, a⟩ := c
  obtain ⟨l', a'⟩ := c'
  have : a = a' := by funext s; exact (h4 s).trans (k4 s).symm
  subst this
  have : l = l' := isLimit_unique h5 k5
  rw [this]

theorem spawnOf_unique {body : ReplayBody} {o : ObjectId} {c c' : SpawnTrajectory}
    (h : SpawnOf body o c) (h' : SpawnOf body o c') : c = c' := by
  obtain ⟨n, h1, h2⟩ := h
  obtain ⟨n', k1, k2⟩ := h'
  rw [h1] at k1
  cases k1
  rcases h2 with ⟨h2, ns, h3, h4⟩ | ⟨h2, h3⟩ <;> rcases k2 with ⟨k2, ms, k3, k4⟩ | ⟨k2, k3⟩
  · cases lineage_unique h3 k3; rw [h4, k4]
  · exact absurd h2 k2
  · exact absurd k2 h2
  · rw [h3, k3]

theorem ctxOf_unique {h : Header} {body : ReplayBody} {c c' : Ctx} (h1 : CtxOf h body c)
    (h2 : CtxOf h body c') : c = c' := by
  have hr : c.rl223 = c'.rl223 := by
    rw [Bool.eq_iff_iff, h1.rl223, h2.rl223]
  obtain ⟨a1, a2, a3, a4, a5, a6, a7, a8, _⟩ := h1
  obtain ⟨b1, b2, b3, b4, b5, b6, b7, b8, _⟩ := h2
  cases c
  cases c'
  simp only at *
  subst a1 a2 a3 a4 a5 a6 a7 a8 hr
  subst b1 b2 b3 b4 b5 b6 b7 b8
  rfl

theorem netOf_unique {h : Header} {body : ReplayBody} {c : Ctx} {n n' : Net}
    (h1 : NetOf h body c n) (h2 : NetOf h body c n') : n = n' := by
  have hn : n.named = n'.named := by
    rw [Bool.eq_iff_iff, h1.named, h2.named]
  have hs : n.spawn = n'.spawn := by
    funext o
    apply Option.ext
    intro sp
    rw [h1.spawn, h2.spawn]
  have hc : n.cls = n'.cls := by
    funext o
    apply Option.ext
    intro sp
    rw [h1.cls, h2.cls]
  have a1 := h1.net
  have a2 := h2.net
  have b1 := h1.channels
  have b2 := h2.channels
  have c1 := h1.sticky
  have c2 := h2.sticky
  cases n
  cases n'
  simp only at *
  subst a1 b1 c1 a2 b2 c2 hn hs hc
  rfl

/-- The decoder's tables: well formed and as described. -/
theorem frameDecoder_of (env : Env) (h : Header) (body : ReplayBody) (k : Nat)
    (hl : body.objects.length ≤ 2 ^ 31) {spawns caches}
    (hs : (spawnTable env body.objects : Res NetworkError _) = .ok spawns)
    (hr : InRange body.objects body.netCache)
    (hc : cacheTable env body.objects body.netCache = .ok caches) :
    (frameDecoder h body k spawns caches).Wf ∧
    NetOf h body (frameDecoder h body k spawns caches).attrDecoder.ctx
      (frameDecoder h body k spawns caches).netOf := by
  obtain ⟨sp, s1, s2, s3, s4⟩ := spawnTable_run (ε := NetworkError) env body.objects hl
  rw [hs] at s1
  cases s1
  obtain ⟨ca, c1, c2, c3, c4⟩ := cacheTable_run env body.objects hl body.netCache hr
  rw [hc] at c1
  cases c1
  have hla : caches.length ≤ 2 ^ 31 := by omega
  have hlb : (spawns.map (fun x => x.getD .none)).length ≤ 2 ^ 31 := by simp; omega
  have hlt : ∀ {α : Type} {xs : List α} {i : Nat} {a : α}, xs[i]? = some a → i < xs.length :=
    fun h => (List.getElem?_eq_some_iff.1 h).1
  have hcls : ∀ o ci, nth caches o = some (some ci) → ∃ n ns t, FirstAt body.objects n o.toNat ∧
      Lineage n ns ∧ ns ≠ [] ∧ t.Sorted ∧ (∀ s, t.get s =
        (inherited body.objects body.netCache ns s).map
          fun p => (⟨attrType body.objects p.objectInd, p.objectInd⟩ : ObjectAttribute)) ∧
      ci = cacheInfo env t := by
    intro o ci ho
    rw [nth_eq_some hla] at ho
    have hi := hlt ho
    rw [c2] at hi
    obtain ⟨n, hn⟩ : ∃ n, body.objects[o.toNat]? = some n :=
      ⟨_, List.getElem?_eq_getElem hi⟩
    by_cases hc : FirstAt body.objects n o.toNat ∧ parentOf n ≠ none
    · obtain ⟨ns, hlin, _⟩ := lineage_exists n
      have hne : ns ≠ [] := by
        cases hlin with
        | root h => exact absurd h hc.2
        | step => simp
      obtain ⟨t, t1, t2, t3⟩ := c4 _ n ns hc.1 hlin hne
      rw [t3] at ho
      cases ho
      exact ⟨n, ns, t, hc.1, hlin, hne, t1, t2, rfl⟩
    · rw [c3 _ n hn hc] at ho
      cases ho
  refine ⟨⟨hlb, hla, ?_, ?_, rfl⟩, ⟨rfl, ?_, ?_, rfl, ?_, ?_⟩⟩
  · show bitWidth (maxChannels h).toNat - 1 = (maxChannels h).toNat.log2
    unfold bitWidth
    split
    · rename_i h0; rw [h0]; rfl
    · omega
  · intro o ci ho
    obtain ⟨n, ns, t, _, _, _, t1, _, rfl⟩ := hcls o ci ho
    exact cacheInfo_ok env t1
  · show (maxChannels h).toNat = _
    rw [(headerInt_eq h).2]; rfl
  · show FrameDecoder.doParseName _ = true ↔ _
    rw [(headerStr_eq h).1]
    unfold FrameDecoder.doParseName
    rw [Bool.or_eq_true, Bool.and_eq_true]
    have hg := fun a b c => ge_iff (frameDecoder h body k spawns caches).attrDecoder a b c
    have hv : (frameDecoder h body k spawns caches).attrDecoder.version =
      (frameDecoder h body k spawns caches).version := rfl
    rw [hv] at hg
    rw [hg, hg]
    have : (!(frameDecoder h body k spawns caches).isLan) = true ↔
        h.matchType ≠ some "Lan".toList := by
      show (!(isLan h)) = true ↔ _
      unfold isLan lit
      cases h.matchType with
      | none => simp
      | some x => simp
    rw [this]
  · intro o sp
    show nth (spawns.map (fun x => x.getD .none)) o = some sp ↔ _
    rw [nth_eq_some hlb]
    have fwd : ∀ sp, (spawns.map (fun x => x.getD .none))[o.toNat]? = some sp → SpawnOf body o sp := by
      intro sp hsp
      have hi := hlt hsp
      rw [List.length_map, s2] at hi
      obtain ⟨n, hn⟩ : ∃ n, body.objects[o.toNat]? = some n := ⟨_, List.getElem?_eq_getElem hi⟩
      refine ⟨n, hn, ?_⟩
      by_cases hf : FirstAt body.objects n o.toNat
      · obtain ⟨ns, hlin, _⟩ := lineage_exists n
        rw [s3 _ n ns hf hlin] at hsp
        cases hsp
        exact .inl ⟨hf, ns, hlin, rfl⟩
      · rw [s4 _ n hn hf] at hsp
        cases hsp
        exact .inr ⟨hf, rfl⟩
    constructor
    · exact fwd sp
    · intro hsp
      have ⟨n, hn, _⟩ := hsp
      have hi := hlt hn
      have : o.toNat < (spawns.map (fun x => x.getD .none)).length := by simp; omega
      have hg := List.getElem?_eq_getElem this
      rw [hg]
      have := spawnOf_unique (fwd _ hg) hsp
      rw [this]
  · intro o cd
    rw [FrameDecoder.cls_eq_some]
    have fwd : ∀ ci, nth caches o = some (some ci) → ClassOf body o ci.cls := by
      intro ci ho
      obtain ⟨n, ns, t, h1, h2, h3, t1, t2, rfl⟩ := hcls o ci ho
      have ha : ∀ s, (cacheInfo env t).cls.attr s =
          (inherited body.objects body.netCache ns s).map
            fun p => (attrType body.objects p.objectInd, p.objectInd) := by
        intro s
        show ((cacheInfo env t).attributes.get s).map _ = _
        rw [cacheInfo_get env t1, t2 s, Option.map_map]
        rfl
      refine ⟨n, ns, h1, h2, h3, ha, ?_⟩
      have := maxProp_limit t1
      have e : (fun s => (cacheInfo env t).cls.attr s ≠ none) = (fun s => t.get s ≠ none) := by
        funext s
        show (((cacheInfo env t).attributes.get s).map _ ≠ none) = _
        rw [cacheInfo_get env t1]
        simp
      rw [e]
      exact this
    constructor
    · rintro ⟨ci, ho, rfl⟩
      exact fwd ci ho
    · intro hcd
      have ⟨n, ns, h1, h2, h3, _⟩ := hcd
      obtain ⟨t, t1, t2, t3⟩ := c4 _ n ns h1 h2 h3
      have ho : nth caches o = some (some (cacheInfo env t)) := by
        rw [nth_eq_some hla]; exact t3
      exact ⟨_, ho, classOf_unique (fwd _ ho) hcd⟩

/-- `network::parse` succeeds exactly on the described streams, with the described frames. -/
theorem network_iff (env : Env) (h : Header) (body : ReplayBody)
    (hl : body.objects.length ≤ 2 ^ 31) (hn : body.networkData.length < 2 ^ 31)
    (hcap : body.networkData.length * env.frameSize ≤ env.isizeMax) (fs : List Frame) :
    Network.parse env h body = .ok ⟨fs⟩ ↔ NetworkOf h body fs := by
  obtain ⟨spawns, hs, _⟩ := spawnTable_run (ε := NetworkError) env body.objects hl
  unfold Network.parse NetworkOf
  rw [hs, Res.ok_bind, (headerInt_eq h).1]
  by_cases hr : InRange body.objects body.netCache
  · obtain ⟨caches, hc, _⟩ := cacheTable_run env body.objects hl body.netCache hr
    rw [hc, Res.ok_bind]
    cases hk : h.numFrames with
    | none =>
      simp only [hr, true_and]
      constructor
      · intro h; cases h; rfl
      · rintro rfl; rfl
    | some k =>
      simp only [hr, true_and]
      by_cases hneg : k.toInt < 0
      · have := usizeOfI32_neg env hneg
        rw [if_pos (by omega)]
        constructor
        · intro h; cases h
        · intro h; omega
      · rw [usizeOfI32_nonneg env (by omega)]
        by_cases hbig : k.toNat > body.networkData.length
        · rw [if_pos hbig]
          constructor
          · intro h; cases h
          · intro h; omega
        · rw [if_neg hbig]
          obtain ⟨hw, hnet⟩ := frameDecoder_of env h body k.toNat hl hs hr hc
          have hctx := ctx_of h body k.toNat spawns caches
          have hmain := FrameDecoder.decodeFrames_iff _ hw env (by
            refine Nat.le_trans (Nat.mul_le_mul_right _ ?_) hcap
            show k.toNat ≤ _
            omega) fs
          rw [bytes_new] at hmain
          have hstep : ((do
              let frames ← runBM env (frameDecoder h body k.toNat spawns caches).decodeFrames
                (Reader.new body.networkData)
              Res.ok ⟨frames⟩ : Res NetworkError NetworkFrames) = .ok ⟨fs⟩) ↔
              runBM env (frameDecoder h body k.toNat spawns caches).decodeFrames
                (Reader.new body.networkData) = .ok fs := by
            cases runBM env (frameDecoder h body k.toNat spawns caches).decodeFrames
                (Reader.new body.networkData) with
            | ok a =>
              rw [Res.ok_bind]
              constructor <;> intro h <;> cases h <;> rfl
            | err e => constructor <;> intro h <;> cases h
            | fault e => constructor <;> intro h <;> cases h
          rw [hstep]
          refine hmain.trans ?_
          constructor
          · rintro ⟨o, ho⟩
            exact ⟨by omega, by omega, _, _, o, hctx, hnet, ho⟩
          · rintro ⟨_, _, c, n, o, h1, h2, h3⟩
            cases ctxOf_unique h1 hctx
            cases netOf_unique h2 hnet
            exact ⟨o, h3⟩
  · obtain ⟨a, p, b, _, _, _, he⟩ := cacheTable_err env body.objects hl body.netCache hr
    rw [he]
    constructor
    · intro h; cases h
    · intro h; exact absurd h.1 hr

theorem spawnTable_env (env env' : Env) (objects : List Str) (hl : objects.length ≤ 2 ^ 31)
    {s s'} (h : (spawnTable env objects : Res NetworkError _) = .ok s)
    (h' : (spawnTable env' objects : Res NetworkError _) = .ok s') :
    s.map (fun x => x.getD .none) = s'.map (fun x => x.getD .none) := by
  obtain ⟨t, t1, t2, t3, t4⟩ := spawnTable_run (ε := NetworkError) env objects hl
  rw [h] at t1; cases t1
  obtain ⟨u, u1, u2, u3, u4⟩ := spawnTable_run (ε := NetworkError) env' objects hl
  rw [h'] at u1; cases u1
  apply List.ext_getElem?
  intro i
  by_cases hi : i < objects.length
  · have hn := List.getElem?_eq_getElem hi
    by_cases hf : FirstAt objects objects[i] i
    · obtain ⟨ns, hlin, _⟩ := lineage_exists objects[i]
      rw [t3 _ _ ns hf hlin, u3 _ _ ns hf hlin]
    · rw [t4 _ _ hn hf, u4 _ _ hn hf]
  · rw [List.getElem?_eq_none (by simp; omega), List.getElem?_eq_none (by simp; omega)]

theorem cacheTable_env (env env' : Env) (objects : List Str) (hl : objects.length ≤ 2 ^ 31)
    (cs : List ClassNetCache) : cacheTable env objects cs = cacheTable env' objects cs := by
  by_cases hr : InRange objects cs
  · obtain ⟨t, t1, t2, t3, t4⟩ := cacheTable_run env objects hl cs hr
    obtain ⟨u, u1, u2, u3, u4⟩ := cacheTable_run env' objects hl cs hr
    rw [t1, u1]
    congr 1
    apply List.ext_getElem?
    intro i
    by_cases hi : i < objects.length
    · have hn := List.getElem?_eq_getElem hi
      by_cases hf : FirstAt objects objects[i] i ∧ parentOf objects[i] ≠ none
      · obtain ⟨ns, hlin, _⟩ := lineage_exists objects[i]
        have hne : ns ≠ [] := by
          cases hlin with
          | root h => exact absurd h hf.2
          | step => simp
        obtain ⟨x, x1, x2, x3⟩ := t4 _ _ ns hf.1 hlin hne
        obtain ⟨y, y1, y2, y3⟩ := u4 _ _ ns hf.1 hlin hne
        have : x = y := HMap.ext x1 y1 (fun s => by rw [x2 s, y2 s])
        subst this
        rw [x3, y3, cacheInfo_env env env' x1]
      · rw [t3 _ _ hn hf, u3 _ _ hn hf]
    · rw [List.getElem?_eq_none (by omega), List.getElem?_eq_none (by omega)]
  · obtain ⟨a, p, b, h1, h2, h3, h4⟩ := cacheTable_err env objects hl cs hr
    obtain ⟨a', p', b', k1, k2, k3, k4⟩ := cacheTable_err env' objects hl cs hr
    rw [h4, k4]
    have : p = p' := by
      rw [h1] at k1
      clear h1 h4 k4
      induction a generalizing a' with
      | nil =>
        cases a' with
        | nil => simp at k1; exact k1.1
        | cons q a' =>
          simp at k1
          rw [k1.1] at h3
          exact absurd (k2 q List.mem_cons_self) h3
      | cons q a ih =>
        cases a' with
        | nil =>
          simp at k1
          rw [← k1.1] at k3
          exact absurd (h2 q List.mem_cons_self) k3
        | cons q' a' =>
          simp at k1
          exact ih (fun r hr => h2 r (List.mem_cons_of_mem _ hr)) a' k1.2
            (fun r hr => k2 r (List.mem_cons_of_mem _ hr))
    rw [this]

/-- The outcome does not depend on the environment and is not a fault. -/
theorem network_agn (env env' : Env) (h : Header) (body : ReplayBody)
    (hl : body.objects.length ≤ 2 ^ 31) (hn : body.networkData.length < 2 ^ 31)
    (hcap : body.networkData.length * env.frameSize ≤ env.isizeMax)
    (hcap' : body.networkData.length * env'.frameSize ≤ env'.isizeMax) :
    Network.parse env h body = Network.parse env' h body ∧
    ∀ x, Network.parse env h body ≠ .fault x := by
  obtain ⟨spawns, hs, _⟩ := spawnTable_run (ε := NetworkError) env body.objects hl
  obtain ⟨spawns', hs', _⟩ := spawnTable_run (ε := NetworkError) env' body.objects hl
  have hse := spawnTable_env env env' body.objects hl hs hs'
  have hce := cacheTable_env env env' body.objects hl body.netCache
  unfold Network.parse
  rw [hs, hs', Res.ok_bind, Res.ok_bind, ← hce]
  by_cases hr : InRange body.objects body.netCache
  · obtain ⟨caches, hc, _⟩ := cacheTable_run env body.objects hl body.netCache hr
    rw [hc, Res.ok_bind, Res.ok_bind]
    cases hk : h.numFrames with
    | none => exact ⟨rfl, fun x hx => by cases hx⟩
    | some k =>
      simp only
      by_cases hneg : k.toInt < 0
      · have := usizeOfI32_neg env hneg
        have := usizeOfI32_neg env' hneg
        rw [if_pos (by omega), if_pos (by omega)]
        exact ⟨rfl, fun x hx => by cases hx⟩
      · rw [usizeOfI32_nonneg env (by omega), usizeOfI32_nonneg env' (by omega)]
        by_cases hbig : k.toNat > body.networkData.length
        · rw [if_pos hbig, if_pos hbig]
          exact ⟨rfl, fun x hx => by cases hx⟩
        · rw [if_neg hbig, if_neg hbig]
          obtain ⟨hw, _⟩ := frameDecoder_of env h body k.toNat hl hs hr hc
          have hd : frameDecoder h body k.toNat spawns caches =
              frameDecoder h body k.toNat spawns' caches := by
            unfold frameDecoder; rw [hse]
          rw [← hd]
          have hcap1 : (frameDecoder h body k.toNat spawns caches).framesLen * env.frameSize ≤
              env.isizeMax := by
            refine Nat.le_trans (Nat.mul_le_mul_right _ ?_) hcap
            show k.toNat ≤ _
            omega
          have hcap2 : (frameDecoder h body k.toNat spawns caches).framesLen * env'.frameSize ≤
              env'.isizeMax := by
            refine Nat.le_trans (Nat.mul_le_mul_right _ ?_) hcap'
            show k.toNat ≤ _
            omega
          obtain ⟨g1, g2⟩ := FrameDecoder.decodeFrames_agn _ hw env env' hcap1 hcap2
          have g1 : runBM env (frameDecoder h body k.toNat spawns caches).decodeFrames
              (Reader.new body.networkData) = runBM env'
              (frameDecoder h body k.toNat spawns caches).decodeFrames
              (Reader.new body.networkData) := g1
          have g2 : ∀ x, runBM env (frameDecoder h body k.toNat spawns caches).decodeFrames
              (Reader.new body.networkData) ≠ .fault x := g2
          rw [← g1]
          refine ⟨rfl, ?_⟩
          intro x
          cases hrun : runBM env (frameDecoder h body k.toNat spawns caches).decodeFrames
              (Reader.new body.networkData) with
          | ok a => intro hx; cases hx
          | err e => intro hx; cases hx
          | fault f => exact absurd hrun (g2 f)
  · obtain ⟨a, p, b, _, _, _, he⟩ := cacheTable_err env body.objects hl body.netCache hr
    rw [he]
    exact ⟨rfl, fun x hx => by cases hx⟩

/-- An environment whose buffers of frames never exceed `isize::MAX`. -/
def Env.roomy (env : Env) : Env := { env with frameSize := 0, frameSize_le := Nat.zero_le _ }

theorem Env.roomy_cap (env : Env) (n : Nat) : n * env.roomy.frameSize ≤ env.roomy.isizeMax :=
  Nat.zero_le _

/-- The only thing that depends on the environment is whether the buffer for the frames can be
reserved. -/
theorem network_roomy (env : Env) (h : Header) (body : ReplayBody)
    (hl : body.objects.length ≤ 2 ^ 31) (hn : body.networkData.length < 2 ^ 31) :
    Network.parse env h body = .fault .capacity ∨
      Network.parse env h body = Network.parse env.roomy h body := by
  obtain ⟨spawns, hs, _⟩ := spawnTable_run (ε := NetworkError) env body.objects hl
  obtain ⟨spawns', hs', _⟩ := spawnTable_run (ε := NetworkError) env.roomy body.objects hl
  have hse := spawnTable_env env env.roomy body.objects hl hs hs'
  have hce := cacheTable_env env env.roomy body.objects hl body.netCache
  unfold Network.parse
  rw [hs, hs', Res.ok_bind, Res.ok_bind, ← hce]
  by_cases hr : InRange body.objects body.netCache
  · obtain ⟨caches, hc, _⟩ := cacheTable_run env body.objects hl body.netCache hr
    rw [hc, Res.ok_bind, Res.ok_bind]
    cases hk : h.numFrames with
    | none => exact .inr rfl
    | some k =>
      simp only
      by_cases hneg : k.toInt < 0
      · have := usizeOfI32_neg env hneg
        have := usizeOfI32_neg env.roomy hneg
        rw [if_pos (by omega), if_pos (by omega)]
        exact .inr rfl
      · rw [usizeOfI32_nonneg env (by omega), usizeOfI32_nonneg env.roomy (by omega)]
        by_cases hbig : k.toNat > body.networkData.length
        · rw [if_pos hbig, if_pos hbig]
          exact .inr rfl
        · rw [if_neg hbig, if_neg hbig]
          obtain ⟨hw, _⟩ := frameDecoder_of env h body k.toNat hl hs hr hc
          have hd : frameDecoder h body k.toNat spawns caches =
              frameDecoder h body k.toNat spawns' caches := by
            unfold frameDecoder; rw [hse]
          rw [← hd]
          by_cases hcap : (frameDecoder h body k.toNat spawns caches).framesLen * env.frameSize ≤
              env.isizeMax
          · right
            obtain ⟨g1, _⟩ := FrameDecoder.decodeFrames_agn _ hw env env.roomy hcap
              (env.roomy_cap _)
            have g1 : runBM env (frameDecoder h body k.toNat spawns caches).decodeFrames
                (Reader.new body.networkData) = runBM env.roomy
                (frameDecoder h body k.toNat spawns caches).decodeFrames
                (Reader.new body.networkData) := g1
            rw [← g1]
          · left
            have hf : runBM env (frameDecoder h body k.toNat spawns caches).decodeFrames
                (Reader.new body.networkData) = .fault .capacity := by
              unfold runBM FrameDecoder.decodeFrames
              rw [BM.bind_fault (x := .capacity)]
              unfold FrameDecoder.reserveFrames
              rw [if_pos (by omega)]
            rw [hf]
            rfl
  · obtain ⟨a, p, b, _, _, _, he⟩ := cacheTable_err env body.objects hl body.netCache hr
    rw [he]
    exact .inr rfl

/-- What `network::parse` returns is what is described, whatever the environment. -/
theorem network_ok (env : Env) (h : Header) (body : ReplayBody)
    (hl : body.objects.length ≤ 2 ^ 31) (hn : body.networkData.length < 2 ^ 31) {fs : List Frame}
    (hp : Network.parse env h body = .ok ⟨fs⟩) : NetworkOf h body fs := by
  rcases network_roomy env h body hl hn with he | he
  · rw [he] at hp; cases hp
  · rw [he] at hp
    exact (network_iff env.roomy h body hl hn (env.roomy_cap _) fs).1 hp

end Boxcars
