import Verif.Spec.Work
import Verif.Proofs.CacheTable
/-!
# Step counts of the class tables
-/
namespace Boxcars.Work
open Boxcars Spec

variable {ε α β : Type}

/-- `ct` computes what `m` computes, in at most `B` steps. -/
def CMeas (ct : CT ε α) (m : Res ε α) (B : Nat) : Prop := ct.1 = m ∧ ct.2 ≤ B

namespace CMeas

theorem mono {ct : CT ε α} {m : Res ε α} {A B : Nat} (h : CMeas ct m A) (hB : A ≤ B) :
    CMeas ct m B := ⟨h.1, Nat.le_trans h.2 hB⟩

theorem pure (a : α) : CMeas (Pure.pure a : CT ε α) (.ok a) 0 := ⟨rfl, Nat.le_refl _⟩

theorem cost (n : Nat) (m : Res ε α) : CMeas (CT.cost n m) m n := ⟨rfl, Nat.le_refl _⟩

theorem tick {ct : CT ε α} {m : Res ε α} {A : Nat} (h : CMeas ct m A) :
    CMeas (CT.tick ct) m (A + 1) := ⟨h.1, Nat.succ_le_succ h.2⟩

theorem bind {ct : CT ε α} {m : Res ε α} {ft : α → CT ε β} {f : α → Res ε β} {A B : Nat}
    (h : CMeas ct m A) (h' : ∀ a, m = .ok a → CMeas (ft a) (f a) B) :
    CMeas (ct >>= ft) (m >>= f) (A + B) := by
  obtain ⟨x, t⟩ := ct
  obtain ⟨rfl, ht⟩ := h
  simp only at ht h'
  cases x with
  | ok a =>
    have := h' a rfl
    refine ⟨this.1, ?_⟩
    have h2 := this.2
    show t + (ft a).2 ≤ _
    omega
  | err e => exact ⟨rfl, Nat.le_trans ht (Nat.le_add_right _ _)⟩
  | fault e => exact ⟨rfl, Nat.le_trans ht (Nat.le_add_right _ _)⟩

/-- A step that the model does not have as a separate action. -/
theorem costThen {a : α} {ft : α → CT ε β} {m : Res ε β} {n B : Nat} (h : CMeas (ft a) m B) :
    CMeas (CT.cost n (.ok a) >>= ft) m (n + B) := by
  refine ⟨h.1, ?_⟩
  have := h.2
  show n + (ft a).2 ≤ _
  omega

end CMeas

/-! ### The class hierarchy -/

theorem ancestorSteps_le {n : Str} {ns : List Str} (h : Lineage n ns) (fuel : Nat) :
    ancestorSteps fuel n ≤ ns.length + 1 := by
  induction h generalizing fuel with
  | @root n h =>
    cases fuel with
    | zero => exact Nat.zero_le _
    | succ f =>
      have h : parentClass (normalizeObject n) = none := h
      rw [ancestorSteps, h]
      exact Nat.le_refl _
  | @step n p ns h _ ih =>
    cases fuel with
    | zero => exact Nat.zero_le _
    | succ f =>
      have h : parentClass (normalizeObject n) = some p := h
      rw [ancestorSteps, h]
      have := ih f
      simp only [List.length_cons]
      omega

theorem ancestors_le (n : Str) (fuel : Nat) : ancestorSteps fuel n ≤ 11 := by
  obtain ⟨ns, h, hl⟩ := lineage_exists n
  exact Nat.le_trans (ancestorSteps_le h fuel) (by omega)

theorem hier_meas (objects : List Str) (n : Str) :
    CMeas (Work.hier (ε := ε) objects n) (Network.hier objects n) 11 :=
  ⟨rfl, ancestors_le n _⟩

theorem hier_length {objects : List Str} {n : Str} {ids : List ObjectId}
    (h : (Network.hier objects n : Res ε _) = .ok ids) : ids.length ≤ 10 := by
  obtain ⟨ns, hn, hl⟩ := lineage_exists n
  unfold Network.hier at h
  rw [← hier_eq objects hn] at h
  cases h
  exact Nat.le_trans (List.length_filterMap_le _ _) hl

/-! ### Spawn table -/

theorem spawnInit_meas (env : Env) (objects : List Str) (l : List (String × SpawnTrajectory))
    (sp : List (Option SpawnTrajectory)) :
    CMeas (Work.spawnInit (ε := ε) env objects l sp) (Network.spawnInit env objects l sp) l.length := by
  induction l generalizing sp with
  | nil => exact CMeas.pure _
  | cons p l ih =>
    obtain ⟨name, s⟩ := p
    rw [Work.spawnInit, Network.spawnInit]
    refine CMeas.tick ?_
    cases byName objects name.toList with
    | none => exact ih sp
    | some id => exact ((CMeas.cost 0 _).bind fun a _ => ih a).mono (by omega)

theorem spawnWalk_meas (env : Env) (spawns : List (Option SpawnTrajectory)) (ids st : List ObjectId) :
    CMeas (Work.spawnWalk (ε := ε) env spawns ids st) (Network.spawnWalk env spawns ids st)
      ids.length := by
  induction ids generalizing st with
  | nil => exact CMeas.pure _
  | cons o os ih =>
    rw [Work.spawnWalk, Network.spawnWalk]
    refine CMeas.tick (((CMeas.cost 0 _).bind (B := os.length) fun s _ => ?_).mono (by omega))
    cases s with
    | some sp => exact (CMeas.pure _).mono (Nat.zero_le _)
    | none => exact ih _

theorem spawnWalk_length {env : Env} {spawns : List (Option SpawnTrajectory)} {ids st : List ObjectId}
    {res : SpawnTrajectory × List ObjectId}
    (h : (Network.spawnWalk env spawns ids st : Res ε _) = .ok res) :
    res.2.length ≤ st.length + ids.length := by
  induction ids generalizing st with
  | nil => cases h; exact Nat.le_add_right _ _
  | cons o os ih =>
    rw [Network.spawnWalk] at h
    cases hi : (Network.idx env spawns o : Res ε _) with
    | ok s =>
      rw [hi, Res.ok_bind] at h
      cases s with
      | some sp => cases h; exact Nat.le_add_right _ _
      | none =>
        have := ih h
        simp only [List.length_append, List.length_cons, List.length_nil] at this ⊢
        omega
    | err e => rw [hi] at h; cases h
    | fault e => rw [hi] at h; cases h

theorem spawnFill_meas (env : Env) (res : SpawnTrajectory) (ids : List ObjectId)
    (sp : List (Option SpawnTrajectory)) :
    CMeas (Work.spawnFill (ε := ε) env res ids sp) (Network.spawnFill env res ids sp) ids.length := by
  induction ids generalizing sp with
  | nil => exact CMeas.pure _
  | cons o os ih =>
    rw [Work.spawnFill, Network.spawnFill]
    exact CMeas.tick (((CMeas.cost 0 _).bind fun s _ => ih s).mono (by omega))

theorem spawnLoop_meas (env : Env) (objects names : List Str) (sp : List (Option SpawnTrajectory)) :
    CMeas (Work.spawnLoop (ε := ε) env objects names sp) (Network.spawnLoop env objects names sp)
      (32 * names.length) := by
  induction names generalizing sp with
  | nil => exact CMeas.pure _
  | cons n names ih =>
    rw [Work.spawnLoop, Network.spawnLoop]
    refine (CMeas.tick ((hier_meas objects n).bind fun ids hids =>
      (((spawnWalk_meas env sp ids []).mono (hier_length hids)).bind (B := 10 + 32 * names.length)
        fun w hw => ((spawnFill_meas env w.1 w.2 sp).mono ?_).bind fun s _ => ih s))).mono ?_
    · have h1 := spawnWalk_length hw
      have h2 := hier_length hids
      simp only [List.length_nil] at h1
      omega
    · simp only [List.length_cons]; omega

theorem spawnTable_meas (env : Env) (objects : List Str) :
    CMeas (Work.spawnTable (ε := ε) env objects) (Network.spawnTable env objects)
      (34 * objects.length + spawnStats.length) := by
  unfold Work.spawnTable Network.spawnTable
  exact (CMeas.costThen ((spawnInit_meas env objects _ _).bind fun s _ =>
    spawnLoop_meas env objects objects s)).mono (by omega)

/-! ### Declarations -/

/-- All declarations of the class net caches. -/
def decls (cs : List ClassNetCache) : List CacheProp := cs.flatMap (·.properties)

theorem cacheProps_meas (env : Env) (objects : List Str) (ps : List CacheProp) :
    CMeas (Work.cacheProps env objects ps) (Network.cacheProps env objects ps) ps.length := by
  induction ps with
  | nil => exact CMeas.pure _
  | cons p ps ih =>
    rw [Work.cacheProps, Network.cacheProps]
    refine CMeas.tick ?_
    cases objects[env.usizeOfI32 p.objectInd]? with
    | none => exact (CMeas.cost 0 _).mono (Nat.zero_le _)
    | some n => exact (ih.bind fun _ _ => CMeas.pure _).mono (by omega)

theorem netProperties_meas (env : Env) (objects : List Str) (cs : List ClassNetCache)
    (m : HMap (List (StreamId × ObjectAttribute))) :
    CMeas (Work.netProperties env objects cs m) (Network.netProperties env objects cs m)
      (cs.length + (decls cs).length) := by
  induction cs generalizing m with
  | nil => exact CMeas.pure _
  | cons c cs ih =>
    rw [Work.netProperties, Network.netProperties]
    refine (CMeas.tick ((cacheProps_meas env objects c.properties).bind fun ps _ => ih _)).mono ?_
    simp only [decls, List.length_cons, List.flatMap_cons, List.length_append]
    omega

/-- The table of declarations holds at most `D` entries per class, with stream ids among `S`. -/
structure PropsIn (S : List StreamId) (props : HMap (List (StreamId × ObjectAttribute))) : Prop where
  length : ∀ o, ((props.get o).getD []).length ≤ S.length
  keys : ∀ o, ∀ p ∈ (props.get o).getD [], p.1 ∈ S

theorem filter_decls (cs : List ClassNetCache) (o : ObjectId) :
    ((cs.filter (fun c => c.objectInd == o)).flatMap (·.properties)).Sublist (decls cs) := by
  unfold decls
  induction cs with
  | nil => exact List.Sublist.slnil
  | cons c cs ih =>
    rw [List.filter_cons, List.flatMap_cons]
    split
    · rw [List.flatMap_cons]
      exact (List.Sublist.refl _).append ih
    · exact List.Sublist.trans ih (List.sublist_append_right _ _)

theorem props_in {env : Env} {objects : List Str} {cs : List ClassNetCache}
    {props : HMap (List (StreamId × ObjectAttribute))} (hl : objects.length ≤ 2 ^ 31)
    (h : Network.netProperties env objects cs [] = .ok props) :
    PropsIn ((decls cs).map (·.streamId)) props := by
  have hr : InRange objects cs := by
    apply Classical.byContradiction
    intro hn
    obtain ⟨_, _, _, _, _, _, he⟩ := netProperties_err env objects hl cs hn []
    rw [he] at h
    cases h
  obtain ⟨m', h1, h2⟩ := netProperties_ok env objects cs hr []
  rw [h1] at h
  cases h
  have h2 : ∀ o, (props.get o).getD [] = ((cs.filter (fun c => c.objectInd == o)).flatMap
      (·.properties)).map (declAttr objects) := h2
  have hsub := filter_decls cs
  refine ⟨fun o => ?_, fun o p hp => ?_⟩
  · rw [h2 o, List.length_map, List.length_map]
    exact (hsub o).length_le
  · rw [h2 o] at hp
    obtain ⟨q, hq, rfl⟩ := List.mem_map.1 hp
    exact List.mem_map.2 ⟨q, (hsub o).subset hq, rfl⟩

/-! ### Memoised traversal -/

theorem sorted_length {ν : Type} {m : HMap ν} (hs : m.Sorted) {S : List I32}
    (h : ∀ p ∈ m, p.1 ∈ S) : m.length ≤ S.length := by
  have hnd : (m.map Prod.fst).Nodup := by
    rw [List.Nodup, List.pairwise_map]
    refine hs.imp ?_
    intro a b hab he
    rw [he] at hab
    exact Nat.lt_irrefl _ hab
  have := hnd.length_le_of_subset (l₂ := S) (by
    intro x hx
    obtain ⟨p, hp, rfl⟩ := List.mem_map.1 hx
    exact h p hp)
  rwa [List.length_map] at this

theorem lastOf_mem {ν : Type} {l : List (I32 × ν)} {x : I32} {v : ν} (h : lastOf l x = some v) :
    (x, v) ∈ l := by
  unfold lastOf at h
  obtain ⟨q, hq, rfl⟩ := Option.map_eq_some_iff.1 h
  have hk := List.find?_some hq
  have : q.1 = x := by simpa using hk
  have hm := List.mem_of_find?_eq_some hq
  rw [← this]
  simpa using hm

theorem memo_attrs {objects : List Str} {props : HMap (List (StreamId × ObjectAttribute))}
    {memo : HMap (HMap ObjectAttribute)} {S : List StreamId} (hp : PropsIn S props)
    (hi : MemoInv objects props memo) {o : ObjectId} {t : HMap ObjectAttribute}
    (h : memo.get o = some t) : t.length ≤ S.length := by
  obtain ⟨ht, n, i, ns, _, _, _, _, hv⟩ := hi.sound o t h
  refine sorted_length ht fun p hpm => ?_
  have hg := HMap.get_of_mem ht hpm
  rw [hv] at hg
  unfold lineAttr at hg
  obtain ⟨m, _, hm⟩ := List.exists_of_findSome?_eq_some hg
  cases hpos : position objects m with
  | none => rw [hpos] at hm; cases hm
  | some j =>
    rw [hpos] at hm
    exact hp.keys _ _ (lastOf_mem hm)

theorem memo_length {objects : List Str} {props : HMap (List (StreamId × ObjectAttribute))}
    {memo : HMap (HMap ObjectAttribute)} (hi : MemoInv objects props memo) :
    memo.length ≤ objects.length := by
  have := sorted_length hi.sorted (S := (List.range objects.length).map i32OfNat) (by
    intro p hp
    obtain ⟨_, n, i, ns, he, hpos, _⟩ := hi.sound p.1 p.2 (HMap.get_of_mem hi.sorted hp)
    rw [he]
    exact List.mem_map.2 ⟨i, List.mem_range.2 (position_lt hpos), rfl⟩)
  simpa using this

theorem netWalk_le {env : Env} {objects : List Str} {props : HMap (List (StreamId × ObjectAttribute))}
    {memo : HMap (HMap ObjectAttribute)} {S : List StreamId} (hp : PropsIn S props)
    (hi : MemoInv objects props memo) (ids st : List ObjectId) :
    netWalkSteps memo ids ≤ ids.length + S.length ∧
    (Network.netWalk env memo ids st).1.length ≤ S.length ∧
    (Network.netWalk env memo ids st).2.length ≤ st.length + ids.length := by
  induction ids generalizing st with
  | nil => exact ⟨Nat.zero_le _, Nat.zero_le _, Nat.le_add_right _ _⟩
  | cons o os ih =>
    rw [netWalkSteps, Network.netWalk]
    cases hg : memo.get o with
    | some t =>
      have h1 := memo_attrs hp hi hg
      have h2 := (env.perm_perm t).length_eq
      simp only [List.length_cons]
      omega
    | none =>
      obtain ⟨h1, h2, h3⟩ := ih (st ++ [o])
      simp only [List.length_append, List.length_cons, List.length_nil] at h3 ⊢
      refine ⟨by omega, h2, by omega⟩

theorem netFill_le {props : HMap (List (StreamId × ObjectAttribute))} {S : List StreamId}
    (hp : PropsIn S props) (B : Nat) (ids : List ObjectId) (acc : List (StreamId × ObjectAttribute))
    (h : acc.length + ids.length * S.length ≤ B) :
    netFillSteps props ids acc ≤ ids.length * (1 + S.length + 2 * B) := by
  induction ids generalizing acc with
  | nil => exact Nat.zero_le _
  | cons o os ih =>
    rw [netFillSteps]
    have hl := hp.length o
    simp only [List.length_cons, Nat.add_mul, Nat.one_mul, List.length_append] at h ⊢
    have h2 := ih (acc ++ (props.get o).getD []) (by rw [List.length_append]; omega)
    omega

theorem netLoop_meas (env : Env) (objects : List Str) (hl : objects.length ≤ 2 ^ 31)
    {props : HMap (List (StreamId × ObjectAttribute))} {S : List StreamId} (hp : PropsIn S props)
    (names : List Str) (memo : HMap (HMap ObjectAttribute)) (hi : MemoInv objects props memo) :
    CMeas (Work.netLoop (ε := ε) env objects props names memo)
      (Network.netLoop env objects props names memo) (names.length * (32 + 231 * S.length)) := by
  induction names generalizing memo with
  | nil => exact (CMeas.pure _).mono (Nat.zero_le _)
  | cons n names ih =>
    rw [Work.netLoop, Network.netLoop]
    obtain ⟨ns, hlin, hnl⟩ := lineage_exists n
    have hh : (Network.hier objects n : Res ε _) = .ok (lineIds objects ns) := by
      unfold Network.hier; rw [← hier_eq objects hlin]
    refine (CMeas.tick ((hier_meas objects n).bind (B := 20 + 231 * S.length +
      names.length * (32 + 231 * S.length)) fun ids hids => ?_)).mono ?_
    · rw [hh] at hids
      cases hids
      have hil := hier_length hh
      have hstep := (netStep env objects hl props memo hi hlin).1
      obtain ⟨h1, h2, h3⟩ := netWalk_le (env := env) hp hi (lineIds objects ns) []
      refine (CMeas.costThen (CMeas.costThen (ih _ hstep))).mono ?_
      simp only [List.length_nil] at h3
      have h4 := netFill_le hp (11 * S.length) (Network.netWalk env memo (lineIds objects ns) []).2.reverse
        (Network.netWalk env memo (lineIds objects ns) []).1 (by
          rw [List.length_reverse]
          have := Nat.mul_le_mul_right S.length (Nat.le_trans h3 (by omega : _ ≤ 10))
          omega)
      rw [List.length_reverse] at h4
      have h5 := Nat.mul_le_mul_right (1 + S.length + 2 * (11 * S.length))
        (Nat.le_trans h3 (by omega : _ ≤ 10))
      have h6 := Nat.le_trans h4 h5
      omega
    · rw [List.length_cons, Nat.add_mul names.length 1, Nat.one_mul]
      omega

/-! ### Cache table -/

theorem cacheFill_meas (env : Env) (D : Nat) (l : List (ObjectId × HMap ObjectAttribute))
    (h : ∀ p ∈ l, p.2.length ≤ D) (xs : List (Option CacheInfo)) :
    CMeas (Work.cacheFill (ε := ε) env l xs) (Network.cacheFill env l xs)
      (l.length * (65 + 2 * D)) := by
  induction l generalizing xs with
  | nil => exact (CMeas.pure _).mono (Nat.zero_le _)
  | cons p l ih =>
    obtain ⟨o, attrs⟩ := p
    rw [Work.cacheFill, Network.cacheFill]
    have := h _ List.mem_cons_self
    simp only at this
    refine ((CMeas.cost _ _).bind fun xs _ => ih (fun p hp => h p (List.mem_cons_of_mem _ hp)) xs).mono ?_
    rw [List.length_cons, Nat.add_mul l.length 1, Nat.one_mul]
    omega

theorem memoInv_nil (objects : List Str) (props : HMap (List (StreamId × ObjectAttribute))) :
    MemoInv objects props [] := ⟨HMap.sorted_nil, fun o t h => by cases h⟩

theorem cacheTable_meas (env : Env) (objects : List Str) (hl : objects.length ≤ 2 ^ 31)
    (cs : List ClassNetCache) :
    CMeas (Work.cacheTable env objects cs) (Network.cacheTable env objects cs)
      (cs.length + (decls cs).length + objects.length * (98 + 233 * (decls cs).length)) := by
  unfold Work.cacheTable Network.cacheTable
  refine ((netProperties_meas env objects cs []).bind (B := objects.length * (98 + 233 * (decls cs).length))
    fun props hprops => ?_)
  have hp := props_in hl hprops
  have hS : ((decls cs).map (·.streamId)).length = (decls cs).length := List.length_map ..
  have hnil := memoInv_nil objects props
  refine ((netLoop_meas env objects hl hp objects [] hnil).bind
    (B := objects.length + objects.length * (65 + 2 * (decls cs).length)) fun memo hmemo => ?_).mono ?_
  · obtain ⟨memo', h1, h2, _⟩ := netLoop_run (ε := NetworkError) env objects hl props objects [] hnil
    rw [h1] at hmemo
    cases hmemo
    refine CMeas.costThen ((cacheFill_meas env (decls cs).length _ (fun p hpm => ?_) _).mono ?_)
    · have hpm := (env.perm_perm memo).mem_iff.1 hpm
      rw [← hS]
      exact memo_attrs hp h2 (HMap.get_of_mem h2.sorted hpm)
    · rw [(env.perm_perm memo).length_eq]
      exact Nat.mul_le_mul_right _ (memo_length h2)
  · rw [hS, show 98 + 233 * (decls cs).length = 32 + 231 * (decls cs).length + 1 +
      (65 + 2 * (decls cs).length) by omega]
    simp only [Nat.mul_add, Nat.mul_one]
    omega

end Boxcars.Work
