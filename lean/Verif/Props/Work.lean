import Verif.Proofs.WorkParse
import Verif.Proofs.NetFail
import Verif.Props.NoPanic
import Verif.Props.NetSample
/-!
# C02: parsing terminates after linearly many steps

`Spec/Work.lean` instruments every loop and every recursive call of the model with a counter.
-/
namespace Boxcars.Props
open Boxcars Spec

/-- The instrumented parser computes what the parser computes. -/
theorem work_faithful (b : ParserBuilder) {env : Env} {data : List Byte} (hs : Small env data) :
    (Work.parse b env data).1 = b.parse env data := (Work.parse_cost b hs).1

/-- C02. The number of loop iterations, recursive calls, bytes and bits looked at and table
entries written is at most linear in the length of the input, for all policies. -/
theorem work_linear (b : ParserBuilder) {env : Env} {data : List Byte} (hs : Small env data) :
    (Work.parse b env data).2 ≤ 728400 * data.length + 300 := (Work.parse_cost b hs).2

/-- C02. The parser stops: no loop of the model runs out of fuel. -/
theorem terminates (b : ParserBuilder) {env : Env} {data : List Byte} (hs : Small env data) :
    b.parse env data ≠ .fault .fuel := by
  rcases builder_no_panic env data b hs with ⟨r, h⟩ | ⟨e, h⟩ <;> rw [h] <;> simp

/-- C02. The walk up the class hierarchy calls `next` at most eleven times, for every name. -/
theorem ancestor_walk (n : Str) (fuel : Nat) : Work.ancestorSteps fuel n ≤ 11 :=
  Work.ancestors_le n fuel

/-- C02. The header, with its property lists, takes at most three steps per byte. -/
theorem header_work (env : Env) (s : CoreSt) (hf : ∀ f, parseHeader env s ≠ .fault f) :
    (Work.parseHeader env s).1 = parseHeader env s ∧
    (Work.parseHeader env s).2 ≤ 3 * s.data.length + 1 := by
  refine ⟨Work.header_meas.erase env s, ?_⟩
  cases hm : parseHeader env s with
  | ok a s' => have := Work.header_meas.ok env s a s' hm; omega
  | err e s' => have := Work.header_meas.err env s e s' hm; omega
  | fault f => exact absurd hm (hf f)

/-- C02. The frame, actor and attribute loops take at most twelve steps per bit. -/
theorem stream_work (d : FrameDecoder) (hp : d.attrDecoder.product.version = d.attrDecoder.version)
    (env : Env) (data : List Byte)
    (hf : ∀ x, Network.runBM env d.decodeFrames (Reader.new data) ≠ .fault x) :
    (Work.run env (Work.decodeFrames d) (Reader.new data)).1 =
      Network.runBM env d.decodeFrames (Reader.new data) ∧
    (Work.run env (Work.decodeFrames d) (Reader.new data)).2 ≤ 12 * (8 * data.length) + 3 := by
  have h := Work.run_meas (B := 96 * data.length + 3) (Work.decodeFrames_meas d hp) env data (by omega)
    (by omega) hf
  refine ⟨h.1, ?_⟩
  have := h.2
  omega

/-- C02. Building the class tables for `n` objects and `D` declared attributes takes at most
`233 * n * D` steps plus linearly many. -/
theorem tables_work (env : Env) (objects : List Str) (hl : objects.length ≤ 2 ^ 31)
    (cs : List ClassNetCache) :
    (Work.cacheTable env objects cs).1 = Network.cacheTable env objects cs ∧
    (Work.cacheTable env objects cs).2 ≤ cs.length + (Work.decls cs).length +
      objects.length * (98 + 233 * (Work.decls cs).length) :=
  Work.cacheTable_meas env objects hl cs

/-- The counter counts: a replay of 325 bytes with three frames. -/
example : (Work.parse .new Env.default64 demo).2 = 1069 ∧ demo.length = 325 := by
  decide +kernel

/-! The constant of `work_linear` is large because every object that is listed copies the
attributes it inherits.  The product of the number of objects and the number of declarations is
really reached; only the limit of 25000 elements per list keeps it linear. -/

/-- `D` declarations for the first object. -/
def blowupCache (D : Nat) : List ClassNetCache :=
  [⟨0, 0, 0, (List.range D).map fun k => ⟨0, i32OfNat k⟩⟩]

def ballName : Str := "TAGame.Ball_TA".toList

/-- `n + 1` objects of the same name. -/
def blowupObjects (n : Nat) : List Str := List.replicate (n + 1) ballName

theorem ball_lineage : ∃ ns, Lineage ballName (ballName :: ns) := by
  obtain ⟨ns, h, _⟩ := lineage_exists ballName
  have hp : (parentOf ballName).isSome = true := by decide +kernel
  cases h with
  | root h => rw [h] at hp; cases hp
  | step h h' => exact ⟨_, .step h h'⟩

theorem blowup_position (n : Nat) : position (blowupObjects n) ballName = some 0 := by
  unfold position blowupObjects
  rw [List.replicate_succ, List.findIdx?_cons]
  simp

theorem netLoop_hits {ε : Type} (env : Env) (objects : List Str)
    (props : HMap (List (StreamId × ObjectAttribute))) {name : Str} {o : ObjectId} {ids : List ObjectId}
    (hh : (Network.hier objects name : Res ε _) = .ok (o :: ids)) {memo : HMap (HMap ObjectAttribute)}
    {t : HMap ObjectAttribute} (hg : memo.get o = some t) (n : Nat) :
    (Work.netLoop (ε := ε) env objects props (List.replicate n name) memo).1 = .ok memo ∧
    n * t.length ≤ (Work.netLoop (ε := ε) env objects props (List.replicate n name) memo).2 := by
  induction n with
  | zero => exact ⟨rfl, by simp⟩
  | succ n ih =>
    have e : Work.netLoop (ε := ε) env objects props (List.replicate (n + 1) name) memo =
        Work.CT.tick (Work.CT.bind (Work.hier objects name) fun ids =>
          Work.CT.bind (Work.CT.cost (Work.netWalkSteps memo ids) (.ok (Network.netWalk env memo ids []))) fun w =>
          Work.CT.bind (Work.CT.cost (Work.netFillSteps props w.2.reverse w.1)
            (.ok (Network.netFill props w.2.reverse w.1 memo))) fun memo =>
          Work.netLoop env objects props (List.replicate n name) memo) := rfl
    rw [e]
    have e2 : Work.hier (ε := ε) objects name =
        (.ok (o :: ids), Work.ancestorSteps ancestorFuel name) := by
      unfold Work.hier Work.CT.cost
      rw [hh]
    have hw : Network.netWalk env memo (o :: ids) [] = (env.perm t, []) := by
      rw [Network.netWalk, hg]
    have hs : Work.netWalkSteps memo (o :: ids) = 1 + t.length := by
      rw [Work.netWalkSteps, hg]
    rw [e2]
    simp only [Work.CT.bind, Work.CT.cost, Work.CT.tick, hw, hs, List.reverse_nil, Network.netFill, Work.netFillSteps]
    refine ⟨ih.1, ?_⟩
    have := ih.2
    rw [Nat.add_mul, Nat.one_mul]
    omega

theorem blowup_inRange (n D : Nat) : InRange (blowupObjects n) (blowupCache D) := by
  intro c hc p hp
  simp only [blowupCache, List.mem_singleton] at hc
  subst hc
  simp only [List.mem_map] at hp
  obtain ⟨k, _, rfl⟩ := hp
  refine ⟨by show 0 ≤ (0#32).toInt; decide, ?_⟩
  simp [blowupObjects]

/-- With `n + 1` objects and `D` declarations the tables cost at least `n * D` steps. -/
theorem tables_blowup (env : Env) (n D : Nat) (hn : n < 2 ^ 31) (hD : D ≤ 2 ^ 31) :
    (blowupObjects n).length = n + 1 ∧ (Work.decls (blowupCache D)).length = D ∧
    n * D ≤ (Work.cacheTable env (blowupObjects n) (blowupCache D)).2 := by
  have hl : (blowupObjects n).length = n + 1 := by simp [blowupObjects]
  refine ⟨hl, by simp [Work.decls, blowupCache], ?_⟩
  have hl' : (blowupObjects n).length ≤ 2 ^ 31 := by omega
  obtain ⟨props, hp, hprops⟩ := netProperties_ok env (blowupObjects n) (blowupCache D)
    (blowup_inRange n D) []
  obtain ⟨ns, hlin⟩ := ball_lineage
  have hnil := Work.memoInv_nil (blowupObjects n) props
  obtain ⟨h1, _, _, h4⟩ := netStep env (blowupObjects n) hl' props [] hnil hlin
  have hsome := h4 0 (by simp) (blowup_position n)
  have hids : lineIds (blowupObjects n) (ballName :: ns) = 0#32 :: lineIds (blowupObjects n) ns := by
    unfold lineIds
    rw [List.filterMap_cons, blowup_position]
    rfl
  have hh : (Network.hier (blowupObjects n) ballName : Res NetworkError _) =
      .ok (0#32 :: lineIds (blowupObjects n) ns) := by
    unfold Network.hier
    rw [← hier_eq (blowupObjects n) hlin, hids]
  generalize hw : Network.netWalk env [] (lineIds (blowupObjects n) (ballName :: ns)) [] = w at *
  generalize hm : Network.netFill props w.2.reverse w.1 [] = memo at *
  cases hg : memo.get (0#32) with
  | none => rw [show i32OfNat 0 = 0#32 from rfl, hg] at hsome; cases hsome
  | some t =>
    have hlen : D ≤ t.length := by
      obtain ⟨ht, m, i, ms, hi0, hpos, hml, hne, hv⟩ := h1.sound _ _ hg
      have : i = 0 := by
        have := position_lt hpos
        exact (i32OfNat_inj (by omega) (by omega) (hi0.symm.trans rfl : i32OfNat i = i32OfNat 0))
      subst this
      have hmn := position_inj hpos (blowup_position n)
      subst hmn
      have hms := lineage_unique hml hlin
      subst hms
      have key : ∀ k, k < D → i32OfNat k ∈ t.map Prod.fst := by
        intro k hk
        have hsm : (lineAttr (blowupObjects n) props (ballName :: ns) (i32OfNat k)).isSome = true := by
          unfold lineAttr
          rw [List.findSome?_cons, blowup_position]
          simp only [Option.bind_some]
          have hd : lastOf ((props.get (i32OfNat 0)).getD []) (i32OfNat k) ≠ none := by
            rw [hprops]
            unfold lastOf
            simp only [ne_eq, Option.map_eq_none_iff, List.find?_eq_none, not_forall]
            refine ⟨declAttr (blowupObjects n) ⟨0, i32OfNat k⟩, ?_, by simp [declAttr]⟩
            simp only [List.mem_reverse]
            refine List.mem_append_right _ (List.mem_map.2 ⟨⟨0, i32OfNat k⟩, ?_, rfl⟩)
            simp only [blowupCache, List.filter_cons, List.filter_nil]
            rw [if_pos (by rfl)]
            simp only [List.flatMap_cons, List.flatMap_nil, List.append_nil, List.mem_map,
              List.mem_range]
            exact ⟨k, hk, rfl⟩
          cases hx : lastOf ((props.get (i32OfNat 0)).getD []) (i32OfNat k) with
          | none => exact absurd hx hd
          | some v => rfl
        rw [← hv] at hsm
        obtain ⟨v, hv'⟩ := Option.isSome_iff_exists.1 hsm
        exact List.mem_map.2 ⟨_, (HMap.mem_iff_get ht _ v).2 hv', rfl⟩
      have hnd : ((List.range D).map i32OfNat).Nodup := by
        rw [List.Nodup, List.pairwise_map]
        refine (List.pairwise_lt_range (n := D)).imp_of_mem ?_
        intro a b ha hb hab he
        rw [List.mem_range] at ha hb
        exact absurd (i32OfNat_inj (by omega) (by omega) he) (by omega)
      have := hnd.length_le_of_subset (l₂ := t.map Prod.fst) (by
        intro x hx
        obtain ⟨k, hk, rfl⟩ := List.mem_map.1 hx
        exact key k (List.mem_range.1 hk))
      simpa using this
    have hloop := netLoop_hits (ε := NetworkError) env (blowupObjects n) props hh hg n
    have e : Work.netLoop (ε := NetworkError) env (blowupObjects n) props (blowupObjects n) [] =
        Work.CT.tick (Work.CT.bind (Work.hier (blowupObjects n) ballName) fun ids =>
          Work.CT.bind (Work.CT.cost (Work.netWalkSteps [] ids) (.ok (Network.netWalk env [] ids []))) fun w =>
          Work.CT.bind (Work.CT.cost (Work.netFillSteps props w.2.reverse w.1)
            (.ok (Network.netFill props w.2.reverse w.1 []))) fun memo =>
          Work.netLoop env (blowupObjects n) props (List.replicate n ballName) memo) := by
      conv => lhs; rw [show blowupObjects n = ballName :: List.replicate n ballName from rfl]
      rfl
    have e2 : Work.hier (ε := NetworkError) (blowupObjects n) ballName =
        (.ok (0#32 :: lineIds (blowupObjects n) ns), Work.ancestorSteps ancestorFuel ballName) := by
      unfold Work.hier Work.CT.cost
      rw [hh]
    have hbig : n * D ≤ (Work.netLoop (ε := NetworkError) env (blowupObjects n) props
        (blowupObjects n) []).2 := by
      rw [e, e2]
      rw [hids] at hw
      simp only [Work.CT.bind, Work.CT.cost, Work.CT.tick, hw, hm]
      have h5 := hloop.2
      have h6 := Nat.mul_le_mul_left n hlen
      omega
    have hpm := (Work.netProperties_meas env (blowupObjects n) (blowupCache D) []).1
    rw [hp] at hpm
    have hlm : ∃ memo', (Work.netLoop (ε := NetworkError) env (blowupObjects n) props
        (blowupObjects n) []).1 = .ok memo' := by
      rw [e, e2]
      rw [hids] at hw
      simp only [Work.CT.bind, Work.CT.cost, Work.CT.tick, hw, hm]
      exact ⟨_, hloop.1⟩
    obtain ⟨memo', hlm⟩ := hlm
    show _ ≤ (Work.CT.bind (Work.netProperties env (blowupObjects n) (blowupCache D) []) fun props =>
      Work.CT.bind (Work.netLoop env (blowupObjects n) props (blowupObjects n) []) fun memo => _).2
    unfold Work.CT.bind
    rcases h8 : Work.netProperties env (blowupObjects n) (blowupCache D) [] with ⟨x, t8⟩
    rw [h8] at hpm
    simp only at hpm
    subst hpm
    simp only
    rcases h9 : Work.netLoop (ε := NetworkError) env (blowupObjects n) props (blowupObjects n) [] with ⟨y, t9⟩
    rw [h9] at hlm hbig
    simp only at hlm hbig
    subst hlm
    simp only
    omega

/-- 25000 objects and 25000 declarations, about 0.7 MB: over 600 million steps. -/
example (env : Env) : 600000000 ≤ (Work.cacheTable env (blowupObjects 24999) (blowupCache 25000)).2 :=
  Nat.le_trans (by omega) (tables_blowup env 24999 25000 (by omega) (by omega)).2.2

end Boxcars.Props
