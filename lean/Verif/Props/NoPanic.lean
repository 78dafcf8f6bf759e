import Verif.Proofs.Replay
import Verif.Props.Sample
/-!
# C01, C03, C09: no panics, one outcome, network policies
-/
namespace Boxcars.Props
open Boxcars Spec

variable (check : CrcCheck) (np : NetworkParse) (env env' : Env) (data : List Byte)

/-! ## C01 -/

theorem networkStep_cases (np : NetworkParse) (h : Header) (b : ReplayBody) (env : Env) (s : CoreSt) :
    networkStep np h b env s = match np, Network.parse env h b with
      | .never, _ => .ok none s
      | _, .ok f => .ok (some f) s
      | .always, .err e => .err (.networkError e) s
      | .ignoreOnError, .err _ => .ok none s
      | _, .fault f => .fault f := by
  unfold networkStep
  cases np <;> cases Network.parse env h b <;> rfl

/-- C01. No input makes the parser panic, abort or diverge, if it is shorter than 2 GiB in
builds with overflow checks and than 16 MiB on 32-bit platforms, whatever the policies, the
platform, the build mode, the buffering of the bit reader and the order of hash maps. -/
theorem no_panic (hs : Small env data) (f : Fault) : parseWith check np env data ≠ .fault f := by
  rw [parseWith_eq]
  cases hf : front check env (CoreSt.init data) with
  | ok x s =>
    simp only
    obtain ⟨rest, hr⟩ := (front_ok_iff_room check env data hs.1 x).1 ⟨s, hf⟩
    rw [networkStep_cases]
    have hn := (network_agn_of hs hs hr).2
    cases hp : Network.parse env x.header x.body with
    | fault f' => exact absurd hp (hn f')
    | ok a => cases np <;> simp
    | err e => cases np <;> simp
  | err e s => simp
  | fault f' =>
    exact absurd hf ((front_spec check).noFault data.length env (CoreSt.init data) hs.1 CoreInv.init
      (Nat.le_refl _) f')

theorem builder_parse_eq (b : ParserBuilder) :
    b.parse env data =
      parseWith (b.crcCheck.getD .onError) (b.networkParse.getD .ignoreOnError) env data := rfl

/-- C01 for every builder. -/
theorem builder_no_panic (b : ParserBuilder) (hs : Small env data) :
    (∃ r, b.parse env data = .ok r) ∨ ∃ e, b.parse env data = .err e := by
  rw [builder_parse_eq]
  have h := no_panic (b.crcCheck.getD .onError) (b.networkParse.getD .ignoreOnError) env data hs
  cases hp : parseWith (b.crcCheck.getD .onError) (b.networkParse.getD .ignoreOnError) env data with
  | ok r => exact .inl ⟨r, rfl⟩
  | err e => exact .inr ⟨e, rfl⟩
  | fault f => exact absurd hp (h f)

/-- Both outcomes happen. -/
example : (∃ r, ParserBuilder.new.parse Env.default64 sample = .ok r) ∧
    ∃ e, ParserBuilder.new.parse Env.release32 (sample.take 20) = .err e := by
  constructor
  · rcases builder_no_panic Env.default64 sample .new (small64 rfl (by decide)) with h | ⟨e, h⟩
    · exact h
    · exfalso
      have : (match ParserBuilder.new.parse Env.default64 sample with | .ok _ => true | _ => false) = true := by
        decide +kernel
      rw [h] at this; cases this
  · rcases builder_no_panic Env.release32 (sample.take 20) .new (small_lt (by decide)) with ⟨r, h⟩ | h
    · exfalso
      have : (match ParserBuilder.new.parse Env.release32 (sample.take 20) with | .ok _ => true | _ => false)
          = false := by decide +kernel
      rw [h] at this; cases this
    · exact h

theorem capacity_fault (d : FrameDecoder) (env : Env) (r : Reader)
    (h : env.isizeMax < d.framesLen * env.frameSize) :
    Network.runBM env d.decodeFrames r = .fault .capacity := by
  unfold Network.runBM FrameDecoder.decodeFrames
  rw [BM.bind_fault (x := .capacity)]
  unfold FrameDecoder.reserveFrames
  rw [if_pos h]

/-- The size restriction is needed on 32-bit platforms: a replay that announces `n` frames and
has as many bytes of network data panics with "capacity overflow" if a buffer for that many
frames exceeds `isize::MAX` bytes. -/
theorem panic_capacity (n : Nat) (hn : n < 2 ^ 31) (hc : env.isizeMax < n * env.frameSize) :
    Network.parse env
      ⟨868, 20, some 10, "G".toList, [("NumFrames".toList, .int (BitVec.ofNat 32 n))]⟩
      ⟨[], [], [], [], [], [], [], [], [], List.replicate n 0#8⟩ = .fault .capacity := by
  have h1 : (⟨868, 20, some 10, "G".toList,
      [("NumFrames".toList, .int (BitVec.ofNat 32 n))]⟩ : Header).numFrames =
        some (BitVec.ofNat 32 n) := by
    rw [← (headerInt_eq _).1]
    unfold headerInt
    simp
  have h2 : env.usizeOfI32 (BitVec.ofNat 32 n) = n := by
    have ht : (BitVec.ofNat 32 n).toNat = n := by
      rw [BitVec.toNat_ofNat]; exact Nat.mod_eq_of_lt (by omega)
    rw [usizeOfI32_nonneg, ht]
    rw [BitVec.toInt_eq_toNat_of_lt (by rw [ht]; omega), ht]
    exact Int.natCast_nonneg n
  obtain ⟨spawns, hs, _⟩ := spawnTable_run (ε := NetworkError) env [] (by decide)
  have hca : Network.cacheTable env [] [] = .ok [] := by
    obtain ⟨ca, h1, h2, _⟩ := cacheTable_run env [] (by decide) [] (by intro c hc; cases hc)
    rw [h1, List.length_eq_zero_iff.1 h2]
  unfold Network.parse
  simp only
  rw [hs, hca, Res.ok_bind, Res.ok_bind, h1]
  simp only [h2, List.length_replicate]
  rw [if_neg (by omega), capacity_fault _ _ _ (by exact hc)]
  rfl

/-- For example 64 Mi frames, which are 44 bytes each. -/
theorem panic_32bit :
    Network.parse Env.release32
      ⟨868, 20, some 10, "G".toList, [("NumFrames".toList, .int (BitVec.ofNat 32 (2 ^ 26)))]⟩
      ⟨[], [], [], [], [], [], [], [], [], List.replicate (2 ^ 26) 0#8⟩ = .fault .capacity :=
  panic_capacity Env.release32 (2 ^ 26) (by decide) (by decide)

/-! ## C03 -/

/-- C03. The outcome is a function of the bytes, the policies and the width of `usize`: not
of the buffering of the bit reader, the order of hash maps or the build mode. -/
theorem one_outcome (hs : Small env data) (hs' : Small env' data)
    (hu : env'.usizeBits = env.usizeBits) :
    parseWith check np env' data = parseWith check np env data := by
  rw [parseWith_eq, parseWith_eq,
    (front_spec check).agn data.length env env' (CoreSt.init data) hs.1 hs'.1 CoreInv.init (Nat.le_refl _) hu]
  cases hf : front check env (CoreSt.init data) with
  | ok x s =>
    simp only
    obtain ⟨rest, hr⟩ := (front_ok_iff_room check env data hs.1 x).1 ⟨s, hf⟩
    rw [networkStep_cases, networkStep_cases, (network_agn_of hs hs' hr).1]
  | err e s => rfl
  | fault f => rfl

/-- C03. Successful outcomes do not depend on the width of `usize` either. -/
theorem one_success (hs : Small env data) (hs' : Small env' data) (r : Replay) :
    parseWith check np env data = .ok r ↔ parseWith check np env' data = .ok r := by
  rw [parseWith_ok_iff _ _ _ _ hs.1, parseWith_ok_iff _ _ _ _ hs'.1]
  have h : ∀ x rest net, FileSecs (decide (check = .always)) x data rest →
      (NetOutcome env np x.header x.body net ↔ NetOutcome env' np x.header x.body net) := by
    intro x rest net hr
    unfold NetOutcome
    rw [(network_agn_of hs hs' hr).1]
  constructor
  · rintro ⟨x, rest, net, h1, h2, h3⟩
    exact ⟨x, rest, net, h1, (h _ _ _ h1).1 h2, h3⟩
  · rintro ⟨x, rest, net, h1, h2, h3⟩
    exact ⟨x, rest, net, h1, (h _ _ _ h1).2 h2, h3⟩

/-- C03, for every slice that can exist: wherever and however a file is read successfully, with
whatever policy for checksums, the replay is the same. -/
theorem one_replay (check' : CrcCheck) (hl : data.length ≤ env.isizeMax)
    (hl' : data.length ≤ env'.isizeMax) {r r' : Replay} (h : parseWith check np env data = .ok r)
    (h' : parseWith check' np env' data = .ok r') : r = r' := by
  obtain ⟨x, rest, net, h1, h2, rfl⟩ := parseWith_ok_of hl h
  obtain ⟨x', rest', net', h1', h2', rfl⟩ := parseWith_ok_of hl' h'
  obtain ⟨rfl, rfl⟩ := FileSecs_unique (Nat.lt_of_le_of_lt hl (isizeMax_lt env)) h1 h1'
  have hn : net = net' := by
    obtain ⟨_, s2, s3⟩ := fileSecs_sizes h1
    have ha := (network_agn env.roomy env'.roomy x.header x.body (by omega) s3
      (env.roomy_cap _) (env'.roomy_cap _)).1
    have e1 := network_roomy env x.header x.body (by omega) s3
    have e2 := network_roomy env' x.header x.body (by omega) s3
    unfold NetOutcome at h2 h2'
    cases np with
    | never => rw [h2, h2']
    | always =>
      obtain ⟨f, hf, rfl⟩ := h2
      obtain ⟨f', hf', rfl⟩ := h2'
      rw [hf] at e1
      rw [hf', ← ha] at e2
      rcases e1 with e1 | e1
      · cases e1
      rcases e2 with e2 | e2
      · cases e2
      rw [← e1] at e2
      cases e2
      rfl
    | ignoreOnError =>
      rcases h2 with ⟨f, hf, rfl⟩ | ⟨f, hf, rfl⟩ <;> rcases h2' with ⟨f', hf', rfl⟩ | ⟨f', hf', rfl⟩ <;>
        first
        | rfl
        | (rw [hf] at e1
           rw [hf', ← ha] at e2
           rcases e1 with e1 | e1
           · cases e1
           rcases e2 with e2 | e2
           · cases e2
           have e3 := e1.trans e2.symm
           cases e3
           try rfl)
  rw [hn]

/-- An instance: the sample file on two platforms, with its checksums verified on one. -/
example {r r' : Replay} (h : parseWith .always .always Env.default64 sample = .ok r)
    (h' : parseWith .never .always Env.release32 sample = .ok r') : r = r' :=
  one_replay _ _ _ _ _ _ (by decide) (by decide) h h'

/-- C03. Failures are failures on every platform. -/
theorem one_failure (hs : Small env data) (hs' : Small env' data) :
    (∃ e, parseWith check np env data = .err e) ↔ ∃ e, parseWith check np env' data = .err e := by
  have key : ∀ env env', Small env data → Small env' data →
      (∃ e, parseWith check np env data = .err e) → ∃ e, parseWith check np env' data = .err e := by
    rintro env env' hs hs' ⟨e, h⟩
    cases hp : parseWith check np env' data with
    | ok r => rw [← one_success check np env env' data hs hs'] at hp; rw [h] at hp; cases hp
    | err e => exact ⟨e, rfl⟩
    | fault f => exact absurd hp (no_panic check np env' data hs' f)
  exact ⟨key env env' hs hs', key env' env hs' hs⟩

/-- The one difference: the size reported with `ListTooLarge` is a `usize`. -/
theorem failure_differs :
    ∃ data, Small Env.default64 data ∧ Small Env.release32 data ∧
      parseWith .never .never Env.default64 data =
        .err (.parseError "levels" 82 (.listTooLarge (2 ^ 64 - 1))) ∧
      parseWith .never .never Env.release32 data =
        .err (.parseError "levels" 82 (.listTooLarge (2 ^ 32 - 1))) := by
  refine ⟨sample.take 78 ++ List.replicate 40 0xff#8, small_lt (by decide),
    small_lt (by decide), ?_, ?_⟩
  · exact eq_of_failsWith (by decide +kernel)
  · exact eq_of_failsWith (by decide +kernel)

/-! ## C09 -/

/-- C09. `never_parse_network_data` and `ignore_network_data_on_error` accept the same files
with the same replay but for the frames, which the former leaves out. -/
theorem never_iff_ignore (hs : Small env data) (r : Replay) :
    parseWith check .never env data = .ok r ↔
      r.networkFrames = none ∧ ∃ net, parseWith check .ignoreOnError env data =
        .ok { r with networkFrames := net } := by
  rw [parseWith_ok_iff _ _ _ _ hs.1]
  simp only [parseWith_ok_iff _ _ _ _ hs.1]
  constructor
  · rintro ⟨x, rest, net, h1, h2, rfl⟩
    have h2 : net = none := h2
    subst h2
    refine ⟨rfl, ?_⟩
    have hn := (network_agn_of hs hs h1).2
    cases hp : Network.parse env x.header x.body with
    | fault f' => exact absurd hp (hn f')
    | ok a => exact ⟨some a, x, rest, some a, h1, .inl ⟨a, hp, rfl⟩, rfl⟩
    | err e => exact ⟨none, x, rest, none, h1, .inr ⟨e, hp, rfl⟩, rfl⟩
  · rintro ⟨h0, net, x, rest, net', h1, h2, h3⟩
    refine ⟨x, rest, none, h1, rfl, ?_⟩
    cases r
    simp only at h0
    subst h0
    simp only [Sections.replay, Replay.mk.injEq] at h3 ⊢
    simp only [h3, and_self]

/-- C09. What `ignore_network_data_on_error` returns: the frames if the network section
decodes, and no frames exactly if `must_parse_network_data` fails with a network error. -/
theorem ignore_cases (r : Replay)
    (h : parseWith check .ignoreOnError env data = .ok r) :
    (∃ fs, r.networkFrames = some fs ∧ parseWith check .always env data = .ok r) ∨
    (r.networkFrames = none ∧ ∃ e, parseWith check .always env data = .err (.networkError e)) := by
  rw [parseWith_eq] at h ⊢
  cases hf : front check env (CoreSt.init data) with
  | ok x s =>
    rw [hf] at h
    simp only at h ⊢
    rw [networkStep_cases] at h ⊢
    cases hp : Network.parse env x.header x.body with
    | ok a => rw [hp] at h; cases h; exact .inl ⟨a, rfl, rfl⟩
    | err e => rw [hp] at h; cases h; exact .inr ⟨rfl, e, rfl⟩
    | fault f => rw [hp] at h; cases h
  | err e s => rw [hf] at h; cases h
  | fault f => rw [hf] at h; cases h

/-- C09. `must_parse_network_data` returns what `ignore_network_data_on_error` returns, with
frames. -/
theorem must_ok (r : Replay) (h : parseWith check .always env data = .ok r) :
    parseWith check .ignoreOnError env data = .ok r ∧ ∃ fs, r.networkFrames = some fs := by
  rw [parseWith_eq] at h ⊢
  cases hf : front check env (CoreSt.init data) with
  | ok x s =>
    rw [hf] at h
    simp only at h ⊢
    rw [networkStep_cases] at h ⊢
    cases hp : Network.parse env x.header x.body with
    | ok a => rw [hp] at h; cases h; exact ⟨rfl, a, rfl⟩
    | err e => rw [hp] at h; cases h
    | fault f => rw [hp] at h; cases h
  | err e s => rw [hf] at h; cases h
  | fault f => rw [hf] at h; cases h

/-- C09. Failures of `must_parse_network_data`: either the same failure as the other policies,
or a network error where `ignore_network_data_on_error` returns no frames. -/
theorem must_err (e : ParseError) (h : parseWith check .always env data = .err e) :
    (∀ np, parseWith check np env data = .err e) ∨
    ∃ n r, e = .networkError n ∧ parseWith check .ignoreOnError env data = .ok r ∧
      r.networkFrames = none := by
  rw [parseWith_eq] at h
  simp only [parseWith_eq]
  cases hf : front check env (CoreSt.init data) with
  | ok x s =>
    rw [hf] at h
    simp only [networkStep_cases] at h ⊢
    cases hp : Network.parse env x.header x.body with
    | ok a => rw [hp] at h; cases h
    | err e => rw [hp] at h; cases h; exact .inr ⟨e, _, rfl, rfl, rfl⟩
    | fault f => rw [hp] at h; cases h
  | err e s => rw [hf] at h; cases h; exact .inl fun np => rfl
  | fault f => rw [hf] at h; cases h

/-- C09. `never_parse_network_data` accepts exactly the files whose header and body parse. -/
theorem never_ok_iff (hl : Room env data.length) (r : Replay) :
    parseWith check .never env data = .ok r ↔
      ∃ x rest, FileSecs (decide (check = .always)) x data rest ∧ r = x.replay none := by
  rw [parseWith_ok_iff _ _ _ _ hl]
  constructor
  · rintro ⟨x, rest, net, h1, rfl, h3⟩
    exact ⟨x, rest, h1, h3⟩
  · rintro ⟨x, rest, h1, h3⟩
    exact ⟨x, rest, none, h1, rfl, h3⟩

/-- `must_parse_network_data` accepts exactly the files whose header, body and network section
are as described. -/
theorem must_ok_iff (hs : Small env data) (r : Replay) :
    parseWith check .always env data = .ok r ↔
      ∃ fs rest, ReplayFile (decide (check = .always)) r fs data rest :=
  parse_must_iff hs r

end Boxcars.Props
