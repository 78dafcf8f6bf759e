import Verif.Proofs.Reserve
import Verif.Props.NetSample
/-!
# C69: memory reserved ahead of the data

`Spec/Reserve.lean` copies the parser and tells how many slots the lists being read have
reserved at most.
-/
namespace Boxcars.Props
open Boxcars Spec Reserve

/-- The copy computes what the parser computes. -/
theorem reserve_faithful (b : ParserBuilder) (env : Env) {data : List Byte}
    (hs : data.length ≤ env.isizeMax) : (Reserve.parse b env data).1 = b.parse env data :=
  (Reserve.parse_peak b hs).1

/-- C69. What holds: at any time the parser has reserved at most 50000 slots, or at most 25000
for every 34 bytes of input.  The full claim, a bound that does not grow with the input, is
false: `reserve_unbounded`. -/
theorem reserve_partial (b : ParserBuilder) (env : Env) {data : List Byte}
    (hs : data.length ≤ env.isizeMax) :
    (Reserve.parse b env data).2 ≤ 50000 ∨
      34 * (Reserve.parse b env data).2 ≤ 25000 * data.length :=
  (Reserve.parse_peak b hs).2

/-- C69. The lists of the body never reserve more than 50000 slots: a list of 25000 classes
and a list of 25000 attributes inside one of them. -/
theorem reserve_body (env : Env) (s : CoreSt) :
    (Reserve.parseBody env s).1 = parseBody env s ∧ (Reserve.parseBody env s).2 ≤ 50000 :=
  Reserve.body_flat.2 env s

/-- C69. The frames reserve no more slots than there are bytes of network data. -/
theorem reserve_frames (env : Env) (h : Header) (b : ReplayBody) :
    Reserve.frameSlots env h b ≤ b.networkData.length := Reserve.frameSlots_le env h b

/-- A file without checksums whose header is the start of `n` arrays inside each other: each of
them claims 25000 elements. -/
def arraysFile (n : Nat) : List Byte :=
  word 0 ++ (word 0 ++ (word 1 ++ (word 0 ++ (word 0 ++ Reserve.levels n))))

theorem arraysFile_length (n : Nat) : (arraysFile n).length = 34 * n + 20 := by
  simp only [arraysFile, List.length_append, word_length, Reserve.levels_length]
  omega

/-- C69 is false. A file of `34 n + 20` bytes makes the parser reserve `25000 n` slots at the
same time, under every policy. -/
theorem reserve_unbounded (b : ParserBuilder) (env : Env) (n : Nat)
    (hn : Room env (34 * n + 20)) :
    (arraysFile n).length = 34 * n + 20 ∧ 25000 * n ≤ (Reserve.parse b env (arraysFile n)).2 := by
  refine ⟨arraysFile_length n, ?_⟩
  have hl := arraysFile_length n
  have l0 := Reserve.levels_length n
  have w : ∀ x : BitVec 32, (word x).length = 4 := word_length
  have hT : Room env (arraysFile n).length := by rw [hl]; exact hn
  have hi : CoreSt.init (arraysFile n) = at_ (arraysFile n).length (arraysFile n) := by
    unfold CoreSt.init at_
    rw [Nat.sub_self]
  have key : 25000 * n ≤ (Reserve.parserParse (b.crcCheck.getD .onError)
      (b.networkParse.getD .ignoreOnError) env (CoreSt.init (arraysFile n))).2 := by
    rw [hi]
    generalize hTe : (arraysFile n).length = T at hT hl
    unfold arraysFile Reserve.parserParse
    refine bind_right (takeI32_run hT (by simp only [List.length_append, w]; omega)) ?_
    refine bind_right (takeI32_run hT (by simp only [List.length_append, w]; omega)) ?_
    refine bind_right (a := 0) (s' := at_ T (word 1 ++ (word 0 ++ (word 0 ++ Reserve.levels n)))) ?_ ?_
    · show PRes.ok _ _ = _
      rw [PSpec.usizeOfI32_nonneg env 0 (by decide)]
      rfl
    refine bind_right (a := []) (s' := at_ T (word 1 ++ (word 0 ++ (word 0 ++ Reserve.levels n)))) ?_ ?_
    · unfold P.wrap viewData
      rw [if_pos (Nat.zero_le _)]
      rfl
    refine bind_left ?_
    show 25000 * n ≤ (Reserve.parseHeader env _).2
    unfold Reserve.parseHeader
    refine bind_right (takeI32_run hT (by simp only [List.length_append, w]; omega)) ?_
    refine bind_right (takeI32_run hT (by simp only [List.length_append, w]; omega)) ?_
    refine bind_right (a := none) (s' := at_ T (word 0 ++ Reserve.levels n)) ?_ ?_
    · unfold Reserve.netVersion
      rw [if_neg (by decide)]
      rfl
    refine bind_right (a := []) (s' := at_ T (Reserve.levels n)) ?_ ?_
    · have : parseText env (at_ T (word 0 ++ Reserve.levels n)) = .ok [] (at_ T (Reserve.levels n)) :=
        parseText_spec.run hT (by simp only [List.length_append, w]; omega) (.inl ⟨rfl, rfl⟩)
      unfold P.wrap
      rw [this]
    refine bind_left ?_
    rw [wrap_snd]
    refine bind_right (a := (Reserve.levels n).length + 1) (s' := at_ T (Reserve.levels n)) rfl ?_
    exact Reserve.rdict_levels _ env hT n _ (by omega) (by omega)
  unfold Reserve.parse
  rcases ht : Reserve.parserParse (b.crcCheck.getD .onError) (b.networkParse.getD .ignoreOnError) env
    (CoreSt.init (arraysFile n)) with ⟨x, t⟩
  rw [ht] at key
  cases x <;> exact key

/-- So no constant bounds the slots, below the limit on the size of the input. -/
theorem no_reserve_bound (b : ParserBuilder) (env : Env) (B : Nat)
    (hB : Room env (34 * (B / 25000 + 1) + 20)) :
    ¬ ∀ data, data.length ≤ env.isizeMax → (Reserve.parse b env data).2 ≤ B := by
  intro h
  obtain ⟨hl, hk⟩ := reserve_unbounded b env (B / 25000 + 1) hB
  have := h (arraysFile (B / 25000 + 1)) (by rw [hl]; exact hB.1)
  omega

/-- That limit is no bound of consequence: on every platform a million million slots are
reserved for some input. -/
theorem no_reserve_bound_any (b : ParserBuilder) (env : Env) (B : Nat) (hB : B ≤ 1500000000000) :
    ¬ ∀ data, data.length < 2 ^ 31 → (Reserve.parse b env data).2 ≤ B := by
  intro h
  obtain ⟨hl, hk⟩ := reserve_unbounded b env (B / 25000 + 1) (Room.of_lt (by omega))
  have := h (arraysFile (B / 25000 + 1)) (by omega)
  omega

/-- Four kilobytes reserve three million slots.  (A slot of an array property is a `Vec`, 24
bytes on a 64-bit machine.) -/
example : (arraysFile 120).length = 4100 ∧
    3000000 ≤ (Reserve.parse .new Env.default64 (arraysFile 120)).2 :=
  reserve_unbounded .new Env.default64 120 (Room.of_lt (by decide))

/-- The count on a small file with network data. -/
example : (Reserve.parse ParserBuilder.new.mustParseNetworkData Env.default64 demo).2 = 4 := by
  decide +kernel

end Boxcars.Props
