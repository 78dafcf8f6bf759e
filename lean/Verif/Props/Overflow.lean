import Verif.Proofs.Run
import Verif.Props.Sample
import Verif.Props.NoPanic
/-!
# C01: why the bound of 2 GiB is there in builds with overflow checks

`CoreParser` counts the bytes it has read in an `i32` (`src/core_parser.rs:37,50,64`).  With
overflow checks on, a file of 2^31 bytes makes it panic.
-/
namespace Boxcars.Props.Overflow
open Boxcars Spec

/-- The sample file with nothing checked but the network data, which is `n` zero bytes long. -/
def file (n : Nat) : Bytes :=
  word 0#32 ++ (word (Crc.calcCrc []) ++ (sampleHeaderBytes ++ (word 0#32 ++ (word 0#32 ++
    (word 0#32 ++ (word 0#32 ++ (word (BitVec.ofNat 32 n) ++ List.replicate n 0)))))))

theorem header_length : sampleHeaderBytes.length = 62 := by decide +kernel

theorem word_len (x : BitVec 32) : (word x).length = 4 := rfl

theorem file_length (n : Nat) : (file n).length = n + 90 := by
  simp only [file, List.length_append, word_len, header_length, List.length_replicate]
  omega

variable {T : Nat} {env : Env}

theorem step {α : Type} {m : P α} {g : α → Bytes → Prop} (h : ∀ N, PSpec N m (ofG g)) {a : α}
    {b d : Bytes} (hg : g a b) (hT : T ≤ env.isizeMax) (hd : (b ++ d).length ≤ T)
    (hl : T - d.length < 2 ^ 31) : m env (at_ T (b ++ d)) = .ok a (at_ T d) := by
  rw [List.length_append] at hd
  refine ((h (b ++ d).length).okIff T env (at_ T (b ++ d)) hT ⟨?_, rfl, fun _ => ?_⟩ (Nat.le_refl _)
    a (at_ T d)).2 ⟨⟨b, hg, rfl⟩, ⟨?_, rfl, fun _ => hl⟩⟩
  · simp only [at_, List.length_append]; omega
  · simp only [at_, List.length_append]; omega
  · simp only [at_]; omega

/-- The two words before a section, when they say that it is empty. -/
theorem section_run {α : Type} (check : CrcCheck) (m : P α) (n1 n2 n3 n4 : String)
    (crc : BitVec 32) (d : Bytes) (hT : T ≤ env.isizeMax)
    (hd : (word 0#32 ++ (word crc ++ d)).length ≤ T) (hl : T - d.length < 2 ^ 31) :
    section_ check n1 n2 n3 n4 m env (at_ T (word 0#32 ++ (word crc ++ d))) =
      (crcSection check [] crc n4 m >>= fun a => Pure.pure (0#32, crc, a)) env (at_ T d) := by
  have hd' : (word crc ++ d).length ≤ T := by
    rw [List.length_append] at hd; omega
  unfold section_
  simp only [bind, P.bind]
  rw [step (fun N => takeI32_spec n1) (a := 0#32) rfl hT hd
    (by rw [List.length_append]; omega)]
  simp only
  rw [step (fun N => takeI32_spec n2) (a := crc) rfl hT hd' hl]
  have h0 : env.usizeOfI32 0#32 = 0 := by simp [Env.usizeOfI32]
  simp only [P.usize, P.wrap, viewData, h0, Nat.zero_le, if_true, List.take_zero]

/-- The counter overflows at the network data. -/
theorem takeData_overflow {n : Nat} {d : Bytes} (hc : env.checks = true) (hn : n < 2 ^ 31)
    (hd : n ≤ d.length) (hT : d.length ≤ T) (hl : T - d.length < 2 ^ 31)
    (ho : 2 ^ 31 ≤ T - (d.length - n)) : takeData n env (at_ T d) = .fault .overflow := by
  unfold takeData
  rw [if_pos (by simpa only [at_] using hd)]
  cases ha : addCol env (at_ T d).col n with
  | none => rfl
  | some c =>
    have := PSpec.addCol_some hn (T := T) (s := at_ T d) ⟨hT, rfl, fun _ => hl⟩ hd ha hc
    simp only [at_] at this
    omega

theorem body_overflow {n : Nat} (hc : env.checks = true) (hT : T ≤ env.isizeMax)
    (hn : n < 2 ^ 31) (ho : 2 ^ 31 ≤ T)
    (hd : T = n + 90) :
    parseBody env (at_ T (word 0#32 ++ (word 0#32 ++ (word (BitVec.ofNat 32 n) ++
      List.replicate n 0)))) = .fault .overflow := by
  have e : ∀ x : BitVec 32, (word x).length = 4 := word_len
  unfold parseBody
  simp only [bind, P.bind]
  rw [step (fun N => textList_spec.wrap "levels") (a := [])
    (⟨[], Nat.zero_le _, .nil, rfl⟩ : ListField TextField [] (word 0#32)) hT
    (by simp only [List.length_append, e, List.length_replicate]; omega)
    (by simp only [List.length_append, e, List.length_replicate]; omega)]
  simp only
  rw [step (fun N => parseKeyframe_spec.wrap "keyframes") (a := [])
    (⟨[], Nat.zero_le _, .nil, rfl⟩ : ListField KeyFrameEnc [] (word 0#32)) hT
    (by simp only [List.length_append, e, List.length_replicate]; omega)
    (by simp only [List.length_append, e, List.length_replicate]; omega)]
  simp only
  rw [step (fun N => takeI32_spec "network size") (a := BitVec.ofNat 32 n) rfl hT
    (by simp only [List.length_append, e, List.length_replicate]; omega)
    (by simp only [List.length_replicate]; omega)]
  have hu : env.usizeOfI32 (BitVec.ofNat 32 n) = n := by
    have hb : (BitVec.ofNat 32 n).toNat = n := by
      rw [BitVec.toNat_ofNat]; exact Nat.mod_eq_of_lt (by omega)
    have h0 : 0 ≤ (BitVec.ofNat 32 n).toInt := by
      rw [BitVec.toInt_eq_toNat_of_lt (by omega)]; exact Int.natCast_nonneg _
    rw [Env.usizeOfI32, if_neg (by omega), hb]
  simp only [P.usize, P.wrap, hu]
  rw [takeData_overflow hc hn (by simp) (by simp; omega) (by simp; omega)
    (by simp; omega)]

/-- **C01** (the bound is sharp): in a build with overflow checks on a 64-bit target there is,
for every size from 2^31 on, up to 90 bytes more, a file of that size which makes the parser
panic, with every kind of check and of network parsing.  With fewer than 2^31 bytes it never
panics (`Props.no_panic`). -/
theorem panic_overflow (env : Env) (hc : env.checks = true) (hu : env.usizeBits = 64)
    (check : CrcCheck) (np : NetworkParse) {size : Nat} (h1 : 2 ^ 31 ≤ size)
    (h2 : size < 2 ^ 31 + 90) :
    (file (size - 90)).length = size ∧
      parseWith check np env (file (size - 90)) = .fault .overflow := by
  have hlen : (file (size - 90)).length = size := by rw [file_length]; omega
  refine ⟨hlen, ?_⟩
  generalize hn : size - 90 = n at *
  have hT : size ≤ env.isizeMax := by
    simp only [Env.isizeMax, hu]; omega
  have e : ∀ x : BitVec 32, (word x).length = 4 := word_len
  have hi : CoreSt.init (file n) = at_ size (file n) := by
    simp [CoreSt.init, at_, hlen]
  have hf : front check env (CoreSt.init (file n)) = .fault .overflow := by
    rw [hi, file, front]
    simp only [bind, P.bind]
    rw [section_run check parseHeader _ _ _ _ _ _ hT
      (by simp only [List.length_append, e, header_length, List.length_replicate]; omega)
      (by simp only [List.length_append, e, header_length, List.length_replicate]; omega)]
    have hh : crcSection check [] (Crc.calcCrc []) "header" parseHeader env (at_ size
        (sampleHeaderBytes ++ (word 0#32 ++ (word 0#32 ++ (word 0#32 ++ (word 0#32 ++
          (word (BitVec.ofNat 32 n) ++ List.replicate n 0))))))) = .ok sampleHeader (at_ size
        (word 0#32 ++ (word 0#32 ++ (word 0#32 ++ (word 0#32 ++
          (word (BitVec.ofNat 32 n) ++ List.replicate n 0)))))) := by
      unfold crcSection
      rw [step (fun N => parseHeader_spec) sample_headerSec hT
        (by simp only [List.length_append, e, header_length, List.length_replicate]; omega)
        (by simp only [List.length_append, e, List.length_replicate]; omega)]
      cases check <;> simp
    simp only [bind, P.bind]
    rw [hh]
    simp only [pure, P.pure]
    rw [section_run check parseBody _ _ _ _ _ _ hT
      (by simp only [List.length_append, e, List.length_replicate]; omega)
      (by simp only [List.length_append, e, List.length_replicate]; omega)]
    simp only [bind, P.bind, crcSection]
    rw [body_overflow hc hT (by omega) h1 (by omega)]
  rw [parseWith_eq, hf]

/-- An instance: a file of exactly 2 GiB. -/
example : (file (2 ^ 31 - 90)).length = 2 ^ 31 ∧
    parseWith .onError .ignoreOnError Env.default64 (file (2 ^ 31 - 90)) = .fault .overflow :=
  panic_overflow Env.default64 rfl rfl _ _ (Nat.le_refl _) (by decide)

/-- **C03** (the bound is needed): the same file gives two outcomes, a panic in a build with
overflow checks and no panic in a build without. -/
theorem builds_differ (env env' : Env) (hc : env.checks = true) (hc' : env'.checks = false)
    (hu : env.usizeBits = 64) (hu' : env'.usizeBits = 64) (check : CrcCheck) (np : NetworkParse) :
    ∃ data, data.length = 2 ^ 31 ∧ parseWith check np env data ≠ parseWith check np env' data := by
  obtain ⟨h1, h2⟩ := panic_overflow env hc hu check np (Nat.le_refl _) (by decide)
  refine ⟨_, h1, ?_⟩
  rw [h2]
  exact Ne.symm (no_panic check np env' _ (small64_release hu' hc' (by rw [h1]; decide)) _)

end Boxcars.Props.Overflow
