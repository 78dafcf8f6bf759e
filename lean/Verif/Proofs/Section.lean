import Verif.Proofs.File
/-!
# One section under the three checksum policies
-/
namespace Boxcars
open Spec

theorem word_append_inj {x y : BitVec 32} {a b : Bytes} (h : word x ++ a = word y ++ b) :
    x = y ∧ a = b := by
  obtain ⟨h1, h2⟩ := List.append_inj h (by simp)
  exact ⟨word_injective h1, h2⟩

theorem SecMismatch_unique {c a c' a' : U32} {d : Bytes} (h : SecMismatch c a d)
    (h' : SecMismatch c' a' d) : c = c' ∧ a = a' := by
  obtain ⟨s, d1, rfl, _, rfl, _⟩ := h
  obtain ⟨s', d1', h1, _, rfl, _⟩ := h'
  obtain ⟨rfl, h2⟩ := word_append_inj h1
  obtain ⟨rfl, rfl⟩ := word_append_inj h2
  exact ⟨rfl, rfl⟩

variable {α : Type}

/-- How a section starts: the declared bytes are there, or both policies fail in the
same way and there is no mismatch. -/
theorem section_cases (m : P α) (n1 n2 n3 n4 : String) {T : Nat}
    (env : Env) (hT : Room env T) (s : CoreSt) (hi : CoreInv env T s) :
    (∃ size crc d1, s.data = word size ++ (word crc ++ d1) ∧ Fits size d1.length ∧
      ∀ check, section_ check n1 n2 n3 n4 m env s =
        (crcSection check (d1.take size.toNat) crc n4 m >>= fun a => Pure.pure (size, crc, a)) env
          ⟨d1, BitVec.ofNat 32 (T - d1.length)⟩) ∨
    ((∃ e s', ∀ check, section_ check n1 n2 n3 n4 m env s = .err e s') ∧
      ∀ c a, ¬ SecMismatch c a s.data) := by
  have hN := Nat.le_refl s.data.length
  cases h1 : takeI32 n1 env s with
  | fault x => exact ((takeI32_spec n1).noFault T env s hT hi hN x h1).elim
  | err e s1 =>
    right
    refine ⟨⟨e, s1, fun check => ?_⟩, ?_⟩
    · unfold section_
      simp only [bind, P.bind, h1]
    · rintro c a ⟨size, d1, hd, _⟩
      have := ((takeI32_spec n1).okIff T env s hT.1 hi hN size
        ⟨word c ++ d1, BitVec.ofNat 32 (T - (word c ++ d1).length)⟩).2
        ⟨⟨word size, rfl, hd⟩, hi.of_suffix hT (by rw [hd]; exact List.suffix_append _ _)⟩
      rw [h1] at this; cases this
  | ok size s1 =>
    obtain ⟨⟨_, rfl, hd1⟩, hi1⟩ := ((takeI32_spec n1).okIff T env s hT.1 hi hN size s1).1 h1
    have hN1 := Nat.le_refl s1.data.length
    cases h2 : takeI32 n2 env s1 with
    | fault x => exact ((takeI32_spec n2).noFault T env s1 hT hi1 hN1 x h2).elim
    | err e s2 =>
      right
      refine ⟨⟨e, s2, fun check => ?_⟩, ?_⟩
      · unfold section_
        simp only [bind, P.bind, h1, h2]
      · rintro c a ⟨size', d1, hd, _⟩
        rw [hd1] at hd
        obtain ⟨rfl, hd'⟩ := word_append_inj hd
        have := ((takeI32_spec n2).okIff T env s1 hT.1 hi1 hN1 c
          ⟨d1, BitVec.ofNat 32 (T - d1.length)⟩).2
          ⟨⟨word c, rfl, hd'⟩, hi1.of_suffix hT (by rw [hd']; exact List.suffix_append _ _)⟩
        rw [h2] at this; cases this
    | ok crc s2 =>
      obtain ⟨⟨_, rfl, hd2⟩, hi2⟩ := ((takeI32_spec n2).okIff T env s1 hT.1 hi1 hN1 crc s2).1 h2
      have hlen2 : s2.data.length ≤ env.isizeMax := Nat.le_trans hi2.1 hT.1
      by_cases hf : Fits size s2.data.length
      · left
        refine ⟨size, crc, s2.data, by rw [hd1, hd2], hf, fun check => ?_⟩
        unfold section_
        simp only [bind, P.bind, h1, h2, P.usize, PSpec.usizeOfI32_nonneg env size hf.1, P.wrap,
          viewData, if_pos hf.2]
        rw [← hi2.2.1]
      · right
        have hgt : ¬ env.usizeOfI32 size ≤ s2.data.length := by
          intro hle
          apply hf
          by_cases h0 : 0 ≤ size.toInt
          · rw [PSpec.usizeOfI32_nonneg env size h0] at hle
            exact ⟨h0, hle⟩
          · have := PSpec.usizeOfI32_big env size (by omega)
            omega
        refine ⟨⟨.parseError n3 s2.col (.insufficientData (i32OfNat (env.usizeOfI32 size))
          (i32OfNat s2.data.length)), s2, fun check => ?_⟩, ?_⟩
        · unfold section_
          simp only [bind, P.bind, h1, h2, P.usize, P.wrap, viewData, if_neg hgt]
        · rintro c a ⟨size', d1, hd, hf', _⟩
          rw [hd1, hd2] at hd
          obtain ⟨rfl, hd3⟩ := word_append_inj hd
          obtain ⟨rfl, rfl⟩ := word_append_inj hd3
          exact hf hf'

/-- `on_error_check_crc` only changes the error of a failing section. -/
theorem section_onError (m : P α) (n1 n2 n3 n4 : String) {T : Nat}
    (env : Env) (hT : Room env T) (s : CoreSt) (hi : CoreInv env T s) :
    (∀ a s', section_ .never n1 n2 n3 n4 m env s = .ok a s' →
      section_ .onError n1 n2 n3 n4 m env s = .ok a s') ∧
    (∀ f, section_ .never n1 n2 n3 n4 m env s = .fault f →
      section_ .onError n1 n2 n3 n4 m env s = .fault f) ∧
    (∀ e s', section_ .never n1 n2 n3 n4 m env s = .err e s' →
      (∀ c a, SecMismatch c a s.data →
        section_ .onError n1 n2 n3 n4 m env s = .err (.corruptReplay n4 e) s') ∧
      ((∀ c a, ¬ SecMismatch c a s.data) →
        section_ .onError n1 n2 n3 n4 m env s = .err e s')) := by
  rcases section_cases m n1 n2 n3 n4 env hT s hi with
    ⟨size, crc, d1, hd, hf, hrun⟩ | ⟨⟨e, s', hrun⟩, hno⟩
  · rw [hrun, hrun]
    simp only [bind, P.bind, crcSection]
    generalize hs1 : (⟨d1, BitVec.ofNat 32 (T - d1.length)⟩ : CoreSt) = s1
    cases hm : m env s1 with
    | ok a s2 =>
      simp only [pure, P.pure, PRes.ok.injEq, reduceCtorEq, false_implies, implies_true, and_true]
      intro a s' h; exact h
    | fault f =>
      simp only [PRes.fault.injEq, reduceCtorEq, false_implies, implies_true, and_true, true_and]
      intro f h; exact h
    | err e s2 =>
      simp only [PRes.err.injEq, reduceCtorEq, false_implies, implies_true, true_and]
      rintro _ _ ⟨rfl, rfl⟩
      constructor
      · rintro c a ⟨size', d1', hd', _, h3, h4⟩
        rw [hd] at hd'
        obtain ⟨rfl, hd2⟩ := word_append_inj hd'
        obtain ⟨rfl, rfl⟩ := word_append_inj hd2
        rw [Props.calcCrc_eq_spec, if_pos (by rw [h3]; exact h4)]
      · intro hno
        rw [Props.calcCrc_eq_spec, if_neg]
        intro hne
        exact hno crc _ ⟨size, d1, hd, hf, rfl, hne⟩
  · refine ⟨?_, ?_, ?_⟩
    · intro a s1 h; rw [hrun] at h; cases h
    · intro f h; rw [hrun] at h; cases h
    · intro e1 s1 h
      rw [hrun] at h ⊢; cases h
      exact ⟨fun c a hm => (hno c a hm).elim, fun _ => rfl⟩

/-- `always_check_crc` reports a mismatch whatever the section's parser does. -/
theorem section_always (m : P α) (n1 n2 n3 n4 : String) {T : Nat}
    (env : Env) (hT : Room env T) (s : CoreSt) (hi : CoreInv env T s) {R : PRel α} (hm : PSpec T m R) (c a : U32)
    (h : SecMismatch c a s.data) :
    ∃ s', section_ .always n1 n2 n3 n4 m env s = .err (.crcMismatch c a) s' := by
  rcases section_cases m n1 n2 n3 n4 env hT s hi with
    ⟨size, crc, d1, hd, hf, hrun⟩ | ⟨_, hno⟩
  · rw [hrun]
    obtain ⟨size', d1', hd', _, h3, h4⟩ := h
    rw [hd] at hd'
    obtain ⟨rfl, hd2⟩ := word_append_inj hd'
    obtain ⟨rfl, rfl⟩ := word_append_inj hd2
    have hi1 : CoreInv env T ⟨d1, BitVec.ofNat 32 (T - d1.length)⟩ := hi.of_suffix hT (by
      rw [hd, ← List.append_assoc]; exact List.suffix_append _ _)
    simp only [bind, P.bind, crcSection]
    rw [Props.calcCrc_eq_spec, h3]
    cases hx : m env ⟨d1, BitVec.ofNat 32 (T - d1.length)⟩ with
    | ok a s2 => simp only; rw [if_pos h4]; exact ⟨s2, rfl⟩
    | err e s2 => simp only; rw [if_pos h4]; exact ⟨s2, rfl⟩
    | fault f => exact (hm.noFault T env _ hT hi1 hi1.1 f hx).elim
  · exact (hno c a h).elim

end Boxcars
