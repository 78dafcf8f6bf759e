import Verif.Model.Serde
/-!
# Decimal numbers
-/
namespace Boxcars

/-- The character of a digit. -/
def digitOf (d : Nat) : Char := Char.ofNat (48 + d)

/-- `s` is a decimal numeral for `n`, leading zeros allowed. -/
inductive Decimal : Str → Nat → Prop where
  | digit {d : Nat} : d < 10 → Decimal [digitOf d] d
  | snoc {s : Str} {n d : Nat} : Decimal s n → d < 10 → Decimal (s ++ [digitOf d]) (10 * n + d)

/-- The step of `parseDigits`. -/
def digitStep (acc : Option Nat) (c : Char) : Option Nat :=
  acc.bind (fun a => if '0' ≤ c ∧ c ≤ '9' then some (a * 10 + (c.toNat - 48)) else none)

theorem parseDigits_eq (s : Str) :
    parseDigits s = if s.isEmpty then none else s.foldl digitStep (some 0) := rfl

theorem digit_cases (c : Char) : (∃ d, d < 10 ∧ c = digitOf d) ∨ ¬('0' ≤ c ∧ c ≤ '9') := by
  by_cases h : '0' ≤ c ∧ c ≤ '9'
  · left
    have h1 : 48 ≤ c.toNat := h.1
    have h2 : c.toNat ≤ 57 := h.2
    refine ⟨c.toNat - 48, by omega, ?_⟩
    unfold digitOf
    rw [show 48 + (c.toNat - 48) = c.toNat by omega, Char.ofNat_toNat]
  · exact .inr h

theorem digitOf_range {d : Nat} (h : d < 10) :
    ('0' ≤ digitOf d ∧ digitOf d ≤ '9') ∧ (digitOf d).toNat - 48 = d := by
  have : ∀ d < 10, ('0' ≤ digitOf d ∧ digitOf d ≤ '9') ∧ (digitOf d).toNat - 48 = d := by decide
  exact this d h

theorem digitStep_digit {d : Nat} (h : d < 10) (n : Nat) :
    digitStep (some n) (digitOf d) = some (10 * n + d) := by
  obtain ⟨h1, h2⟩ := digitOf_range h
  unfold digitStep
  simp only [Option.bind_some, if_pos h1, h2]
  congr 1
  omega

theorem foldl_digits {s : Str} {n : Nat} (h : Decimal s n) :
    s.foldl digitStep (some 0) = some n := by
  induction h with
  | digit h => simp only [List.foldl_cons, List.foldl_nil, digitStep_digit h]; congr 1; omega
  | snoc _ h ih => rw [List.foldl_append, ih]; simp only [List.foldl_cons, List.foldl_nil, digitStep_digit h]

theorem decimal_of_foldl (r : Str) : ∀ n, r.reverse.foldl digitStep (some 0) = some n → r ≠ [] →
    Decimal r.reverse n := by
  induction r with
  | nil => intro n _ h; exact absurd rfl h
  | cons c r ih =>
    intro n h _
    rw [List.reverse_cons, List.foldl_append] at h
    rw [List.reverse_cons]
    cases hr : r.reverse.foldl digitStep (some 0) with
    | none => rw [hr] at h; cases h
    | some m =>
      rw [hr] at h
      rcases digit_cases c with ⟨d, hd, rfl⟩ | hc
      · simp only [List.foldl_cons, List.foldl_nil, digitStep_digit hd] at h
        cases h
        by_cases he : r = []
        · subst he
          cases hr
          exact (by simpa using Decimal.digit hd)
        · exact .snoc (ih m hr he) hd
      · simp only [List.foldl_cons, List.foldl_nil, digitStep, Option.bind_some, if_neg hc] at h
        cases h

theorem parseDigits_iff (s : Str) (n : Nat) : parseDigits s = some n ↔ Decimal s n := by
  rw [parseDigits_eq]
  constructor
  · intro h
    cases s with
    | nil => cases h
    | cons c s =>
      have := decimal_of_foldl (c :: s).reverse n
      rw [List.reverse_reverse] at this
      exact this h (by simp)
  · intro h
    have : s.isEmpty = false := by
      cases h with
      | digit => rfl
      | snoc => simp
    rw [if_neg (by rw [this]; decide)]
    exact foldl_digits h

theorem digitChar_eq {d : Nat} (h : d < 10) : d.digitChar = digitOf d := by
  have : ∀ d < 10, Nat.digitChar d = digitOf d := by decide
  exact this d h

theorem decimal_display (n : Nat) : Decimal (displayNat n) n := by
  unfold displayNat
  induction n using Nat.strongRecOn with
  | ind n ih =>
    by_cases h : n < 10
    · rw [Nat.toDigits_of_lt_base h, digitChar_eq h]; exact .digit h
    · rw [Nat.toDigits_of_base_le (by decide) (by omega), digitChar_eq (Nat.mod_lt _ (by decide))]
      have := Decimal.snoc (ih (n / 10) (by omega)) (d := n % 10) (Nat.mod_lt _ (by decide))
      rwa [show 10 * (n / 10) + n % 10 = n by omega] at this

/-- No superfluous zeros. -/
theorem display_head (n : Nat) (hn : n ≠ 0) : (displayNat n).head? ≠ some '0' := by
  unfold displayNat
  induction n using Nat.strongRecOn with
  | ind n ih =>
    by_cases h : n < 10
    · rw [Nat.toDigits_of_lt_base h, digitChar_eq h]
      have : ∀ d < 10, d ≠ 0 → [digitOf d].head? ≠ some '0' := by decide
      exact this n h hn
    · rw [Nat.toDigits_of_base_le (by decide) (by omega)]
      have := ih (n / 10) (by omega) (by omega)
      rw [List.head?_append]
      revert this
      cases ht : Nat.toDigits 10 (n / 10) with
      | nil => exact absurd ht Nat.toDigits_ne_nil
      | cons c t => simp

theorem decimal_head {s : Str} {n : Nat} (h : Decimal s n) :
    ∃ d t, d < 10 ∧ s = digitOf d :: t := by
  induction h with
  | @digit d h => exact ⟨d, [], h, rfl⟩
  | snoc _ _ ih => obtain ⟨d, t, h, rfl⟩ := ih; exact ⟨d, _, h, rfl⟩

theorem digitOf_ne {d : Nat} (h : d < 10) : digitOf d ≠ '+' ∧ digitOf d ≠ '-' := by
  have : ∀ d < 10, digitOf d ≠ '+' ∧ digitOf d ≠ '-' := by decide
  exact this d h

end Boxcars
