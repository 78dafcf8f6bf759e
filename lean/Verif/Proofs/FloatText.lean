import Verif.Model.FloatText
import Verif.Proofs.FloatDecimal
import Verif.Proofs.JsonText
import Mathlib.Data.Nat.Digits.Defs
/-!
# The text of a decimal number and its value
-/
namespace Boxcars
open Spec

/-! ## Digits -/

theorem digitsVal_from (t : Str) : ∀ n, t.foldl (fun n c => 10 * n + (c.toNat - 48)) n =
    n * 10 ^ t.length + digitsVal t := by
  unfold digitsVal
  induction t with
  | nil => intro n; simp
  | cons c t ih =>
    intro n
    rw [List.foldl_cons, List.foldl_cons, ih, ih (10 * 0 + _), List.length_cons, Nat.pow_succ]
    ring

theorem digitsVal_append (s t : Str) : digitsVal (s ++ t) = digitsVal s * 10 ^ t.length + digitsVal t := by
  conv => lhs; unfold digitsVal
  rw [List.foldl_append, digitsVal_from]
  rfl

theorem digitsVal_zeros (n : Nat) : digitsVal (List.replicate n '0') = 0 := by
  induction n with
  | zero => rfl
  | succ n ih =>
    rw [List.replicate_succ', digitsVal_append, ih]
    rfl

theorem decimal_val {s : Str} {n : Nat} (h : Decimal s n) : digitsVal s = n := by
  induction h with
  | digit h =>
    show 10 * 0 + _ = _
    rw [(digitOf_range h).2]; omega
  | snoc _ h ih =>
    rw [digitsVal_append, ih, show digitsVal [digitOf _] = _ from (by
      show 10 * 0 + _ = _
      rw [(digitOf_range h).2])]
    simp only [List.length_singleton]
    omega

theorem display_val (n : Nat) : digitsVal (displayNat n) = n := decimal_val (decimal_display n)

theorem display_digits (n : Nat) : ∀ c ∈ displayNat n, isDigit c = true := by
  intro c hc
  obtain ⟨d, hd, rfl⟩ := decimal_digits (decimal_display n) c hc
  have : ∀ d < 10, isDigit (digitOf d) = true := by decide
  exact this d hd

theorem digit_iff (c : Char) : isDigit c = true ↔ Json.Digit c := by
  unfold isDigit Json.Digit
  rw [Bool.and_eq_true, decide_eq_true_iff, decide_eq_true_iff]

theorem digitsVal_lt {t : Str} (h : ∀ c ∈ t, isDigit c = true) : digitsVal t < 10 ^ t.length := by
  induction t with
  | nil => decide
  | cons c t ih =>
    have h1 := ih fun c hc => h c (.tail _ hc)
    have h2 := ((digit_iff c).1 (h c (.head _))).2
    have h3 := digitsVal_append [c] t
    have h4 : digitsVal [c] = c.toNat - 48 := by show 10 * 0 + _ = _; omega
    rw [List.singleton_append, h4] at h3
    rw [h3, List.length_cons, Nat.pow_succ]
    have : (c.toNat - 48) * 10 ^ t.length ≤ 9 * 10 ^ t.length := Nat.mul_le_mul_right _ (by omega)
    omega

theorem digitCount_pos (d : Nat) : 0 < digitCount d := by
  obtain ⟨_, t, _, e⟩ := decimal_head (decimal_display d)
  show 0 < (displayNat d).length
  rw [e]; exact Nat.succ_pos _

theorem lt_pow_digitCount (d : Nat) : d < 10 ^ digitCount d := by
  have := digitsVal_lt (display_digits d)
  rw [display_val] at this
  exact this

theorem pow_digitCount_le {d : Nat} (h : d ≠ 0) : 10 ^ (digitCount d - 1) ≤ d := by
  by_contra hc
  rw [Nat.not_le] at hc
  by_cases h1 : digitCount d = 1
  · rw [h1] at hc
    omega
  · have h2 := digitCount_pos d
    have := Nat.toDigits_length 10 d (digitCount d - 1) (by omega) hc
    unfold digitCount at *
    omega

theorem digitCount_le {d n : Nat} (hn : 0 < n) (h : d < 10 ^ n) : digitCount d ≤ n :=
  Nat.toDigits_length 10 d n hn h

/-! ## Values -/

theorem takeWhile_digits {s r : Str} (hs : ∀ c ∈ s, isDigit c = true)
    (hr : ∀ c, r.head? = some c → isDigit c = false) :
    (s ++ r).takeWhile isDigit = s ∧ (s ++ r).dropWhile isDigit = r := by
  induction s with
  | nil =>
    cases r with
    | nil => exact ⟨rfl, rfl⟩
    | cons c r => simp [hr c rfl]
  | cons c s ih =>
    obtain ⟨h1, h2⟩ := ih fun c hc => hs c (.tail _ hc)
    simp [hs c (.head _), h1, h2]

theorem absVal_point {i f e : Str} (hi : ∀ c ∈ i, isDigit c = true) (hf : ∀ c ∈ f, isDigit c = true)
    (he : ∀ c, e.head? = some c → isDigit c = false) :
    absVal (i ++ '.' :: (f ++ e)) = (digitsVal (i ++ f) : ℚ) * 10 ^ (expVal e - f.length) := by
  obtain ⟨h1, h2⟩ := takeWhile_digits (r := '.' :: (f ++ e)) hi (by rintro c ⟨⟩; decide)
  obtain ⟨h3, h4⟩ := takeWhile_digits hf he
  unfold absVal
  rw [h1, h2]
  simp only [fracPart, h3, h4]

theorem absVal_exp {i e : Str} (hi : ∀ c ∈ i, isDigit c = true) :
    absVal (i ++ 'e' :: e) = (digitsVal i : ℚ) * 10 ^ expVal ('e' :: e) := by
  obtain ⟨h1, h2⟩ := takeWhile_digits (r := 'e' :: e) hi (by rintro c ⟨⟩; decide)
  unfold absVal
  rw [h1, h2]
  simp [fracPart]

theorem expVal_display (k : Int) : expVal ('e' :: displayInt k) = k := by
  unfold displayInt
  split
  · show -(digitsVal (displayNat k.natAbs) : Int) = k
    rw [display_val]; omega
  · obtain ⟨d, t, hd, e⟩ := decimal_head (decimal_display k.natAbs)
    have h1 := digitOf_ne hd
    have h2 : expVal ('e' :: displayNat k.natAbs) = digitsVal (displayNat k.natAbs) := by
      rw [e]
      generalize digitOf d = c at *
      unfold expVal
      split
      · rename_i h; cases h; exact absurd rfl h1.2
      · rename_i h; cases h; exact absurd rfl h1.1
      · rename_i h; cases h; rfl
      · rename_i h; cases h
    rw [h2, display_val]; omega

/-! ## The layout -/

/-- The layout without the sign. -/
def absLayout (d : Nat) (k : Int) : Str :=
  let ds := displayNat d
  let kk := (ds.length : Int) + k
  if 0 ≤ k ∧ kk ≤ 13 then ds ++ List.replicate k.toNat '0' ++ ['.', '0']
  else if 0 < kk ∧ kk ≤ 13 then ds.take kk.toNat ++ '.' :: ds.drop kk.toNat
  else if -6 < kk ∧ kk ≤ 0 then ['0', '.'] ++ List.replicate (-kk).toNat '0' ++ ds
  else if ds.length = 1 then ds ++ 'e' :: displayInt (kk - 1)
  else ds.take 1 ++ '.' :: ds.drop 1 ++ 'e' :: displayInt (kk - 1)

theorem floatLayout_eq (neg : Bool) (d : Nat) (k : Int) :
    floatLayout neg d k = (if neg then ['-'] else []) ++ absLayout d k := rfl

theorem zeros_digits (n : Nat) : ∀ c ∈ List.replicate n '0', isDigit c = true := by
  intro c hc
  rw [(List.mem_replicate.1 hc).2]; decide

theorem digits_append {s t : Str} (hs : ∀ c ∈ s, isDigit c = true) (ht : ∀ c ∈ t, isDigit c = true) :
    ∀ c ∈ s ++ t, isDigit c = true := fun c hc => (List.mem_append.1 hc).elim (hs c) (ht c)

theorem absLayout_val (d : Nat) (k : Int) : absVal (absLayout d k) = (d : ℚ) * 10 ^ k := by
  have hd := display_digits d
  have hv := display_val d
  have hl : 0 < (displayNat d).length := digitCount_pos d
  have ht : ∀ n, ∀ c ∈ (displayNat d).take n, isDigit c = true := fun n c hc => hd c (List.mem_of_mem_take hc)
  have hr : ∀ n, ∀ c ∈ (displayNat d).drop n, isDigit c = true := fun n c hc => hd c (List.mem_of_mem_drop hc)
  have hn : ∀ c, ([] : Str).head? = some c → isDigit c = false := fun c h => by cases h
  have he : ∀ r c, ('e' :: r : Str).head? = some c → isDigit c = false := fun r c h => by cases h; decide
  unfold absLayout
  simp only
  split
  · rename_i h
    have := absVal_point (e := []) (digits_append hd (zeros_digits k.toNat))
      (show ∀ c ∈ ['0'], isDigit c = true by decide) hn
    rw [List.append_nil] at this
    rw [this, digitsVal_append, digitsVal_append, hv, digitsVal_zeros, List.length_replicate]
    obtain ⟨n, rfl⟩ := Int.eq_ofNat_of_zero_le h.1
    show ((((d * 10 ^ n + 0) * 10 ^ 1 + 0 : ℕ)) : ℚ) * 10 ^ (0 - (1 : ℤ)) = (d : ℚ) * 10 ^ ((n : ℕ) : ℤ)
    rw [zpow_natCast]
    push_cast
    norm_num
    ring
  split
  · rename_i h1 h2
    have := absVal_point (e := []) (ht ((displayNat d).length + k).toNat)
      (hr ((displayNat d).length + k).toNat) hn
    rw [List.append_nil] at this
    rw [this, List.take_append_drop, hv, List.length_drop]
    show (d : ℚ) * 10 ^ (0 - (((displayNat d).length - ((displayNat d).length + k).toNat : ℕ) : ℤ)) = _
    congr 2
    omega
  split
  · rename_i h1 h2 h3
    have := absVal_point (e := []) (show ∀ c ∈ ['0'], isDigit c = true by decide)
      (digits_append (zeros_digits (-((displayNat d).length + k)).toNat) hd) hn
    rw [List.append_nil] at this
    rw [show ['0', '.'] ++ List.replicate (-((displayNat d).length + k)).toNat '0' ++ displayNat d =
      ['0'] ++ '.' :: (List.replicate (-((displayNat d).length + k)).toNat '0' ++ displayNat d) from rfl,
      this, digitsVal_append, digitsVal_append, hv, digitsVal_zeros, List.length_append,
      List.length_replicate]
    rw [show digitsVal ['0'] = 0 from rfl, Nat.zero_mul, Nat.zero_add, Nat.zero_mul, Nat.zero_add]
    show (d : ℚ) * 10 ^ (0 - (((-((displayNat d).length + k)).toNat + (displayNat d).length : ℕ) : ℤ)) = _
    congr 2
    omega
  split
  · rename_i h
    rw [absVal_exp hd, hv, expVal_display]
    congr 2
    omega
  · have := absVal_point (e := 'e' :: displayInt ((displayNat d).length + k - 1)) (ht 1) (hr 1) (he _)
    rw [List.append_assoc, List.cons_append, this, List.take_append_drop, hv, expVal_display,
      List.length_drop]
    congr 2
    omega

theorem absLayout_head (d : Nat) (k : Int) : ∃ c t, absLayout d k = c :: t ∧ isDigit c = true := by
  obtain ⟨c, t, hc, e⟩ := decimal_head (decimal_display d)
  have hd := display_digits d
  rw [e] at hd
  have hc := hd _ (.head _)
  unfold absLayout
  simp only [e]
  generalize digitOf c = c at *
  split
  · exact ⟨_, _, rfl, hc⟩
  split
  · rename_i h
    obtain ⟨n, hn⟩ : ∃ n, ((List.length (c :: t) : Int) + k).toNat = n + 1 :=
      Nat.exists_eq_succ_of_ne_zero (by omega)
    rw [hn]
    exact ⟨_, _, rfl, hc⟩
  split
  · exact ⟨_, _, rfl, by decide⟩
  split
  · exact ⟨_, _, rfl, hc⟩
  · exact ⟨_, _, rfl, hc⟩

/-- The text stands for the number. -/
theorem layout_val (neg : Bool) (d : Nat) (k : Int) : numberVal (floatLayout neg d k) = decVal neg d k := by
  rw [floatLayout_eq]
  unfold decVal
  obtain ⟨c, t, h, hc⟩ := absLayout_head d k
  cases neg
  · rw [← absLayout_val, if_neg (by decide), if_neg (by decide), List.nil_append, h]
    unfold numberVal
    split
    · rename_i e; cases e; cases hc
    · rfl
  · rw [← absLayout_val]
    rfl

open Json in
theorem layout_number (neg : Bool) {d : Nat} (h0 : d ≠ 0) (k : Int) : Number (floatLayout neg d k) := by
  have hd := fun c hc => (digit_iff c).1 (display_digits d c hc)
  have hl : 0 < (displayNat d).length := digitCount_pos d
  have hh := display_head d h0
  have hne : displayNat d ≠ [] := List.ne_nil_of_length_pos hl
  have hz : ∀ n, ∀ c ∈ List.replicate n '0', Digit c := fun n c hc => (digit_iff c).1 (zeros_digits n c hc)
  have hint : ∀ n, 0 < n → IntText ((displayNat d).take n) := by
    intro n hn
    refine .inr ⟨⟨?_, fun c hc => hd c (List.mem_of_mem_take hc)⟩, ?_⟩
    · rw [Ne, List.take_eq_nil_iff]
      exact fun h => h.elim (by omega) hne
    · rw [List.head?_take, if_neg (by omega)]; exact hh
  have hexp : ∀ z, ExpText ('e' :: displayInt z) := by
    intro z
    have hz := fun c hc => (digit_iff c).1 (display_digits z.natAbs c hc)
    have hn : displayNat z.natAbs ≠ [] := List.ne_nil_of_length_pos (digitCount_pos _)
    refine .inr ⟨'e', if z < 0 then ['-'] else [], displayNat z.natAbs, .inl rfl, ?_, ⟨hn, hz⟩, ?_⟩
    · split
      · exact .inr (.inr rfl)
      · exact .inl rfl
    · unfold displayInt
      split <;> rfl
  have hsign : (if neg then ['-'] else [] : Str) = [] ∨ (if neg then ['-'] else [] : Str) = ['-'] := by
    cases neg
    · exact .inl rfl
    · exact .inr rfl
  rw [floatLayout_eq]
  generalize (if neg then ['-'] else [] : Str) = sg at *
  unfold absLayout
  simp only
  split
  · refine ⟨_, displayNat d ++ List.replicate k.toNat '0', ['.', '0'], [], hsign, ?_, ?_, .inl rfl, ?_⟩
    · refine .inr ⟨⟨fun e => hne (List.append_eq_nil_iff.1 e).1, fun c hc => ?_⟩, ?_⟩
      · exact (List.mem_append.1 hc).elim (hd c) (hz _ c)
      · rw [List.head?_append_of_ne_nil _ hne]; exact hh
    · exact .inr ⟨['0'], ⟨by decide, hz 1⟩, rfl⟩
    · simp
  split
  · rename_i h1 h2
    refine ⟨_, (displayNat d).take ((displayNat d).length + k).toNat,
      '.' :: (displayNat d).drop ((displayNat d).length + k).toNat, [], hsign, hint _ (by omega), ?_,
      .inl rfl, by simp⟩
    refine .inr ⟨_, ⟨?_, fun c hc => hd c (List.mem_of_mem_drop hc)⟩, rfl⟩
    rw [Ne, List.drop_eq_nil_iff]
    omega
  split
  · refine ⟨_, ['0'], '.' :: (List.replicate (-((displayNat d).length + k)).toNat '0' ++ displayNat d), [],
      hsign, .inl rfl, ?_, .inl rfl, by simp⟩
    refine .inr ⟨_, ⟨fun e => hne (List.append_eq_nil_iff.1 e).2, fun c hc => ?_⟩, rfl⟩
    exact (List.mem_append.1 hc).elim (hz _ c) (hd c)
  split
  · refine ⟨_, displayNat d, [], _, hsign, ?_, .inl rfl, hexp ((displayNat d).length + k - 1), by simp⟩
    exact .inr ⟨⟨hne, hd⟩, hh⟩
  · rename_i h
    refine ⟨_, (displayNat d).take 1, '.' :: (displayNat d).drop 1, _, hsign, hint 1 (by decide), ?_,
      hexp ((displayNat d).length + k - 1),
      by simp⟩
    refine .inr ⟨_, ⟨?_, fun c hc => hd c (List.mem_of_mem_drop hc)⟩, rfl⟩
    rw [Ne, List.drop_eq_nil_iff]
    omega

theorem layout_mark (neg : Bool) (d : Nat) (k : Int) :
    ∃ c ∈ floatLayout neg d k, c = '.' ∨ c = 'e' ∨ c = 'E' := by
  rw [floatLayout_eq]
  generalize (if neg then ['-'] else [] : Str) = sg at *
  unfold absLayout
  simp only
  split
  · exact ⟨'.', by simp, .inl rfl⟩
  split
  · exact ⟨'.', by simp, .inl rfl⟩
  split
  · exact ⟨'.', by simp, .inl rfl⟩
  split
  · exact ⟨'e', by simp, .inr (.inl rfl)⟩
  · exact ⟨'.', by simp, .inl rfl⟩

theorem displayInt_length {z : Int} (h1 : -100 < z) (h2 : z < 100) : (displayInt z).length ≤ 3 := by
  have : (displayNat z.natAbs).length ≤ 2 := digitCount_le (by decide) (show z.natAbs < 10 ^ 2 by omega)
  unfold displayInt
  split
  · simpa using this
  · omega

/-- Nine digits, eight if there are five zeros after the point. -/
theorem layout_length (neg : Bool) {d : Nat} {k : Int} (h9 : digitCount d ≤ 9)
    (h8 : (digitCount d : Int) + k = -5 → digitCount d ≤ 8) (h1 : -90 < (digitCount d : Int) + k)
    (h2 : (digitCount d : Int) + k < 90) : (floatLayout neg d k).length ≤ 16 := by
  rw [floatLayout_eq, List.length_append]
  have hs : (if neg then ['-'] else [] : Str).length ≤ 1 := by cases neg <;> decide
  have hl : 0 < digitCount d := digitCount_pos d
  have e : digitCount d = (displayNat d).length := rfl
  rw [e] at h9 h8 h1 h2 hl
  have hx := displayInt_length (z := (displayNat d).length + k - 1) (by omega) (by omega)
  suffices (absLayout d k).length ≤ 15 by omega
  unfold absLayout
  simp only
  split
  · simp only [List.length_append, List.length_replicate, List.length_cons, List.length_nil]; omega
  split
  · simp only [List.length_append, List.length_take, List.length_drop, List.length_cons]; omega
  split
  · simp only [List.length_append, List.length_replicate, List.length_cons, List.length_nil]; omega
  split
  · simp only [List.length_append, List.length_cons]; omega
  · simp only [List.length_append, List.length_take, List.length_drop, List.length_cons]; omega

theorem layout_ascii (neg : Bool) (d : Nat) (k : Int) : ∀ c ∈ floatLayout neg d k, c.toNat < 128 := by
  have hd : ∀ n, ∀ c ∈ displayNat n, c.toNat < 128 := fun n c hc => by
    have := ((digit_iff c).1 (display_digits n c hc)).2
    omega
  have hi : ∀ z, ∀ c ∈ displayInt z, c.toNat < 128 := by
    intro z c hc
    unfold displayInt at hc
    split at hc
    · rcases List.mem_cons.1 hc with rfl | hc
      · decide
      · exact hd _ c hc
    · exact hd _ c hc
  have hz : ∀ n, ∀ c ∈ List.replicate n '0', c.toNat < 128 := fun n c hc => by
    rw [(List.mem_replicate.1 hc).2]; decide
  have ht : ∀ n, ∀ c ∈ (displayNat d).take n, c.toNat < 128 := fun n c hc => hd d c (List.mem_of_mem_take hc)
  have hr : ∀ n, ∀ c ∈ (displayNat d).drop n, c.toNat < 128 := fun n c hc => hd d c (List.mem_of_mem_drop hc)
  have ha : ∀ s t : Str, (∀ c ∈ s, c.toNat < 128) → (∀ c ∈ t, c.toNat < 128) → ∀ c ∈ s ++ t, c.toNat < 128 :=
    fun s t hs ht c hc => (List.mem_append.1 hc).elim (hs c) (ht c)
  have hc : ∀ (x : Char) (t : Str), x.toNat < 128 → (∀ c ∈ t, c.toNat < 128) → ∀ c ∈ x :: t, c.toNat < 128 := by
    intro x t hx ht c hc
    rcases List.mem_cons.1 hc with rfl | hc
    · exact hx
    · exact ht c hc
  rw [floatLayout_eq]
  refine ha _ _ (by cases neg <;> decide) ?_
  unfold absLayout
  simp only
  split
  · exact ha _ _ (ha _ _ (hd d) (hz _)) (by decide)
  split
  · exact ha _ _ (ht _) (hc _ _ (by decide) (hr _))
  split
  · exact ha _ _ (ha _ _ (by decide) (hz _)) (hd d)
  split
  · exact ha _ _ (hd d) (hc _ _ (by decide) (hi _))
  · exact ha _ _ (ha _ _ (ht _) (hc _ _ (by decide) (hr _))) (hc _ _ (by decide) (hi _))

end Boxcars
