import Verif.Spec.Build
import Verif.Props.Depends
/-!
# C105: builds are compared by date and number
-/
namespace Boxcars.Props
open Boxcars Spec

theorem digit_lt {m n : Nat} (hm : m < 10) (hn : n < 10) :
    Char.ofNat (48 + m) < Char.ofNat (48 + n) ↔ m < n := by
  have : ∀ a b : Fin 10, Char.ofNat (48 + a) < Char.ofNat (48 + b) ↔ a.val < b.val := by decide +kernel
  exact this ⟨m, hm⟩ ⟨n, hn⟩

theorem digit_eq {m n : Nat} (hm : m < 10) (hn : n < 10) :
    Char.ofNat (48 + m) = Char.ofNat (48 + n) ↔ m = n := by
  have : ∀ a b : Fin 10, Char.ofNat (48 + a) = Char.ofNat (48 + b) ↔ a.val = b.val := by decide +kernel
  exact this ⟨m, hm⟩ ⟨n, hn⟩

/-- Texts that start with numbers of the same number of digits are ordered by these first. -/
theorem decDigits_le (k : Nat) : ∀ {m n : Nat} (xs ys : Str), m < 10 ^ k → n < 10 ^ k →
    (decDigits k m ++ xs ≤ decDigits k n ++ ys ↔ m < n ∨ (m = n ∧ xs ≤ ys)) := by
  induction k with
  | zero =>
    intro m n xs ys hm hn
    have : m = 0 := by simpa using hm
    have : n = 0 := by simpa using hn
    subst m n
    simp [decDigits]
  | succ k ih =>
    intro m n xs ys hm hn
    have hp : 0 < 10 ^ k := Nat.pow_pos (by decide)
    rw [Nat.pow_succ] at hm hn
    have hm' : m / 10 ^ k < 10 := Nat.div_lt_of_lt_mul hm
    have hn' : n / 10 ^ k < 10 := Nat.div_lt_of_lt_mul hn
    have em := Nat.div_add_mod m (10 ^ k)
    have en := Nat.div_add_mod n (10 ^ k)
    have lm := Nat.mod_lt m hp
    have ln := Nat.mod_lt n hp
    rw [decDigits, decDigits, List.cons_append, List.cons_append, List.cons_le_cons_iff,
      digit_lt hm' hn', digit_eq hm' hn', ih xs ys lm ln]
    generalize m / 10 ^ k = a at *
    generalize n / 10 ^ k = b at *
    generalize m % 10 ^ k = c at *
    generalize n % 10 ^ k = d at *
    generalize 10 ^ k = P at *
    constructor
    · rintro (h | ⟨rfl, h | ⟨rfl, h⟩⟩)
      · left
        have := Nat.mul_le_mul_left P (show a + 1 ≤ b by omega)
        rw [Nat.mul_add, Nat.mul_one] at this
        omega
      · left; omega
      · right; exact ⟨by omega, h⟩
    · intro h
      rcases Nat.lt_trichotomy a b with hab | rfl | hab
      · exact .inl hab
      · right
        refine ⟨rfl, ?_⟩
        rcases h with h | ⟨h1, h2⟩
        · left; omega
        · right; exact ⟨by omega, h2⟩
      · have := Nat.mul_le_mul_left P (show b + 1 ≤ a by omega)
        rw [Nat.mul_add, Nat.mul_one] at this
        rcases h with h | ⟨h1, h2⟩ <;> omega

theorem isRl223_iff {h : Header} {x : Str} (hx : headerStr h "BuildVersion" = some x) :
    Network.isRl223 h = true ↔ "221120.42953.406184".toList ≤ x := by
  rw [(headerStr_eq h).2] at hx
  unfold Network.isRl223
  rw [hx]
  exact strGe_iff _ _

theorem thresholdText : "221120.42953.406184".toList =
    decDigits 6 221120 ++ '.' :: (decDigits 5 42953 ++ '.' :: (decDigits 6 406184 ++ [])) := by decide +kernel

/-- C105, as far as it holds: builds with a date of six digits, a second number of five and a third of
six are compared by date and numbers. The full statement is for numbers of any length; it fails, see
`early_build` and `late_build`. -/
theorem build_order_partial {h : Header} {date b c : Nat} (tail : Str) (hd : date < 10 ^ 6) (hb : b < 10 ^ 5)
    (hc : c < 10 ^ 6) (hx : headerStr h "BuildVersion" = some (buildText 5 6 date b c ++ tail)) :
    Network.isRl223 h = true ↔ RecentBuild date b c := by
  rw [isRl223_iff hx, thresholdText]
  unfold buildText RecentBuild
  simp only [List.append_assoc, List.cons_append]
  rw [decDigits_le 6 _ _ (by decide) hd, List.cons_le_cons_iff, decDigits_le 5 _ _ (by decide) hb,
    List.cons_le_cons_iff, decDigits_le 6 _ _ (by decide) hc]
  have h0 : ¬('.' : Char) < '.' := by decide
  have h1 : ([] : Str) ≤ tail := List.nil_le _
  simp only [h0, h1, and_true, true_and, false_or]
  omega

/-- C105. Builds of different days are compared by their dates, whatever follows. -/
theorem build_date {h : Header} {date : Nat} (rest : Str) (hd : date < 10 ^ 6) (hne : date ≠ 221120)
    (hx : headerStr h "BuildVersion" = some (decDigits 6 date ++ rest)) :
    Network.isRl223 h = true ↔ 221120 < date := by
  rw [isRl223_iff hx, thresholdText, decDigits_le 6 _ _ (by decide) hd]
  omega

theorem thresholdFour : "221120.42953.406184".toList =
    decDigits 6 221120 ++ '.' :: (decDigits 4 4295 ++ '3' :: ('.' :: decDigits 6 406184)) := by decide +kernel

/-- C105. All builds of that day with a second number of four digits are earlier; they are taken for
recent ones exactly if this number exceeds 4295. -/
theorem build_four {h : Header} {b c l : Nat} (hb : b < 10 ^ 4)
    (hx : headerStr h "BuildVersion" = some (buildText 4 l 221120 b c)) :
    ¬RecentBuild 221120 b c ∧ (Network.isRl223 h = true ↔ 4295 < b) := by
  refine ⟨by unfold RecentBuild; omega, ?_⟩
  rw [isRl223_iff hx, thresholdFour]
  unfold buildText
  rw [decDigits_le 6 _ _ (by decide) (by decide), List.cons_le_cons_iff, decDigits_le 4 _ _ (by decide) hb,
    List.cons_le_cons_iff]
  have h0 : ¬('.' : Char) < '.' := by decide
  have h1 : ¬('3' : Char) < '.' := by decide
  have h2 : ¬('3' : Char) = '.' := by decide
  simp only [h0, h1, h2, true_and, false_or, false_and, and_false, or_false]
  omega

/-- A header with a build version. -/
def built (x : Str) : Header := ⟨868, 32, some 10, "G".toList, [("BuildVersion".toList, .str x)]⟩

set_option maxRecDepth 100000 in
/-- C105 fails: an earlier build of that day, with a second number of four digits, is taken for a
recent one. Builds with such numbers exist: a sample has `160921.8478.141010`, of another day. -/
theorem early_build : ¬RecentBuild 221120 9999 406183 ∧
    headerStr (built (buildText 4 6 221120 9999 406183)) "BuildVersion" = some "221120.9999.406183".toList ∧
    Network.isRl223 (built (buildText 4 6 221120 9999 406183)) = true :=
  ⟨by unfold RecentBuild; omega, by decide +kernel, by decide +kernel⟩

set_option maxRecDepth 100000 in
/-- C105 fails: a build with the number after 999999 is not taken for a recent one. -/
theorem late_build : RecentBuild 221120 42953 1000000 ∧
    headerStr (built (buildText 5 7 221120 42953 1000000)) "BuildVersion" = some "221120.42953.1000000".toList ∧
    Network.isRl223 (built (buildText 5 7 221120 42953 1000000)) = false :=
  ⟨by unfold RecentBuild; omega, by decide +kernel, by decide +kernel⟩

set_option maxRecDepth 100000 in
/-- A build before and one after, of sample replays. -/
example : Network.isRl223 (built "221024.70985.401801".toList) = false ∧
    Network.isRl223 (built "230607.57983.424629".toList) = true := by decide +kernel

end Boxcars.Props
