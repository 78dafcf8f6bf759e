import Verif.Spec.Float
import Verif.Model.Json
import Verif.Spec.Schema
import Verif.Spec.Size
/-!
# The length of JSON texts

The length of the compact text of a value of a given shape, the height of such a value, and the
length of the text with line breaks in terms of the two.
-/
namespace Boxcars.Json
open Boxcars Spec

/-- The number of bytes of a text in UTF-8. -/
abbrev len (s : Str) : Nat := (utf8 s).length

theorem len_nil : len [] = 0 := rfl

theorem len_append (s t : Str) : len (s ++ t) = len s + len t := by
  unfold len utf8
  rw [List.flatMap_append, List.length_append]

theorem len_cons (c : Char) (s : Str) : len (c :: s) = len [c] + len s := by
  rw [← len_append]; rfl

theorem len_char_pos (c : Char) : 1 ≤ len [c] := by
  unfold len utf8 utf8Char
  rw [List.flatMap_cons, List.flatMap_nil, List.append_nil, List.length_map,
    String.length_utf8EncodeChar]
  exact Char.utf8Size_pos c

theorem len_ascii {c : Char} (h : c.toNat < 128) : len [c] = 1 := by
  unfold len utf8 utf8Char
  rw [List.flatMap_cons, List.flatMap_nil, List.append_nil, List.length_map,
    String.length_utf8EncodeChar]
  unfold Char.utf8Size
  have : c.val ≤ 127 := by
    rw [UInt32.le_iff_toNat_le]
    have : c.val.toNat < 128 := h
    simp only [UInt32.reduceToNat]
    omega
  exact if_pos this

theorem len_spaces (n : Nat) : len (List.replicate n ' ') = n := by
  induction n with
  | zero => rfl
  | succ n ih => rw [List.replicate_succ, len_cons, ih, show len [' '] = 1 by decide]; omega

theorem hexDigit_len (n : Nat) : len [hexDigit n] = 1 := by
  by_cases h : n < 16
  · have : ∀ n : Fin 16, len [hexDigit n.val] = 1 := by decide
    exact this ⟨n, h⟩
  · unfold hexDigit
    rw [List.getElem?_eq_none (by simp only [List.length_cons, List.length_nil]; omega)]
    decide

theorem escape_len (c : Char) : len (escapeChar c) ≤ 6 * len [c] := by
  have := len_char_pos c
  have e2 : ∀ d e : Char, d.toNat < 128 → e.toNat < 128 → len [d, e] = 2 := by
    intro d e hd he
    rw [len_cons, len_ascii hd, len_ascii he]
  unfold escapeChar
  split
  · rw [e2 _ _ (by decide) (by decide)]; omega
  split
  · rw [e2 _ _ (by decide) (by decide)]; omega
  split
  · rw [e2 _ _ (by decide) (by decide)]; omega
  split
  · rw [e2 _ _ (by decide) (by decide)]; omega
  split
  · rw [e2 _ _ (by decide) (by decide)]; omega
  split
  · rw [e2 _ _ (by decide) (by decide)]; omega
  split
  · rw [e2 _ _ (by decide) (by decide)]; omega
  split
  · have e : ∀ a b : Char, len ['\\', 'u', '0', '0', a, b] = 4 + (len [a] + len [b]) := by
      intro a b
      rw [← len_append, show 4 = len ['\\', 'u', '0', '0'] by decide, ← len_append]
      rfl
    rw [e, hexDigit_len, hexDigit_len]
    omega
  · omega

theorem quoted_len (s : Str) : len (quoted s) ≤ 2 + 6 * len s := by
  have h : len (s.flatMap escapeChar) ≤ 6 * len s := by
    induction s with
    | nil => exact Nat.le_refl _
    | cons c s ih =>
      rw [List.flatMap_cons, len_append, len_cons c s]
      have := escape_len c
      omega
  unfold quoted
  rw [List.cons_append, len_cons, len_append, len_ascii (c := '"') (by decide)]
  omega

/-! ## Numbers -/

theorem digits_len {n k : Nat} (h : n < 10 ^ k) : len (Nat.toDigits 10 n) ≤ max k 1 := by
  have h1 : ∀ c ∈ Nat.toDigits 10 n, len [c] = 1 := by
    intro c hc
    have := Nat.isDigit_of_mem_toDigits (b := 10) (by decide) (by decide) hc
    apply len_ascii
    simp only [Char.isDigit, Bool.and_eq_true, decide_eq_true_eq, ge_iff_le] at this
    have h2 := this.2
    rw [UInt32.le_iff_toNat_le] at h2
    show c.val.toNat < 128
    have : '9'.val.toNat = 57 := rfl
    omega
  have h2 : ∀ s : Str, (∀ c ∈ s, len [c] = 1) → len s = s.length := by
    intro s
    induction s with
    | nil => intro _; rfl
    | cons c s ih =>
      intro h
      rw [len_cons, h c List.mem_cons_self, ih fun d hd => h d (List.mem_cons_of_mem c hd),
        List.length_cons]
      omega
  rw [h2 _ h1]
  rcases Nat.eq_zero_or_pos k with rfl | hk
  · have : n = 0 := by rw [Nat.pow_zero] at h; omega
    subst this
    decide
  · have := (Nat.length_toDigits_le_iff (b := 10) (n := n) (by decide) hk).2 h
    omega

theorem int_len {i : Int} {k : Nat} (hk : 0 < k) (h : i.natAbs < 10 ^ k) :
    len (displayInt i) ≤ k + 1 := by
  have h1 := digits_len h
  unfold displayInt displayNat
  split
  · rw [len_cons, len_ascii (c := '-') (by decide)]; omega
  · omega

/-! ## Shapes -/

mutual
/-- The shapes of everything but header values, with integers of at most 64 bits. -/
def fixed : Shape → Bool
  | .unsigned w => decide (w ≤ 64)
  | .signed w => decide (w ≤ 64)
  | .opt s => fixed s
  | .list s => fixed s
  | .tuple ss => fixedAll ss
  | .struct fs => fixedFields fs
  | .enum vs => fixedVariants vs
  | .prop => false
  | .props => false
  | _ => true
def fixedAll : List Shape → Bool
  | [] => true
  | s :: ss => fixed s && fixedAll ss
def fixedFields : List (String × Shape) → Bool
  | [] => true
  | (_, s) :: fs => fixed s && fixedFields fs
def fixedVariants : List (String × Option Shape) → Bool
  | [] => true
  | (_, none) :: vs => fixedVariants vs
  | (_, some s) :: vs => fixed s && fixedVariants vs
end

/-- The bytes of a name in quotes. -/
def nameLen (k : String) : Nat := len (quoted k.toList)

mutual
/-- The bytes that a value of the shape takes at least to be expected: all but the elements of its
lists and its texts beyond twenty bytes. -/
def cost : Shape → Nat
  | .bool => 5
  | .unsigned w => if w ≤ 32 then 11 else 21
  | .signed w => if w ≤ 32 then 11 else 21
  | .f32 => 16
  | .text => 122
  | .u64 => 122
  | .i64 => 128
  | .opt s => max 4 (cost s)
  | .list _ => 2
  | .tuple ss => 2 + costAll ss
  | .struct fs => 2 + costFields fs
  | .enum vs => costVariants vs
  | .prop => 0
  | .props => 0
def costAll : List Shape → Nat
  | [] => 0
  | s :: ss => 1 + cost s + costAll ss
def costFields : List (String × Shape) → Nat
  | [] => 0
  | (k, s) :: fs => nameLen k + 2 + cost s + costFields fs
def costVariants : List (String × Option Shape) → Nat
  | [] => 0
  | (k, none) :: vs => max (nameLen k) (costVariants vs)
  | (k, some s) :: vs => max (nameLen k + 3 + cost s) (costVariants vs)
end

mutual
/-- The bytes for each element and each byte of a text. -/
def rate : Shape → Nat
  | .text => 6
  | .u64 => 6
  | .i64 => 6
  | .opt s => rate s
  | .list s => max (1 + cost s) (rate s)
  | .tuple ss => rateAll ss
  | .struct fs => rateFields fs
  | .enum vs => rateVariants vs
  | _ => 0
def rateAll : List Shape → Nat
  | [] => 0
  | s :: ss => max (rate s) (rateAll ss)
def rateFields : List (String × Shape) → Nat
  | [] => 0
  | (_, s) :: fs => max (rate s) (rateFields fs)
def rateVariants : List (String × Option Shape) → Nat
  | [] => 0
  | (_, none) :: vs => rateVariants vs
  | (_, some s) :: vs => max (rate s) (rateVariants vs)
end

mutual
/-- How deep values of the shape are nested at most. -/
def high : Shape → Nat
  | .opt s => high s
  | .list s => 1 + high s
  | .tuple ss => 1 + highAll ss
  | .struct fs => 1 + highFields fs
  | .enum vs => 1 + highVariants vs
  | _ => 0
def highAll : List Shape → Nat
  | [] => 0
  | s :: ss => max (high s) (highAll ss)
def highFields : List (String × Shape) → Nat
  | [] => 0
  | (_, s) :: fs => max (high s) (highFields fs)
def highVariants : List (String × Option Shape) → Nat
  | [] => 0
  | (_, none) :: vs => highVariants vs
  | (_, some s) :: vs => max (high s) (highVariants vs)
end

mutual
/-- The elements of lists, and the bytes of texts beyond the first twenty. -/
def extra : SVal → Nat
  | .str s => len s - 20
  | .seq xs => extras xs
  | .map kvs => extraFields kvs
  | .variant _ x => extra x
  | _ => 0
def extras : List SVal → Nat
  | [] => 0
  | x :: xs => 1 + extra x + extras xs
def extraFields : List (String × SVal) → Nat
  | [] => 0
  | (_, x) :: kvs => extra x + extraFields kvs
end

mutual
/-- How deep a value is nested. -/
def height : SVal → Nat
  | .seq xs => 1 + heights xs
  | .map kvs => 1 + heightFields kvs
  | .variant _ x => 1 + height x
  | _ => 0
def heights : List SVal → Nat
  | [] => 0
  | x :: xs => max (height x) (heights xs)
def heightFields : List (String × SVal) → Nat
  | [] => 0
  | (_, x) :: kvs => max (height x) (heightFields kvs)
end

/-! ## The compact text -/

variable {fmt : F32 → Str}

/-- The bytes of the compact text of elements, each with a comma. -/
def elemsLen (fmt : F32 → Str) : List SVal → Nat
  | [] => 0
  | x :: xs => 1 + len (compact fmt x) + elemsLen fmt xs

/-- The bytes of the compact text of members, each with a comma. -/
def fieldsLen (fmt : F32 → Str) : List (String × SVal) → Nat
  | [] => 0
  | (k, x) :: kvs => nameLen k + 2 + len (compact fmt x) + fieldsLen fmt kvs

theorem comma_len (first : Bool) : len (if first then [] else [',']) = if first then 0 else 1 := by
  cases first <;> decide

theorem compactElems_len (first : Bool) (xs : List SVal) :
    len (compactElems fmt first xs) + (if first ∧ xs ≠ [] then 1 else 0) = elemsLen fmt xs := by
  induction xs generalizing first with
  | nil => rw [compactElems, elemsLen]; simp [len_nil]
  | cons x xs ih =>
    have := ih false
    rw [compactElems, elemsLen, len_append, len_append, comma_len]
    simp only [Bool.false_eq_true, false_and, if_false] at this
    cases first <;> simp at this ⊢ <;> omega

theorem compactFields_len (first : Bool) (kvs : List (String × SVal)) :
    len (compactFields fmt first kvs) + (if first ∧ kvs ≠ [] then 1 else 0) = fieldsLen fmt kvs := by
  induction kvs generalizing first with
  | nil => rw [compactFields, fieldsLen]; simp [len_nil]
  | cons kv kvs ih =>
    obtain ⟨k, x⟩ := kv
    have := ih false
    rw [compactFields, fieldsLen, len_append, len_append, len_append, comma_len, len_cons,
      len_ascii (c := ':') (by decide), nameLen]
    simp only [Bool.false_eq_true, false_and, if_false] at this
    cases first <;> simp at this ⊢ <;> omega

theorem seq_len (xs : List SVal) : len (compact fmt (.seq xs)) =
    1 + elemsLen fmt xs + (if xs = [] then 1 else 0) := by
  have := compactElems_len (fmt := fmt) true xs
  rw [compact, List.cons_append, len_cons, len_append, len_ascii (c := '[') (by decide),
    len_ascii (c := ']') (by decide), ← this]
  by_cases h : xs = [] <;> simp [h] <;> omega

theorem map_len (kvs : List (String × SVal)) : len (compact fmt (.map kvs)) =
    1 + fieldsLen fmt kvs + (if kvs = [] then 1 else 0) := by
  have := compactFields_len (fmt := fmt) true kvs
  rw [compact, List.cons_append, len_cons, len_append, len_ascii (c := '{') (by decide),
    len_ascii (c := '}') (by decide), ← this]
  by_cases h : kvs = [] <;> simp [h] <;> omega

theorem variant_len (k : String) (x : SVal) :
    len (compact fmt (.variant k x)) = nameLen k + 3 + len (compact fmt x) := by
  rw [compact, List.cons_append, List.cons_append, len_cons, len_append, len_append, len_cons ':',
    len_ascii (c := '{') (by decide), len_ascii (c := '}') (by decide),
    len_ascii (c := ':') (by decide), nameLen]
  omega

theorem variant_cost {k : String} : ∀ {vs : List (String × Option Shape)},
    (k, none) ∈ vs → nameLen k ≤ costVariants vs
  | [], h => by cases h
  | (k', none) :: vs, h => by
    rw [costVariants]
    rcases List.mem_cons.1 h with h | h
    · cases h; omega
    · have := variant_cost h; omega
  | (k', some s) :: vs, h => by
    rw [costVariants]
    rcases List.mem_cons.1 h with h | h
    · cases h
    · have := variant_cost h; omega

theorem variant_some {k : String} {s : Shape} : ∀ {vs : List (String × Option Shape)},
    (k, some s) ∈ vs → fixedVariants vs = true → fixed s = true ∧
      nameLen k + 3 + cost s ≤ costVariants vs ∧ rate s ≤ rateVariants vs ∧
      high s ≤ highVariants vs
  | [], h, _ => by cases h
  | (k', none) :: vs, h, hf => by
    rw [fixedVariants] at hf
    rw [costVariants, rateVariants, highVariants]
    rcases List.mem_cons.1 h with h | h
    · cases h
    · obtain ⟨h1, h2, h3, h4⟩ := variant_some h hf; exact ⟨h1, by omega, h3, h4⟩
  | (k', some s') :: vs, h, hf => by
    rw [fixedVariants, Bool.and_eq_true] at hf
    rw [costVariants, rateVariants, highVariants]
    rcases List.mem_cons.1 h with h | h
    · cases h; exact ⟨hf.1, by omega, by omega, by omega⟩
    · obtain ⟨h1, h2, h3, h4⟩ := variant_some h hf.2; exact ⟨h1, by omega, by omega, by omega⟩

theorem bits_len {n w : Nat} (h : n ≤ 2 ^ w) (hw : w ≤ 64) :
    n < 10 ^ (if w ≤ 32 then 10 else 20) := by
  split
  · have : 2 ^ w ≤ 2 ^ 32 := Nat.pow_le_pow_right (by decide) (by omega)
    have : 2 ^ 32 < 10 ^ 10 := by decide
    omega
  · have : 2 ^ w ≤ 2 ^ 64 := Nat.pow_le_pow_right (by decide) (by omega)
    have : 2 ^ 64 < 10 ^ 20 := by decide
    omega

theorem number_len {i : Int} {w : Nat} (hw : w ≤ 64) (h : i.natAbs ≤ 2 ^ w) :
    len (compact fmt (.int i)) ≤ if w ≤ 32 then 11 else 21 := by
  have := bits_len h hw
  rw [compact]
  by_cases hc : w ≤ 32
  · rw [if_pos hc] at this ⊢
    exact int_len (by decide) this
  · rw [if_neg hc] at this ⊢
    exact int_len (by decide) this

theorem text_len (s : Str) : len (compact fmt (.str s)) ≤ 122 + 6 * extra (.str s) := by
  have := quoted_len s
  rw [compact, extra]
  omega

/-- A value of a shape, its elements, its fields. -/
theorem has_len (hF : ∀ x, Spec.IsFinite x → len (fmt x) ≤ 16) {s : Shape} {v : SVal} (h : Has s v)
    (hf : fixed s = true) :
    len (compact fmt v) ≤ cost s + rate s * extra v ∧ height v ≤ high s := by
  revert hf
  refine Has.rec
    (motive_1 := fun s v _ => fixed s = true →
      len (compact fmt v) ≤ cost s + rate s * extra v ∧ height v ≤ high s)
    (motive_2 := fun ss xs _ => fixedAll ss = true →
      elemsLen fmt xs ≤ costAll ss + rateAll ss * extras xs ∧ heights xs ≤ highAll ss)
    (motive_3 := fun fs kvs _ => fixedFields fs = true →
      fieldsLen fmt kvs ≤ costFields fs + rateFields fs * extraFields kvs ∧
        heightFields kvs ≤ highFields fs)
    ?_ ?_ ?_ ?_ ?_ ?_ ?_ ?_ ?_ ?_ ?_ ?_ ?_ ?_ ?_ ?_ ?_ ?_ ?_ ?_ ?_ h
  · intro b _
    cases b <;> exact ⟨by rw [compact, cost, bool]; decide +revert, Nat.le_refl _⟩
  · intro w n hn hf
    rw [fixed, decide_eq_true_eq] at hf
    have := number_len (fmt := fmt) (i := (n : Int)) hf (by rw [Int.natAbs_natCast]; omega)
    exact ⟨by rw [cost]; omega, Nat.le_refl _⟩
  · intro w i h1 h2 hf
    rw [fixed, decide_eq_true_eq] at hf
    have h3 : (2 : Int) ^ (w - 1) = ((2 ^ (w - 1) : Nat) : Int) := by norm_cast
    have h4 : 2 ^ (w - 1) ≤ 2 ^ w := Nat.pow_le_pow_right (by decide) (by omega)
    have := number_len (fmt := fmt) (i := i) hf (by omega)
    exact ⟨by rw [cost]; omega, Nat.le_refl _⟩
  · intro x _
    refine ⟨?_, Nat.le_refl _⟩
    rw [compact, cost, float]
    split
    · have : len ['n', 'u', 'l', 'l'] = 4 := by decide
      omega
    · rename_i h
      have := hF x h
      omega
  · intro s _
    exact ⟨text_len s, Nat.le_refl _⟩
  · intro n _ _
    exact ⟨text_len _, Nat.le_refl _⟩
  · intro n _ _
    refine ⟨?_, Nat.le_refl _⟩
    have := text_len (fmt := fmt) (Nat.toDigits 10 n)
    rw [cost, rate]
    omega
  · intro n _ _ _
    refine ⟨?_, Nat.le_refl _⟩
    have := text_len (fmt := fmt) ('-' :: Nat.toDigits 10 n)
    rw [cost, rate]
    omega
  · intro s _
    refine ⟨?_, Nat.zero_le _⟩
    have : len (compact fmt .null) = 4 := by rw [compact]; decide
    rw [cost, this]
    omega
  · intro s j _ ih hf
    rw [fixed] at hf
    obtain ⟨h1, h2⟩ := ih hf
    rw [cost, rate, high]
    exact ⟨by omega, h2⟩
  · intro s js _ ih hf
    rw [fixed] at hf
    rw [seq_len, cost, rate, extra, height, high]
    have : ∀ xs : List SVal, (∀ x ∈ xs, x ∈ js) →
        elemsLen fmt xs ≤ max (1 + cost s) (rate s) * extras xs ∧ heights xs ≤ high s := by
      intro xs
      induction xs with
      | nil => intro _; exact ⟨Nat.zero_le _, Nat.zero_le _⟩
      | cons x xs ihx =>
        intro hx
        obtain ⟨h1, h2⟩ := ihx fun y hy => hx y (List.mem_cons_of_mem x hy)
        obtain ⟨h3, h4⟩ := ih x (hx x List.mem_cons_self) hf
        rw [elemsLen, extras, heights, Nat.mul_add, Nat.mul_add, Nat.mul_one]
        have h5 : rate s * extra x ≤ max (1 + cost s) (rate s) * extra x :=
          Nat.mul_le_mul_right _ (Nat.le_max_right _ _)
        have h6 : 1 + cost s ≤ max (1 + cost s) (rate s) := Nat.le_max_left _ _
        exact ⟨by omega, by omega⟩
    obtain ⟨h1, h2⟩ := this js fun _ h => h
    exact ⟨by split <;> omega, by omega⟩
  · intro ss js _ ih hf
    rw [fixed] at hf
    obtain ⟨h1, h2⟩ := ih hf
    rw [seq_len, cost, rate, extra, height, high]
    exact ⟨by split <;> omega, by omega⟩
  · intro fs kvs _ ih hf
    rw [fixed] at hf
    obtain ⟨h1, h2⟩ := ih hf
    rw [map_len, cost, rate, extra, height, high]
    exact ⟨by split <;> omega, by omega⟩
  · intro vs name hm hf
    have := variant_cost hm
    refine ⟨?_, Nat.zero_le _⟩
    rw [compact, cost]
    unfold nameLen at this
    omega
  · intro vs name s j hm _ ih hf
    rw [fixed] at hf
    obtain ⟨h1, h2, h3, h4⟩ := variant_some hm hf
    obtain ⟨h5, h6⟩ := ih h1
    rw [variant_len, cost, rate, extra, height, high]
    have : rate s * extra j ≤ rateVariants vs * extra j := Nat.mul_le_mul_right _ h3
    exact ⟨by omega, by omega⟩
  · intro _ _ _ _ _ hf
    cases hf
  · intro _ _ _ hf
    cases hf
  · intro _
    exact ⟨Nat.zero_le _, Nat.zero_le _⟩
  · intro s ss j js _ _ ih1 ih2 hf
    rw [fixedAll, Bool.and_eq_true] at hf
    obtain ⟨h1, h2⟩ := ih1 hf.1
    obtain ⟨h3, h4⟩ := ih2 hf.2
    rw [elemsLen, costAll, rateAll, extras, heights, highAll, Nat.mul_add, Nat.mul_add]
    have h5 : rate s * extra j ≤ max (rate s) (rateAll ss) * extra j :=
      Nat.mul_le_mul_right _ (Nat.le_max_left _ _)
    have h6 : rateAll ss * extras js ≤ max (rate s) (rateAll ss) * extras js :=
      Nat.mul_le_mul_right _ (Nat.le_max_right _ _)
    exact ⟨by omega, by omega⟩
  · intro _
    exact ⟨Nat.zero_le _, Nat.zero_le _⟩
  · intro k s fs j kvs _ _ ih1 ih2 hf
    rw [fixedFields, Bool.and_eq_true] at hf
    obtain ⟨h1, h2⟩ := ih1 hf.1
    obtain ⟨h3, h4⟩ := ih2 hf.2
    rw [fieldsLen, costFields, rateFields, extraFields, heightFields, highFields, Nat.mul_add]
    have h5 : rate s * extra j ≤ max (rate s) (rateFields fs) * extra j :=
      Nat.mul_le_mul_right _ (Nat.le_max_left _ _)
    have h6 : rateFields fs * extraFields kvs ≤ max (rate s) (rateFields fs) * extraFields kvs :=
      Nat.mul_le_mul_right _ (Nat.le_max_right _ _)
    exact ⟨by omega, by omega⟩

/-! ## The text with line breaks -/

mutual
/-- The line breaks of the text with line breaks. -/
def lines : SVal → Nat
  | .seq [] => 0
  | .seq (x :: xs) => 2 + lines x + linesAll xs
  | .map [] => 0
  | .map ((_, x) :: kvs) => 2 + lines x + linesFields kvs
  | .variant _ x => 2 + lines x
  | _ => 0
def linesAll : List SVal → Nat
  | [] => 0
  | x :: xs => 1 + lines x + linesAll xs
def linesFields : List (String × SVal) → Nat
  | [] => 0
  | (_, x) :: kvs => 1 + lines x + linesFields kvs
end

theorem newline_len (level : Nat) (first : Bool) :
    len (newline level first) = 1 + 2 * level + (if first then 0 else 1) := by
  unfold newline
  rw [len_append, len_spaces]
  cases first
  · rw [if_neg (by decide), if_neg (by decide), show len [',', '\n'] = 2 by decide]; omega
  · rw [if_pos rfl, if_pos rfl, show len ['\n'] = 1 by decide]; omega

mutual
/-- Each line break takes two bytes for each level, a byte for itself and one after a name. -/
theorem pretty_len (level : Nat) : ∀ v : SVal,
    len (pretty fmt level v) ≤ len (compact fmt v) + lines v * (2 + 2 * (level + height v))
  | .null => by rw [pretty, compact]; omega
  | .bool b => by rw [pretty, compact]; omega
  | .int i => by rw [pretty, compact]; omega
  | .f32 x => by rw [pretty, compact]; omega
  | .str s => by rw [pretty, compact]; omega
  | .unitVariant k => by rw [pretty, compact]; omega
  | .seq [] => by
    rw [seq_len, pretty, elemsLen, show len ['[', ']'] = 2 by decide]
    simp
  | .map [] => by
    rw [map_len, pretty, fieldsLen, show len ['{', '}'] = 2 by decide]
    simp
  | .seq (x :: xs) => by
    have h1 := pretty_len (level + 1) x
    have h2 := prettyElems_len (level + 1) xs
    rw [seq_len, elemsLen, if_neg (List.cons_ne_nil _ _), lines, height, heights, pretty]
    simp only [List.cons_append]
    rw [len_cons '[', len_append, len_append, len_append, len_append, newline_len, newline_len,
      if_pos rfl, show len ['['] = 1 by decide, show len [']'] = 1 by decide]
    have h3 : lines x * (2 + 2 * (level + 1 + height x)) ≤
        lines x * (2 + 2 * (level + (1 + max (height x) (heights xs)))) :=
      Nat.mul_le_mul_left _ (by omega)
    have h4 : linesAll xs * (2 + 2 * (level + 1 + heights xs)) ≤
        linesAll xs * (2 + 2 * (level + (1 + max (height x) (heights xs)))) :=
      Nat.mul_le_mul_left _ (by omega)
    rw [Nat.add_mul, Nat.add_mul]
    omega
  | .map ((k, x) :: kvs) => by
    have h1 := pretty_len (level + 1) x
    have h2 := prettyFields_len (level + 1) kvs
    rw [map_len, fieldsLen, if_neg (List.cons_ne_nil _ _), lines, height, heightFields, pretty]
    simp only [List.cons_append]
    rw [len_cons '{', len_append, len_append, len_append, len_append, len_append, len_append,
      newline_len, newline_len, if_pos rfl, show len ['{'] = 1 by decide,
      show len ['}'] = 1 by decide, show len [':', ' '] = 2 by decide, nameLen]
    have h3 : lines x * (2 + 2 * (level + 1 + height x)) ≤
        lines x * (2 + 2 * (level + (1 + max (height x) (heightFields kvs)))) :=
      Nat.mul_le_mul_left _ (by omega)
    have h4 : linesFields kvs * (2 + 2 * (level + 1 + heightFields kvs)) ≤
        linesFields kvs * (2 + 2 * (level + (1 + max (height x) (heightFields kvs)))) :=
      Nat.mul_le_mul_left _ (by omega)
    rw [Nat.add_mul, Nat.add_mul]
    omega
  | .variant k x => by
    have h1 := pretty_len (level + 1) x
    rw [variant_len, lines, height, pretty]
    simp only [List.cons_append]
    rw [len_cons '{', len_append, len_append, len_append, len_append, len_append, newline_len,
      newline_len, if_pos rfl, show len ['{'] = 1 by decide, show len ['}'] = 1 by decide,
      show len [':', ' '] = 2 by decide, nameLen]
    have h3 : lines x * (2 + 2 * (level + 1 + height x)) =
        lines x * (2 + 2 * (level + (1 + height x))) := by rw [Nat.add_assoc]
    rw [Nat.add_mul]
    omega
theorem prettyElems_len (level : Nat) : ∀ xs : List SVal,
    len (prettyElems fmt level xs) ≤ elemsLen fmt xs + linesAll xs * (2 + 2 * (level + heights xs))
  | [] => by rw [prettyElems, elemsLen, len_nil]; omega
  | x :: xs => by
    have h1 := pretty_len level x
    have h2 := prettyElems_len level xs
    rw [prettyElems, elemsLen, linesAll, heights, len_append, len_append, newline_len,
      if_neg (by decide)]
    have h3 : lines x * (2 + 2 * (level + height x)) ≤
        lines x * (2 + 2 * (level + max (height x) (heights xs))) :=
      Nat.mul_le_mul_left _ (by omega)
    have h4 : linesAll xs * (2 + 2 * (level + heights xs)) ≤
        linesAll xs * (2 + 2 * (level + max (height x) (heights xs))) :=
      Nat.mul_le_mul_left _ (by omega)
    rw [Nat.add_mul, Nat.add_mul]
    omega
theorem prettyFields_len (level : Nat) : ∀ kvs : List (String × SVal),
    len (prettyFields fmt level kvs) ≤
      fieldsLen fmt kvs + linesFields kvs * (2 + 2 * (level + heightFields kvs))
  | [] => by rw [prettyFields, fieldsLen, len_nil]; omega
  | (k, x) :: kvs => by
    have h1 := pretty_len level x
    have h2 := prettyFields_len level kvs
    rw [prettyFields, fieldsLen, linesFields, heightFields, len_append, len_append, len_append,
      len_append, newline_len, if_neg (by decide), show len [':', ' '] = 2 by decide, nameLen]
    have h3 : lines x * (2 + 2 * (level + height x)) ≤
        lines x * (2 + 2 * (level + max (height x) (heightFields kvs))) :=
      Nat.mul_le_mul_left _ (by omega)
    have h4 : linesFields kvs * (2 + 2 * (level + heightFields kvs)) ≤
        linesFields kvs * (2 + 2 * (level + max (height x) (heightFields kvs))) :=
      Nat.mul_le_mul_left _ (by omega)
    rw [Nat.add_mul, Nat.add_mul]
    omega
end

mutual
theorem lines_le : ∀ v : SVal, lines v ≤ len (compact fmt v)
  | .null => Nat.zero_le _
  | .bool _ => Nat.zero_le _
  | .int _ => Nat.zero_le _
  | .f32 _ => Nat.zero_le _
  | .str _ => Nat.zero_le _
  | .unitVariant _ => Nat.zero_le _
  | .seq [] => by rw [lines]; exact Nat.zero_le _
  | .map [] => by rw [lines]; exact Nat.zero_le _
  | .seq (x :: xs) => by
    have h1 := lines_le x
    have h2 := linesAll_le xs
    rw [seq_len, elemsLen, lines]
    omega
  | .map ((k, x) :: kvs) => by
    have h1 := lines_le x
    have h2 := linesFields_le kvs
    rw [map_len, fieldsLen, lines]
    omega
  | .variant k x => by
    have h1 := lines_le x
    rw [variant_len, lines]
    omega
theorem linesAll_le : ∀ xs : List SVal, linesAll xs ≤ elemsLen fmt xs
  | [] => Nat.zero_le _
  | x :: xs => by
    have h1 := lines_le x
    have h2 := linesAll_le xs
    rw [linesAll, elemsLen]
    omega
theorem linesFields_le : ∀ kvs : List (String × SVal), linesFields kvs ≤ fieldsLen fmt kvs
  | [] => Nat.zero_le _
  | (k, x) :: kvs => by
    have h1 := lines_le x
    have h2 := linesFields_le kvs
    rw [linesFields, fieldsLen]
    omega
end

/-- The text with line breaks against the compact one. -/
theorem pretty_compact (v : SVal) :
    len (pretty fmt 0 v) ≤ len (compact fmt v) * (3 + 2 * height v) := by
  have h1 := pretty_len (fmt := fmt) 0 v
  have h2 : lines v * (2 + 2 * (0 + height v)) ≤ len (compact fmt v) * (2 + 2 * (0 + height v)) :=
    Nat.mul_le_mul_right _ (lines_le v)
  have h3 : len (compact fmt v) * (3 + 2 * height v) =
      len (compact fmt v) + len (compact fmt v) * (2 + 2 * (0 + height v)) := by
    rw [Nat.zero_add, show 3 + 2 * height v = 1 + (2 + 2 * height v) by omega, Nat.mul_add,
      Nat.mul_one]
  omega

end Boxcars.Json
