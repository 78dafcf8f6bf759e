import Verif.Model.Json
import Verif.Spec.Json
import Verif.Proofs.Decimal
import Verif.Proofs.ErrorChain
/-!
# JSON texts: one meaning for each, and what is written is one
-/
namespace Boxcars.Json
open Boxcars Spec Spec.Json

/-! ### Strings -/

/-- Four hexadecimal digits at the front. -/
def readHex4 : Str → Option (Nat × Str)
  | a :: b :: c :: d :: r =>
    match hexValue a, hexValue b, hexValue c, hexValue d with
    | some w, some x, some y, some z => some (((w * 16 + x) * 16 + y) * 16 + z, r)
    | _, _, _, _ => none
  | _ => none

/-- A character of a string at the front. -/
def readChar : Str → Option (Char × Str)
  | [] => none
  | c :: r =>
    if c ≠ '\\' then some (c, r)
    else match r with
      | [] => none
      | e :: r =>
        if e = 'b' then some (Char.ofNat 8, r)
        else if e = 'f' then some (Char.ofNat 12, r)
        else if e = 'n' then some (Char.ofNat 10, r)
        else if e = 'r' then some (Char.ofNat 13, r)
        else if e = 't' then some (Char.ofNat 9, r)
        else if e ≠ 'u' then some (e, r)
        else match readHex4 r with
          | none => none
          | some (n, r) =>
            if 0xd800 ≤ n ∧ n < 0xdc00 then
              match readHex4 (r.drop 2) with
              | none => none
              | some (m, r) => some (Char.ofNat (0x10000 + (n - 0xd800) * 1024 + (m - 0xdc00)), r)
            else some (Char.ofNat n, r)

theorem readHex4_of {h : Str} {n : Nat} (H : Hex4 h n) (r : Str) : readHex4 (h ++ r) = some (n, r) := by
  obtain ⟨a, b, c, d, w, x, y, z, rfl, h1, h2, h3, h4, rfl⟩ := H
  simp [readHex4, h1, h2, h3, h4]

theorem char_not_surrogate (c : Char) : ¬(0xd800 ≤ c.toNat ∧ c.toNat < 0xdc00) := by
  have := c.valid
  unfold UInt32.isValidChar Nat.isValidChar at this
  unfold Char.toNat
  omega

theorem readChar_of {c : Char} {t : Str} (h : CharText c t) (r : Str) :
    readChar (t ++ r) = some (c, r) := by
  have hc : ∀ n, c.toNat = n → Char.ofNat n = c := fun n h => h ▸ Char.ofNat_toNat c
  cases h with
  | plain _ _ h3 => simp [readChar, h3]
  | quote => rfl
  | backslash => rfl
  | slash => rfl
  | backspace h => simp [readChar]; exact hc _ h
  | formFeed h => simp [readChar]; exact hc _ h
  | lineFeed h => simp [readChar]; exact hc _ h
  | carriageReturn h => simp [readChar]; exact hc _ h
  | tab h => simp [readChar]; exact hc _ h
  | hex h =>
    have h1 := readHex4_of h r
    simp only [readChar, List.cons_append]
    simp [h1, char_not_surrogate]
  | @pair _ h l a b h1 h2 ha hb hn =>
    have h3 := readHex4_of h1 ('\\' :: 'u' :: l ++ r)
    have h4 := readHex4_of h2 r
    simp only [List.cons_append] at h3
    simp only [readChar, List.cons_append, List.append_assoc]
    simp [h3, h4]
    rw [← hc _ hn, if_pos (by omega)]

theorem charText_head {c : Char} {t : Str} (h : CharText c t) : ∃ d u, t = d :: u ∧ d ≠ '"' := by
  cases h with
  | plain _ h2 _ => exact ⟨_, _, rfl, h2⟩
  | hex => exact ⟨_, _, rfl, by decide⟩
  | pair => exact ⟨_, _, rfl, by decide⟩
  | _ => exact ⟨_, _, rfl, by decide⟩

theorem charText_unique {c c' : Char} {t t' r r' : Str} (h : CharText c t) (h' : CharText c' t')
    (e : t ++ r = t' ++ r') : c = c' ∧ t = t' ∧ r = r' := by
  have h1 := readChar_of h r
  rw [e, readChar_of h' r'] at h1
  cases h1
  exact ⟨rfl, List.append_cancel_right e, rfl⟩

theorem chars_unique {s u : Str} (h : Chars s u) : ∀ {s' u' r r' : Str}, Chars s' u' →
    u ++ '"' :: r = u' ++ '"' :: r' → s = s' ∧ u = u' ∧ r = r' := by
  induction h with
  | nil =>
    intro s' u' r r' h' e
    cases h' with
    | nil => cases e; exact ⟨rfl, rfl, rfl⟩
    | cons h1 h2 =>
      obtain ⟨d, v, rfl, hd⟩ := charText_head h1
      exact absurd (List.cons.inj e).1.symm hd
  | cons h1 h2 ih =>
    intro s' u' r r' h' e
    cases h' with
    | nil =>
      obtain ⟨d, v, rfl, hd⟩ := charText_head h1
      exact absurd (List.cons.inj e).1 hd
    | cons h3 h4 =>
      rw [List.append_assoc, List.append_assoc] at e
      obtain ⟨rfl, rfl, e'⟩ := charText_unique h1 h3 e
      obtain ⟨rfl, rfl, rfl⟩ := ih h4 e'
      exact ⟨rfl, rfl, rfl⟩

theorem string_unique {s s' t t' r r' : Str} (h : StringText s t) (h' : StringText s' t')
    (e : t ++ r = t' ++ r') : s = s' ∧ t = t' ∧ r = r' := by
  obtain ⟨u, h, rfl⟩ := h
  obtain ⟨u', h', rfl⟩ := h'
  simp only [List.cons_append, List.append_assoc, List.nil_append, List.cons.injEq, true_and] at e
  obtain ⟨rfl, rfl, rfl⟩ := chars_unique h h' e
  exact ⟨rfl, rfl, rfl⟩

/-! ### Numbers -/

/-- The characters of numbers. -/
def numChar (c : Char) : Bool :=
  (48 ≤ c.toNat && c.toNat ≤ 57) || c == '.' || c == 'e' || c == 'E' || c == '+' || c == '-'

theorem digits_numChar {t : Str} (h : Digits t) : ∀ c ∈ t, numChar c = true := by
  intro c hc
  obtain ⟨h1, h2⟩ := h.2 c hc
  simp [numChar, h1, h2]

theorem number_chars {t : Str} (h : Number t) : ∀ c ∈ t, numChar c = true := by
  obtain ⟨m, i, f, e, hm, hi, hf, he, rfl⟩ := h
  have h1 : ∀ c ∈ m, numChar c = true := by rcases hm with rfl | rfl <;> decide
  have h2 : ∀ c ∈ i, numChar c = true := by
    rcases hi with rfl | ⟨h, _⟩
    · decide
    · exact digits_numChar h
  have h3 : ∀ c ∈ f, numChar c = true := by
    rcases hf with rfl | ⟨d, h, rfl⟩
    · simp
    · intro c hc
      rcases List.mem_cons.1 hc with rfl | hc
      · decide
      · exact digits_numChar h c hc
  have h4 : ∀ c ∈ e, numChar c = true := by
    rcases he with rfl | ⟨x, s, d, hx, hs, h, rfl⟩
    · simp
    · intro c hc
      rcases List.mem_append.1 hc with hc | hc
      · rcases List.mem_cons.1 hc with rfl | hc
        · rcases hx with rfl | rfl <;> decide
        · rcases hs with rfl | rfl | rfl <;> simp at hc <;> subst hc <;> decide
      · exact digits_numChar h c hc
  intro c hc
  simp only [List.mem_append] at hc
  rcases hc with ((hc | hc) | hc) | hc
  · exact h1 c hc
  · exact h2 c hc
  · exact h3 c hc
  · exact h4 c hc

/-- What may follow a number. -/
def Stop (r : Str) : Prop := ∀ c, r.head? = some c → numChar c = false

theorem takeWhile_stop {t r : Str} (h : ∀ c ∈ t, numChar c = true) (hr : Stop r) :
    (t ++ r).takeWhile numChar = t := by
  rw [List.takeWhile_append_of_pos h]
  cases r with
  | nil => simp
  | cons c r => simp [hr c rfl]

theorem number_unique {t t' r r' : Str} (h : Number t) (h' : Number t') (hr : Stop r) (hr' : Stop r')
    (e : t ++ r = t' ++ r') : t = t' ∧ r = r' := by
  have h1 := takeWhile_stop (number_chars h) hr
  rw [e, takeWhile_stop (number_chars h') hr'] at h1
  subst h1
  exact ⟨rfl, List.append_cancel_left e⟩

theorem number_head {t : Str} (h : Number t) : ∃ c u, t = c :: u ∧ (Digit c ∨ c = '-') := by
  obtain ⟨m, i, f, e, hm, hi, hf, he, rfl⟩ := h
  have hi' : ∃ c u, i = c :: u ∧ Digit c := by
    rcases hi with rfl | ⟨⟨h, h'⟩, _⟩
    · exact ⟨_, _, rfl, by decide, by decide⟩
    · cases i with
      | nil => exact absurd rfl h
      | cons c u => exact ⟨c, u, rfl, h' c (.head _)⟩
  obtain ⟨c, u, rfl, hc⟩ := hi'
  rcases hm with rfl | rfl
  · exact ⟨c, _, rfl, .inl hc⟩
  · exact ⟨'-', _, rfl, .inr rfl⟩

/-! ### White space -/

/-- A character that is not white space. -/
def solid (c : Char) : Prop := c ≠ ' ' ∧ c ≠ '\t' ∧ c ≠ '\n' ∧ c ≠ '\r'

theorem space_unique {w w' : Str} {c c' : Char} {r r' : Str} (h : Space w) (h' : Space w')
    (hc : solid c) (hc' : solid c') (e : w ++ c :: r = w' ++ c' :: r') :
    w = w' ∧ c = c' ∧ r = r' := by
  induction w generalizing w' with
  | nil =>
    cases w' with
    | nil => cases e; exact ⟨rfl, rfl, rfl⟩
    | cons d w' =>
      cases e
      have := h' c (.head _)
      simp only [solid] at hc
      tauto
  | cons d w ih =>
    cases w' with
    | nil =>
      cases e
      have := h c' (.head _)
      simp only [solid] at hc'
      tauto
    | cons d' w' =>
      cases List.cons.inj e with
      | intro h1 h2 =>
        obtain ⟨rfl, rfl, rfl⟩ := ih (fun x hx => h x (.tail _ hx)) (fun x hx => h' x (.tail _ hx)) h2
        exact ⟨by rw [h1], rfl, rfl⟩

theorem space_stop {w : Str} {c : Char} {r : Str} (h : Space w) (hc : numChar c = false) :
    Stop (w ++ c :: r) := by
  intro d hd
  cases w with
  | nil => cases hd; exact hc
  | cons x w =>
    cases hd
    rcases h _ (.head _) with rfl | rfl | rfl | rfl <;> decide

theorem space_stop' {w : Str} (h : Space w) : Stop w := by
  intro d hd
  cases w with
  | nil => cases hd
  | cons x w =>
    cases hd
    rcases h _ (.head _) with rfl | rfl | rfl | rfl <;> decide

/-! ### Values -/

/-- What a value begins with. -/
def opens (c : Char) : Prop := solid c ∧ c ≠ ']' ∧ c ≠ '}' ∧ c ≠ ',' ∧ c ≠ ':'

theorem digit_ne {c d : Char} (h : Digit c) (hd : ¬Digit d) : c ≠ d := fun e => hd (e ▸ h)

theorem not_digit {c : Char} (h : ¬(48 ≤ c.toNat ∧ c.toNat ≤ 57)) : ¬Digit c := h

theorem value_head {x : JVal} {t : Str} (h : Value x t) : ∃ c u, t = c :: u ∧ opens c := by
  cases h with
  | num h =>
    obtain ⟨c, u, rfl, hc⟩ := number_head h
    refine ⟨c, u, rfl, ?_⟩
    rcases hc with hc | rfl
    · exact ⟨⟨digit_ne hc (not_digit (by decide)), digit_ne hc (not_digit (by decide)),
        digit_ne hc (not_digit (by decide)), digit_ne hc (not_digit (by decide))⟩,
        digit_ne hc (not_digit (by decide)), digit_ne hc (not_digit (by decide)),
        digit_ne hc (not_digit (by decide)), digit_ne hc (not_digit (by decide))⟩
    · unfold opens solid; decide
  | str h =>
    obtain ⟨u, _, rfl⟩ := h
    exact ⟨_, _, rfl, by unfold opens solid; decide⟩
  | _ => exact ⟨_, _, rfl, by unfold opens solid; decide⟩

/-- The number of the kind. -/
def kindNum : JVal → Nat
  | .null => 0
  | .bool true => 1
  | .bool false => 2
  | .num _ => 3
  | .str _ => 4
  | .arr _ => 5
  | .obj _ => 6

/-- The number of the kind, from the first character. -/
def kindChar (c : Char) : Nat :=
  if c = 'n' then 0 else if c = 't' then 1 else if c = 'f' then 2 else if c = '"' then 4
  else if c = '[' then 5 else if c = '{' then 6 else 3

theorem value_kindChar {x : JVal} {t : Str} (h : Value x t) : ∃ c u, t = c :: u ∧ kindChar c = kindNum x := by
  cases h with
  | num h =>
    obtain ⟨c, u, rfl, hc⟩ := number_head h
    refine ⟨c, u, rfl, ?_⟩
    rcases hc with hc | rfl
    · simp [kindChar, kindNum, digit_ne hc (not_digit (c := 'n') (by decide)),
        digit_ne hc (not_digit (c := 't') (by decide)), digit_ne hc (not_digit (c := 'f') (by decide)),
        digit_ne hc (not_digit (c := '"') (by decide)), digit_ne hc (not_digit (c := '[') (by decide)),
        digit_ne hc (not_digit (c := '{') (by decide))]
    · simp [kindChar, kindNum]
  | str h => obtain ⟨u, _, rfl⟩ := h; exact ⟨_, _, rfl, by simp [kindChar, kindNum]⟩
  | _ => exact ⟨_, _, rfl, by simp [kindChar, kindNum]⟩

theorem same_kind {x y : JVal} {t t' r r' : Str} (h : Value x t) (h' : Value y t')
    (e : t ++ r = t' ++ r') : kindNum x = kindNum y := by
  obtain ⟨c, u, rfl, hc⟩ := value_kindChar h
  obtain ⟨c', u', rfl, hc'⟩ := value_kindChar h'
  rw [← hc, ← hc', (List.cons.inj e).1]

theorem elems_head {xs : List JVal} {t : Str} (h : Elems xs t) :
    ∃ w c u, Space w ∧ opens c ∧ t = w ++ c :: u := by
  cases h with
  | one h1 h2 _ =>
    obtain ⟨c, u, rfl, hc⟩ := value_head h2
    exact ⟨_, c, _, h1, hc, by simp; rfl⟩
  | more h1 h2 _ _ =>
    obtain ⟨c, u, rfl, hc⟩ := value_head h2
    exact ⟨_, c, _, h1, hc, by simp; rfl⟩

theorem members_head {xs : List (Str × JVal)} {t : Str} (h : Members xs t) :
    ∃ w u, Space w ∧ t = w ++ '"' :: u := by
  cases h with
  | one h1 h2 =>
    obtain ⟨u, _, rfl⟩ := h2
    exact ⟨_, _, h1, by simp; rfl⟩
  | more h1 h2 =>
    obtain ⟨u, _, rfl⟩ := h2
    exact ⟨_, _, h1, by simp; rfl⟩

theorem no_elems {xs : List JVal} {t w r r' : Str} (h : Elems xs t) (hw : Space w) :
    t ++ ']' :: r ≠ w ++ ']' :: r' := by
  intro e
  obtain ⟨w', c, u, h1, h2, rfl⟩ := elems_head h
  rw [List.append_assoc] at e
  have := space_unique h1 hw h2.1 (by unfold solid; decide) e
  exact h2.2.1 this.2.1

theorem no_members {xs : List (Str × JVal)} {t w r r' : Str} (h : Members xs t) (hw : Space w) :
    t ++ '}' :: r ≠ w ++ '}' :: r' := by
  intro e
  obtain ⟨w', u, h1, rfl⟩ := members_head h
  rw [List.append_assoc] at e
  have := space_unique h1 hw (by unfold solid; decide) (by unfold solid; decide) e
  exact absurd this.2.1 (by decide)

/-- Uniqueness for one text of a value. -/
def One (x : JVal) (t : Str) : Prop := ∀ y t' r r', Value y t' → t ++ r = t' ++ r' → Stop r → Stop r' →
  x = y ∧ t = t' ∧ r = r'

/-- For the elements of an array. -/
def OneElems (xs : List JVal) (t : Str) : Prop := ∀ ys t' r r', Elems ys t' →
  t ++ ']' :: r = t' ++ ']' :: r' → xs = ys ∧ t = t' ∧ r = r'

/-- For the members of an object. -/
def OneMembers (xs : List (Str × JVal)) (t : Str) : Prop := ∀ ys t' r r', Members ys t' →
  t ++ '}' :: r = t' ++ '}' :: r' → xs = ys ∧ t = t' ∧ r = r'

/-- White space, a value and white space up to a mark. -/
theorem one_spaced {x y : JVal} {w t v w' t' v' r r' : Str} {c c' : Char} (h : One x t) (hx : Value x t)
    (hw : Space w) (hv : Space v) (hw' : Space w') (hy : Value y t') (hv' : Space v')
    (hc : solid c ∧ numChar c = false) (hc' : solid c' ∧ numChar c' = false)
    (e : w ++ (t ++ (v ++ c :: r)) = w' ++ (t' ++ (v' ++ c' :: r'))) :
    x = y ∧ w = w' ∧ t = t' ∧ v = v' ∧ c = c' ∧ r = r' := by
  have e0 := e
  obtain ⟨d, u, rfl, hd⟩ := value_head hx
  obtain ⟨d', u', rfl, hd'⟩ := value_head hy
  obtain ⟨rfl, _, _⟩ := space_unique hw hw' hd.1 hd'.1 e
  obtain ⟨h1, h2, h3⟩ := h y _ _ _ hy (List.append_cancel_left e0) (space_stop hv hc.2) (space_stop hv' hc'.2)
  obtain ⟨h4, h5, h6⟩ := space_unique hv hv' hc.1 hc'.1 h3
  exact ⟨h1, rfl, h2, h4, h5, h6⟩

/-- A name and a colon. -/
theorem one_key {k k' w q v w' q' v' r r' : Str} (hw : Space w) (hq : StringText k q) (hv : Space v)
    (hw' : Space w') (hq' : StringText k' q') (hv' : Space v')
    (e : w ++ (q ++ (v ++ ':' :: r)) = w' ++ (q' ++ (v' ++ ':' :: r'))) :
    k = k' ∧ w = w' ∧ q = q' ∧ v = v' ∧ r = r' := by
  have e0 := e
  have hq0 := hq
  have hq0' := hq'
  obtain ⟨u, _, rfl⟩ := hq
  obtain ⟨u', _, rfl⟩ := hq'
  obtain ⟨rfl, _, _⟩ := space_unique hw hw' (by unfold solid; decide) (by unfold solid; decide) e
  obtain ⟨h1, h2, h3⟩ := string_unique hq0 hq0' (List.append_cancel_left e0)
  obtain ⟨h4, _, h6⟩ := space_unique hv hv' (by unfold solid; decide) (by unfold solid; decide) h3
  exact ⟨h1, rfl, h2, h4, h6⟩

theorem comma_ok : solid ',' ∧ numChar ',' = false := by unfold solid; decide
theorem bracket_ok : solid ']' ∧ numChar ']' = false := by unfold solid; decide
theorem brace_ok : solid '}' ∧ numChar '}' = false := by unfold solid; decide

theorem one_literal {x : JVal} {t : Str} (h : ∀ y t' r r', Value y t' → kindNum x = kindNum y → 
    t ++ r = t' ++ r' → x = y ∧ t = t' ∧ r = r') (hx : Value x t) : One x t :=
  fun y t' r r' hy e _ _ => h y t' r r' hy (same_kind hx hy e) e

theorem value_unique {x : JVal} {t : Str} (h : Value x t) : One x t := by
  refine Value.rec (motive_1 := fun x t _ => One x t) (motive_2 := fun xs t _ => OneElems xs t)
    (motive_3 := fun xs t _ => OneMembers xs t) ?_ ?_ ?_ ?_ ?_ ?_ ?_ ?_ ?_ ?_ ?_ ?_ ?_ h
  · refine one_literal (fun y t' r r' hy hk e => ?_) .null
    cases hy <;> simp only [kindNum] at hk <;> try cases hk
    exact ⟨rfl, rfl, List.append_cancel_left e⟩
  · refine one_literal (fun y t' r r' hy hk e => ?_) .true_
    cases hy <;> simp only [kindNum] at hk <;> try cases hk
    exact ⟨rfl, rfl, List.append_cancel_left e⟩
  · refine one_literal (fun y t' r r' hy hk e => ?_) .false_
    cases hy <;> simp only [kindNum] at hk <;> try cases hk
    exact ⟨rfl, rfl, List.append_cancel_left e⟩
  · intro t ht y t' r r' hy e hr hr'
    have hk := same_kind (.num ht) hy e
    cases hy with
    | num h' =>
      obtain ⟨rfl, rfl⟩ := number_unique ht h' hr hr' e
      exact ⟨rfl, rfl, rfl⟩
    | _ => simp [kindNum] at hk
  · intro s t ht y t' r r' hy e hr hr'
    have hk := same_kind (.str ht) hy e
    cases hy with
    | str h' =>
      obtain ⟨rfl, rfl, rfl⟩ := string_unique ht h' e
      exact ⟨rfl, rfl, rfl⟩
    | _ => simp [kindNum] at hk
  · intro w hw y t' r r' hy e hr hr'
    have hk := same_kind (.noElems hw) hy e
    cases hy with
    | noElems h' =>
      simp only [List.cons_append, List.append_assoc, List.nil_append, List.cons.injEq, true_and] at e
      obtain ⟨rfl, _, rfl⟩ := space_unique hw h' bracket_ok.1 bracket_ok.1 e
      exact ⟨rfl, rfl, rfl⟩
    | arr h' =>
      simp only [List.cons_append, List.append_assoc, List.nil_append, List.cons.injEq, true_and] at e
      exact absurd e.symm (no_elems h' hw)
    | _ => simp [kindNum] at hk
  · intro xs t ht ih y t' r r' hy e hr hr'
    have hk := same_kind (.arr ht) hy e
    cases hy with
    | noElems h' =>
      simp only [List.cons_append, List.append_assoc, List.nil_append, List.cons.injEq, true_and] at e
      exact absurd e (no_elems ht h')
    | arr h' =>
      simp only [List.cons_append, List.append_assoc, List.nil_append, List.cons.injEq, true_and] at e
      obtain ⟨rfl, rfl, rfl⟩ := ih _ _ _ _ h' e
      exact ⟨rfl, rfl, rfl⟩
    | _ => simp [kindNum] at hk
  · intro w hw y t' r r' hy e hr hr'
    have hk := same_kind (.noMembers hw) hy e
    cases hy with
    | noMembers h' =>
      simp only [List.cons_append, List.append_assoc, List.nil_append, List.cons.injEq, true_and] at e
      obtain ⟨rfl, _, rfl⟩ := space_unique hw h' brace_ok.1 brace_ok.1 e
      exact ⟨rfl, rfl, rfl⟩
    | obj h' =>
      simp only [List.cons_append, List.append_assoc, List.nil_append, List.cons.injEq, true_and] at e
      exact absurd e.symm (no_members h' hw)
    | _ => simp [kindNum] at hk
  · intro xs t ht ih y t' r r' hy e hr hr'
    have hk := same_kind (.obj ht) hy e
    cases hy with
    | noMembers h' =>
      simp only [List.cons_append, List.append_assoc, List.nil_append, List.cons.injEq, true_and] at e
      exact absurd e (no_members ht h')
    | obj h' =>
      simp only [List.cons_append, List.append_assoc, List.nil_append, List.cons.injEq, true_and] at e
      obtain ⟨rfl, rfl, rfl⟩ := ih _ _ _ _ h' e
      exact ⟨rfl, rfl, rfl⟩
    | _ => simp [kindNum] at hk
  · intro x w t v hw hx hv ih ys t' r r' hy e
    cases hy with
    | one h1 h2 h3 =>
      simp only [List.append_assoc] at e
      obtain ⟨rfl, rfl, rfl, rfl, _, rfl⟩ := one_spaced ih hx hw hv h1 h2 h3 bracket_ok bracket_ok e
      exact ⟨rfl, rfl, rfl⟩
    | more h1 h2 h3 h4 =>
      simp only [List.append_assoc] at e
      have := one_spaced ih hx hw hv h1 h2 h3 bracket_ok comma_ok e
      exact absurd this.2.2.2.2.1 (by decide)
  · intro x xs w t v u hw hx hv hxs ih ihs ys t' r r' hy e
    cases hy with
    | one h1 h2 h3 =>
      simp only [List.append_assoc] at e
      have := one_spaced ih hx hw hv h1 h2 h3 comma_ok bracket_ok e
      exact absurd this.2.2.2.2.1 (by decide)
    | more h1 h2 h3 h4 =>
      simp only [List.append_assoc] at e
      obtain ⟨rfl, rfl, rfl, rfl, _, e⟩ := one_spaced ih hx hw hv h1 h2 h3 comma_ok comma_ok e
      obtain ⟨rfl, rfl, rfl⟩ := ihs _ _ _ _ h4 e
      exact ⟨rfl, rfl, rfl⟩
  · intro k x w q w₁ w₂ t v hw hq hw₁ hw₂ hx hv ih ys t' r r' hy e
    cases hy with
    | one h1 h2 h3 h4 h5 h6 =>
      simp only [List.append_assoc, List.cons_append] at e
      obtain ⟨rfl, rfl, rfl, rfl, e'⟩ := one_key hw hq hw₁ h1 h2 h3 e
      obtain ⟨rfl, rfl, rfl, rfl, _, rfl⟩ := one_spaced ih hx hw₂ hv h4 h5 h6 brace_ok brace_ok e'
      exact ⟨rfl, rfl, rfl⟩
    | more h1 h2 h3 h4 h5 h6 h7 =>
      simp only [List.append_assoc, List.cons_append] at e
      obtain ⟨rfl, rfl, rfl, rfl, e'⟩ := one_key hw hq hw₁ h1 h2 h3 e
      have := one_spaced ih hx hw₂ hv h4 h5 h6 brace_ok comma_ok e'
      exact absurd this.2.2.2.2.1 (by decide)
  · intro k x kvs w q w₁ w₂ t v u hw hq hw₁ hw₂ hx hv hxs ih ihs ys t' r r' hy e
    cases hy with
    | one h1 h2 h3 h4 h5 h6 =>
      simp only [List.append_assoc, List.cons_append] at e
      obtain ⟨rfl, rfl, rfl, rfl, e'⟩ := one_key hw hq hw₁ h1 h2 h3 e
      have := one_spaced ih hx hw₂ hv h4 h5 h6 comma_ok brace_ok e'
      exact absurd this.2.2.2.2.1 (by decide)
    | more h1 h2 h3 h4 h5 h6 h7 =>
      simp only [List.append_assoc, List.cons_append] at e
      obtain ⟨rfl, rfl, rfl, rfl, e'⟩ := one_key hw hq hw₁ h1 h2 h3 e
      obtain ⟨rfl, rfl, rfl, rfl, _, e''⟩ := one_spaced ih hx hw₂ hv h4 h5 h6 comma_ok comma_ok e'
      obtain ⟨rfl, rfl, rfl⟩ := ihs _ _ _ _ h7 e''
      exact ⟨rfl, rfl, rfl⟩

/-- A text stands for at most one value. -/
theorem text_unique {x y : JVal} {t : Str} (h : Text x t) (h' : Text y t) : x = y := by
  obtain ⟨w, u, v, hw, hu, hv, rfl⟩ := h
  obtain ⟨w', u', v', hw', hu', hv', e⟩ := h'
  rw [List.append_assoc, List.append_assoc] at e
  have e0 := e
  have hu0 := hu
  obtain ⟨c, a, rfl, hc⟩ := value_head hu
  obtain ⟨c', a', rfl, hc'⟩ := value_head hu'
  obtain ⟨rfl, _, _⟩ := space_unique hw hw' hc.1 hc'.1 e
  exact (value_unique hu0 _ _ _ _ hu' (List.append_cancel_left e0) (space_stop' hv) (space_stop' hv')).1

end Boxcars.Json
