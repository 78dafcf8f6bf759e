import Verif.Spec.Debug
import Verif.Proofs.ErrorChain
/-!
# `Debug` text can be read in one way only
-/
namespace Boxcars.Debug
open Boxcars Spec

variable {s : Std}

/-! ### Escapes -/

theorem hex_char : ∀ d < 16, Nat.digitChar d ≠ '}' ∧ (Nat.digitChar d).isAlphanum = true := by decide

theorem hex_inj : ∀ d < 16, ∀ e < 16, Nat.digitChar d = Nat.digitChar e → d = e := by decide

theorem hex_chars (n : Nat) : ∀ c ∈ Nat.toDigits 16 n, c ≠ '}' ∧ c.isAlphanum = true := by
  induction n using Nat.strongRecOn with
  | _ n ih =>
    intro c hc
    by_cases h : n < 16
    · rw [Nat.toDigits_of_lt_base h, List.mem_singleton] at hc
      rw [hc]; exact hex_char n h
    · rw [Nat.toDigits_of_base_le (by decide) (by omega)] at hc
      rcases List.mem_append.1 hc with hc | hc
      · exact ih (n / 16) (by omega) c hc
      · rw [List.mem_singleton] at hc
        rw [hc]; exact hex_char _ (Nat.mod_lt _ (by decide))

theorem toDigits_inj (n : Nat) : ∀ m, Nat.toDigits 16 n = Nat.toDigits 16 m → n = m := by
  induction n using Nat.strongRecOn with
  | _ n ih =>
    intro m e
    have key : ∀ {k d : Nat} {c : Char}, Nat.toDigits 16 k ++ [Nat.digitChar d] ≠ [c] := by
      intro k d c e
      have h1 := congrArg List.length e
      have h2 := List.length_pos_of_ne_nil (Nat.toDigits_ne_nil (n := k) (b := 16))
      simp only [List.length_append, List.length_singleton] at h1
      omega
    by_cases h : n < 16 <;> by_cases h' : m < 16
    · rw [Nat.toDigits_of_lt_base h, Nat.toDigits_of_lt_base h'] at e
      exact hex_inj n h m h' (List.cons.inj e).1
    · rw [Nat.toDigits_of_lt_base h, Nat.toDigits_of_base_le (by decide) (by omega)] at e
      exact absurd e.symm key
    · rw [Nat.toDigits_of_lt_base h', Nat.toDigits_of_base_le (by decide) (by omega)] at e
      exact absurd e key
    · rw [Nat.toDigits_of_base_le (by decide) (Nat.le_of_not_lt h),
        Nat.toDigits_of_base_le (by decide) (Nat.le_of_not_lt h')] at e
      obtain ⟨e1, e2⟩ := List.append_inj' e rfl
      have := ih (n / 16) (by omega) _ e1
      have := hex_inj _ (Nat.mod_lt n (by decide)) _ (Nat.mod_lt m (by decide)) (List.cons.inj e2).1
      omega

theorem sep_unique {a b x y : Str} {c : Char} (ha : c ∉ a) (hb : c ∉ b)
    (h : a ++ c :: x = b ++ c :: y) : a = b ∧ x = y := by
  induction a generalizing b with
  | nil =>
    cases b with
    | nil => exact ⟨rfl, (List.cons.inj h).2⟩
    | cons d b => exact absurd (by rw [(List.cons.inj h).1]; exact .head _) hb
  | cons d a ih =>
    cases b with
    | nil => exact absurd (by rw [(List.cons.inj h).1]; exact .head _) ha
    | cons e b =>
      obtain ⟨h1, h2⟩ := List.cons.inj h
      obtain ⟨h3, h4⟩ := ih (fun h => ha (.tail _ h)) (fun h => hb (.tail _ h)) h2
      exact ⟨by rw [h1, h3], h4⟩

/-- The ways a character is written. -/
theorem escape_cases (plain : Char → Bool) (c : Char) :
    (c ≠ '\\' ∧ c ≠ '"' ∧ c ≠ '\n' ∧ plain c = true ∧ escape plain c = [c]) ∨
    (∃ x, x ≠ 'u' ∧ x ≠ '\n' ∧ escape plain c = ['\\', x] ∧
      (x, c) ∈ [('0', '\x00'), ('t', '\t'), ('r', '\r'), ('n', '\n'), ('\\', '\\'), ('"', '"')]) ∨
    escape plain c = ['\\', 'u', '{'] ++ Nat.toDigits 16 c.toNat ++ ['}'] := by
  unfold escape
  split
  · next h => exact .inr (.inl ⟨'0', by decide, by decide, rfl, by rw [h]; simp⟩)
  split
  · next h => exact .inr (.inl ⟨'t', by decide, by decide, rfl, by rw [h]; simp⟩)
  split
  · next h => exact .inr (.inl ⟨'r', by decide, by decide, rfl, by rw [h]; simp⟩)
  split
  · next h => exact .inr (.inl ⟨'n', by decide, by decide, rfl, by rw [h]; simp⟩)
  split
  · next h => exact .inr (.inl ⟨'\\', by decide, by decide, rfl, by rw [h]; simp⟩)
  split
  · next h => exact .inr (.inl ⟨'"', by decide, by decide, rfl, by rw [h]; simp⟩)
  split
  · next h1 h2 h3 h4 => exact .inl ⟨h2, h3, h1, h4, rfl⟩
  · exact .inr (.inr rfl)

theorem escape_unique {plain : Char → Bool} {c d : Char} {x y : Str}
    (h : escape plain c ++ x = escape plain d ++ y) : c = d ∧ x = y := by
  have named : ∀ {a b c d : Char},
      (a, c) ∈ [('0', '\x00'), ('t', '\t'), ('r', '\r'), ('n', '\n'), ('\\', '\\'), ('"', '"')] →
      (b, d) ∈ [('0', '\x00'), ('t', '\t'), ('r', '\r'), ('n', '\n'), ('\\', '\\'), ('"', '"')] →
      a = b → c = d := by
    intro a b c d h1 h2 e
    subst e
    simp only [List.mem_cons, Prod.mk.injEq, List.not_mem_nil, or_false] at h1 h2
    rcases h1 with h1 | h1 | h1 | h1 | h1 | h1 <;> rcases h2 with h2 | h2 | h2 | h2 | h2 | h2 <;>
      first
        | exact absurd (h1.1.symm.trans h2.1) (by decide)
        | exact h1.2.trans h2.2.symm
  rcases escape_cases plain c with ⟨c1, c2, _, _, ec⟩ | ⟨a, a1, _, ec, ha⟩ | ec <;>
    rcases escape_cases plain d with ⟨d1, d2, _, _, ed⟩ | ⟨b, b1, _, ed, hb⟩ | ed <;>
    rw [ec, ed] at h <;> simp only [List.cons_append, List.nil_append, List.append_assoc,
      List.cons.injEq] at h
  · exact h
  · exact absurd h.1 c1
  · exact absurd h.1 c1
  · exact absurd h.1.symm d1
  · exact ⟨named ha hb h.2.1, h.2.2⟩
  · exact absurd h.2.1 a1
  · exact absurd h.1.symm d1
  · exact absurd h.2.1.symm b1
  · obtain ⟨h1, h2⟩ := sep_unique (fun h => (hex_chars _ _ h).1 rfl)
      (fun h => (hex_chars _ _ h).1 rfl) h.2.2.2
    exact ⟨Char.toNat_inj.1 (toDigits_inj _ _ h1), h2⟩

theorem escape_head (plain : Char → Bool) (c : Char) : ∃ x t, escape plain c = x :: t ∧ x ≠ '"' := by
  rcases escape_cases plain c with ⟨_, h, _, _, e⟩ | ⟨x, _, _, e, _⟩ | e
  · exact ⟨_, _, e, h⟩
  · exact ⟨_, _, e, by decide⟩
  · exact ⟨_, _, e, by decide⟩

theorem text_unique {plain : Char → Bool} {a b r r' : Str}
    (h : a.flatMap (escape plain) ++ '"' :: r = b.flatMap (escape plain) ++ '"' :: r') :
    a = b ∧ r = r' := by
  induction a generalizing b with
  | nil =>
    cases b with
    | nil => exact ⟨rfl, (List.cons.inj h).2⟩
    | cons d b =>
      obtain ⟨x, t, e, hx⟩ := escape_head plain d
      rw [List.flatMap_cons, e] at h
      exact absurd (List.cons.inj h).1.symm hx
  | cons c a ih =>
    cases b with
    | nil =>
      obtain ⟨x, t, e, hx⟩ := escape_head plain c
      rw [List.flatMap_cons, e] at h
      exact absurd (List.cons.inj h).1 hx
    | cons d b =>
      rw [List.flatMap_cons, List.flatMap_cons, List.append_assoc, List.append_assoc] at h
      obtain ⟨h1, h2⟩ := escape_unique h
      obtain ⟨h3, h4⟩ := ih h2
      exact ⟨by rw [h1, h3], h4⟩

/-! ### Words -/

/-- The text does not go on with a word. -/
def Stops (r : Str) : Prop := ∀ c t, r = c :: t → ¬AtomChar c

theorem word_unique {a b r r' : Str} (ha : ∀ c ∈ a, AtomChar c) (hb : ∀ c ∈ b, AtomChar c)
    (hr : Stops r) (hr' : Stops r') (h : a ++ r = b ++ r') : a = b ∧ r = r' := by
  induction a generalizing b with
  | nil =>
    cases b with
    | nil => exact ⟨rfl, h⟩
    | cons d b => exact absurd (hb d (.head _)) (hr d _ h)
  | cons c a ih =>
    cases b with
    | nil => exact absurd (ha c (.head _)) (hr' c _ h.symm)
    | cons d b =>
      obtain ⟨h1, h2⟩ := List.cons.inj h
      obtain ⟨h3, h4⟩ := ih (fun c hc => ha c (.tail _ hc)) (fun c hc => hb c (.tail _ hc)) h2
      exact ⟨by rw [h1, h3], h4⟩

/-- What follows a value. -/
def Follow (r : Str) : Prop :=
  r = [] ∨ ∃ t, r = ',' :: t ∨ r = ')' :: t ∨ r = ']' :: t ∨ r = ' ' :: '}' :: t

instance (c : Char) : Decidable (AtomChar c) := inferInstanceAs (Decidable (_ ∨ _))

theorem Follow.stops {r : Str} (h : Follow r) : Stops r := by
  rintro c t rfl
  rcases h with h | ⟨t', h | h | h | h⟩ <;> cases h <;> decide

/-! ### Values -/

mutual
/-- Floats replaced by their texts. -/
def DVal.erase (s : Std) : DVal → DVal
  | .float x => .atom (s.debug x)
  | .node k n is => .node k n (is.erase s)
  | v => v
def DItems.erase (s : Std) : DItems → DItems
  | .nil => .nil
  | .cons l v r => .cons l (v.erase s) (r.erase s)
end

/-- Short names without punctuation. -/
def Word (n : String) : Prop := (∀ c ∈ n.toList, AtomChar c) ∧ n.toList.length ≤ 24

instance (n : String) : Decidable (Word n) := inferInstanceAs (Decidable (_ ∧ _))

mutual
/-- Names are words. -/
def DVal.Wf : DVal → Prop
  | .atom a => a ≠ [] ∧ (∀ c ∈ a, AtomChar c) ∧ a.length ≤ 24
  | .float _ => True
  | .text _ => True
  | .node k n is => Word n ∧ (n = "" ↔ k = .list) ∧ is.Wf k
def DItems.Wf (k : Kind) : DItems → Prop
  | .nil => True
  | .cons l v r => Word l ∧ (k ≠ .record → l = "") ∧ v.Wf ∧ r.Wf k
end

theorem opening_stops (k : Kind) (r : Str) : Stops (k.opening ++ r) := by
  intro c t h
  cases k <;> cases h <;> decide

theorem toList_ne {n : String} (h : n ≠ "") : n.toList ≠ [] := by
  intro e
  exact h (String.toList_inj.1 (by rw [e]; rfl))

theorem show_head {n : Nat} (hf : FloatDebug n s.debug) (v : DVal) (h : v.Wf) :
    ∃ c t, v.show s = c :: t ∧ (AtomChar c ∨ c = '"' ∨ c = '[') := by
  cases v with
  | atom a =>
    obtain ⟨h1, h2, _⟩ := h
    cases a with
    | nil => exact absurd rfl h1
    | cons c t => exact ⟨c, t, by rw [DVal.show], .inl (h2 c (.head _))⟩
  | float x =>
    obtain ⟨h1, h2⟩ := hf.chars x
    cases e : s.debug x with
    | nil => exact absurd e h1
    | cons c t =>
      rw [e] at h2
      exact ⟨c, t, by rw [DVal.show, e], .inl (h2 c (.head _))⟩
  | text => exact ⟨_, _, by rw [DVal.show], .inr (.inl rfl)⟩
  | node k n is =>
    obtain ⟨⟨h1, _⟩, h2, _⟩ := h
    by_cases e : n = ""
    · rw [h2.1 e, e]
      exact ⟨'[', _, by rw [DVal.show]; rfl, .inr (.inr rfl)⟩
    · cases e' : n.toList with
      | nil => exact absurd e' (toList_ne e)
      | cons c t =>
        rw [e'] at h1
        exact ⟨c, _, by rw [DVal.show, e']; rfl, .inl (h1 c (.head _))⟩

/-- The word a value begins with, and what follows. -/
def DVal.word (s : Std) : DVal → Str
  | .atom a => a
  | .float x => s.debug x
  | .text _ => []
  | .node _ n _ => n.toList
def DVal.tail (s : Std) : DVal → Str
  | .atom _ => []
  | .float _ => []
  | .text t => '"' :: (t.flatMap (escape s.plain) ++ ['"'])
  | .node k _ is => k.opening ++ (is.show s k true ++ k.closing)

theorem show_eq (v : DVal) : v.show s = v.word s ++ v.tail s := by
  cases v <;> simp [DVal.show, DVal.word, DVal.tail]

theorem word_chars {n : Nat} (hf : FloatDebug n s.debug) {v : DVal} (h : v.Wf) :
    ∀ c ∈ v.word s, AtomChar c := by
  cases v with
  | atom a => exact h.2.1
  | float x => exact (hf.chars x).2
  | text => intro c hc; cases hc
  | node => exact h.1.1

theorem tail_stops {v : DVal} {r : Str} (hr : Follow r) : Stops (v.tail s ++ r) := by
  cases v with
  | atom => exact hr.stops
  | float => exact hr.stops
  | text => intro c t h; cases h; decide
  | node k => rw [DVal.tail, List.append_assoc]; exact opening_stops k _

/-- How the first characters of the rest tell what it is. -/
theorem follow_ne {r t : Str} (h : Follow r) : r ≠ '(' :: t ∧ r ≠ ' ' :: '{' :: t ∧ r ≠ '[' :: t ∧
    r ≠ '"' :: t := by
  refine ⟨?_, ?_, ?_, ?_⟩ <;> rintro rfl <;> rcases h with h | ⟨t', h | h | h | h⟩ <;> cases h

theorem follow_opening {r x : Str} {k : Kind} (h : Follow r) : r ≠ k.opening ++ x := by
  cases k
  · exact (follow_ne h).1
  · exact (follow_ne h).2.1
  · exact (follow_ne h).2.2.1

theorem opening_inj {k l : Kind} {x y : Str} (h : k.opening ++ x = l.opening ++ y) : k = l ∧ x = y := by
  cases k <;> cases l <;> cases h <;> exact ⟨rfl, rfl⟩

theorem closing_ne {k : Kind} {r t : Str} {c : Char} (hc : AtomChar c ∨ c = '"' ∨ c = '[' ∨ c = ',' ∨ c = ':') :
    k.closing ++ r ≠ c :: t := by
  intro h
  cases k <;> cases h <;> revert hc <;> decide

theorem closing_follow (k : Kind) (r : Str) : Follow (k.closing ++ r) := by
  cases k
  · exact .inr ⟨_, .inr (.inl rfl)⟩
  · exact .inr ⟨_, .inr (.inr (.inr rfl))⟩
  · exact .inr ⟨_, .inr (.inr (.inl rfl))⟩

theorem items_follow (k : Kind) (is : DItems) (r : Str) :
    Follow (is.show s k false ++ (k.closing ++ r)) := by
  cases is with
  | nil => rw [DItems.show]; exact closing_follow k r
  | cons l v is => rw [DItems.show]; exact .inr ⟨_, .inl rfl⟩

/-- The first field does not begin like the end. -/
theorem cons_ne {n : Nat} (hf : FloatDebug n s.debug) {k : Kind} {first : Bool} {l : String} {v : DVal}
    {is : DItems} {x r : Str} (h : (DItems.cons l v is).Wf k) :
    k.closing ++ r ≠ (DItems.cons l v is).show s k first ++ x := by
  obtain ⟨⟨h1, _⟩, _, h3, _⟩ := h
  rw [DItems.show]
  cases first with
  | false => exact closing_ne (.inr (.inr (.inr (.inl rfl))))
  | true =>
    by_cases hk : k = .record
    · rw [Kind.label, if_pos hk]
      cases e : l.toList with
      | nil => exact closing_ne (.inr (.inr (.inr (.inr rfl))))
      | cons c t =>
        rw [e] at h1
        exact closing_ne (.inl (h1 c (.head _)))
    · rw [Kind.label, if_neg hk]
      obtain ⟨c, t, e, hc⟩ := show_head hf v h3
      rw [e]
      refine closing_ne ?_
      rcases hc with hc | hc | hc
      · exact .inl hc
      · exact .inr (.inl hc)
      · exact .inr (.inr (.inl hc))

mutual
theorem read_val {n : Nat} (hf : FloatDebug n s.debug) : ∀ (v w : DVal) (r r' : Str), v.Wf → w.Wf →
    Follow r → Follow r' → v.show s ++ r = w.show s ++ r' → v.erase s = w.erase s ∧ r = r'
  | v, w, r, r', hv, hw, hr, hr', h => by
    rw [show_eq, show_eq, List.append_assoc, List.append_assoc] at h
    obtain ⟨h1, h2⟩ := word_unique (word_chars hf hv) (word_chars hf hw) (tail_stops hr)
      (tail_stops hr') h
    have empty : ∀ {u : DVal}, u.Wf → u.word s = [] → (∃ t, u = .text t) ∨
        ∃ is, u = .node .list "" is := by
      intro u hu e
      cases u with
      | atom a => exact absurd e hu.1
      | float x => exact absurd e (hf.chars x).1
      | text t => exact .inl ⟨t, rfl⟩
      | node k n is =>
        have : n = "" := Classical.byContradiction fun hn => toList_ne hn e
        subst this
        rw [hu.2.1.1 rfl]
        exact .inr ⟨is, rfl⟩
    cases v with
    | atom a =>
      cases w with
      | atom b => exact ⟨by rw [show a = b from h1], h2⟩
      | float y => exact ⟨congrArg DVal.atom h1, h2⟩
      | text t => exact absurd h2 (follow_ne hr).2.2.2
      | node k m js =>
        simp only [DVal.tail, List.nil_append, List.append_assoc] at h2
        exact absurd h2 (follow_opening hr)
    | float x =>
      cases w with
      | atom b => exact ⟨congrArg DVal.atom h1, h2⟩
      | float y => exact ⟨congrArg DVal.atom h1, h2⟩
      | text t => exact absurd h2 (follow_ne hr).2.2.2
      | node k m js =>
        simp only [DVal.tail, List.nil_append, List.append_assoc] at h2
        exact absurd h2 (follow_opening hr)
    | text t =>
      cases w with
      | atom b => exact absurd h1.symm hw.1
      | float y => exact absurd h1.symm (hf.chars y).1
      | text u =>
        simp only [DVal.tail, List.cons_append, List.append_assoc, List.cons.injEq, true_and,
          List.nil_append] at h2
        obtain ⟨h3, h4⟩ := text_unique h2
        exact ⟨by rw [h3], h4⟩
      | node k m js =>
        rcases empty hw h1.symm with ⟨_, e⟩ | ⟨_, e⟩ <;> cases e
        cases h2
    | node k m is =>
      cases w with
      | atom b =>
        simp only [DVal.tail, List.nil_append, List.append_assoc] at h2
        exact absurd h2.symm (follow_opening hr')
      | float y =>
        simp only [DVal.tail, List.nil_append, List.append_assoc] at h2
        exact absurd h2.symm (follow_opening hr')
      | text u =>
        rcases empty hv h1 with ⟨_, e⟩ | ⟨_, e⟩ <;> cases e
        cases h2
      | node l m' js =>
        simp only [DVal.tail, List.append_assoc] at h2
        obtain ⟨rfl, h2⟩ := opening_inj h2
        obtain ⟨h3, h4⟩ := read_items hf k true is js r r' hv.2.2 hw.2.2 h2
        exact ⟨by rw [DVal.erase, DVal.erase, h3, show m = m' from String.toList_inj.1 h1], h4⟩
theorem read_items {n : Nat} (hf : FloatDebug n s.debug) : ∀ (k : Kind) (first : Bool)
    (is js : DItems) (r r' : Str), is.Wf k → js.Wf k →
    is.show s k first ++ (k.closing ++ r) = js.show s k first ++ (k.closing ++ r') →
    is.erase s = js.erase s ∧ r = r'
  | k, first, .nil, .nil, r, r', _, _, h => ⟨rfl, List.append_cancel_left h⟩
  | k, first, .nil, .cons l v is, r, r', _, h', h => by
    rw [DItems.show] at h
    exact absurd h (cons_ne hf h')
  | k, first, .cons l v is, .nil, r, r', h', _, h => by
    rw [DItems.show.eq_1] at h
    exact absurd h.symm (cons_ne hf h')
  | k, first, .cons l v is, .cons m w js, r, r', hi, hj, h => by
    rw [DItems.show, DItems.show] at h
    simp only [List.append_assoc] at h
    have h := List.append_cancel_left h
    have hl : l = m ∧ v.show s ++ (is.show s k false ++ (k.closing ++ r)) =
        w.show s ++ (js.show s k false ++ (k.closing ++ r')) := by
      by_cases hk : k = .record
      · simp only [Kind.label, if_pos hk, List.append_assoc] at h
        have stop : ∀ x : Str, Stops ([':', ' '] ++ x) := by
          intro x c t e
          cases e; decide
        obtain ⟨h1, h2⟩ := word_unique hi.1.1 hj.1.1 (stop _) (stop _) h
        exact ⟨String.toList_inj.1 h1, List.append_cancel_left h2⟩
      · simp only [Kind.label, if_neg hk, List.nil_append] at h
        exact ⟨(hi.2.1 hk).trans (hj.2.1 hk).symm, h⟩
    obtain ⟨h1, h2⟩ := read_val hf v w _ _ hi.2.2.1 hj.2.2.1 (items_follow k is r)
      (items_follow k js r') hl.2
    obtain ⟨h3, h4⟩ := read_items hf k false is js r r' hi.2.2.2 hj.2.2.2 h2
    exact ⟨by rw [DItems.erase, DItems.erase, hl.1, h1, h3], h4⟩
end

mutual
theorem show_erase (v : DVal) : (v.erase s).show s = v.show s := by
  cases v with
  | atom => rfl
  | float => rfl
  | text => rfl
  | node k n is => rw [DVal.erase, DVal.show, DVal.show, items_erase]
theorem items_erase (k : Kind) (b : Bool) (is : DItems) : (is.erase s).show s k b = is.show s k b := by
  cases is with
  | nil => rfl
  | cons l v is => rw [DItems.erase, DItems.show, DItems.show, show_erase, items_erase]
end

/-- Two values have the same text if and only if they are the same but for floats with the same
text. -/
theorem show_iff {n : Nat} (hf : FloatDebug n s.debug) {v w : DVal} (hv : v.Wf) (hw : w.Wf) :
    v.show s = w.show s ↔ v.erase s = w.erase s := by
  constructor
  · intro h
    exact (read_val hf v w [] [] hv hw (.inl rfl) (.inl rfl) (by rw [h])).1
  · intro h
    rw [← show_erase v, h, show_erase]

end Boxcars.Debug
