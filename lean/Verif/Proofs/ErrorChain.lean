import Verif.Spec.ErrorChain
import Verif.Proofs.Decimal
import Verif.Proofs.FileFail
/-!
# Texts that determine what they were made from
-/
namespace Boxcars
open Spec Display

/-- The texts differ at some position. -/
def differ : Str → Str → Bool
  | c :: p, d :: k => c != d || differ p k
  | _, _ => false

theorem differ_append {p k : Str} (h : differ p k = true) (x y : Str) : p ++ x ≠ k ++ y := by
  induction p generalizing k with
  | nil => cases k <;> cases h
  | cons c p ih =>
    cases k with
    | nil => cases h
    | cons d k =>
      intro he
      rw [List.cons_append, List.cons_append] at he
      obtain ⟨h1, h2⟩ := List.cons.inj he
      rw [differ, h1] at h
      simp only [bne_self_eq_false, Bool.false_or] at h
      exact ih h h2

theorem t_differ {a b : String} (h : differ a.toList b.toList = true) {x y : Str}
    (he : t a ++ x = t b ++ y) : False := differ_append h x y he

theorem sep_split {s : Char} {a b x y : Str} (ha : s ∉ a) (hb : s ∉ b)
    (h : a ++ s :: x = b ++ s :: y) : a = b ∧ x = y := by
  induction a generalizing b with
  | nil =>
    cases b with
    | nil => simp at h; exact ⟨rfl, h⟩
    | cons c b => simp at h; rw [List.mem_cons, not_or] at hb; exact absurd h.1 hb.1
  | cons c a ih =>
    rw [List.mem_cons, not_or] at ha
    cases b with
    | nil => simp at h; exact absurd h.1.symm ha.1
    | cons d b =>
      rw [List.mem_cons, not_or] at hb
      simp only [List.cons_append, List.cons.injEq] at h
      obtain ⟨h1, h2⟩ := ih ha.2 hb.2 h.2
      exact ⟨by rw [h.1, h1], h2⟩

/-- A number followed by a text that starts with something else. -/
theorem t_split {l : String} {c : Char} {r : Str} (hl : l.toList = c :: r) {a b x y : Str}
    (ha : c ∉ a) (hb : c ∉ b) (h : a ++ (t l ++ x) = b ++ (t l ++ y)) : a = b ∧ x = y := by
  unfold t at h
  rw [hl, List.cons_append, List.cons_append] at h
  obtain ⟨h1, h2⟩ := sep_split ha hb h
  exact ⟨h1, List.append_cancel_left h2⟩

/-- The same from the right. -/
theorem t_split_right {l : String} {c : Char} {r : Str} (hl : l.toList = r ++ [c]) {a b x y : Str}
    (hx : c ∉ x) (hy : c ∉ y) (h : a ++ (t l ++ x) = b ++ (t l ++ y)) : a = b ∧ x = y := by
  unfold t at h
  have h := congrArg List.reverse h
  rw [hl] at h
  simp only [List.reverse_append, List.append_assoc, List.reverse_cons, List.reverse_nil,
    List.nil_append, List.singleton_append] at h
  obtain ⟨h1, h2⟩ := sep_split (fun h => hx (List.mem_reverse.1 h)) (fun h => hy (List.mem_reverse.1 h)) h
  exact ⟨List.reverse_inj.1 (List.append_cancel_left h2), List.reverse_inj.1 h1⟩

theorem decimal_unique {s : Str} {n m : Nat} (h : Decimal s n) (h' : Decimal s m) : n = m := by
  rw [← parseDigits_iff] at h h'
  rw [h] at h'
  exact Option.some.inj h'

theorem displayNat_inj {n m : Nat} (h : displayNat n = displayNat m) : n = m :=
  decimal_unique (decimal_display n) (h ▸ decimal_display m)

theorem decimal_digits {s : Str} {n : Nat} (h : Decimal s n) : ∀ c ∈ s, ∃ d, d < 10 ∧ c = digitOf d := by
  induction h with
  | @digit d h => intro c hc; rw [List.mem_singleton] at hc; exact ⟨d, h, hc⟩
  | snoc _ hd ih =>
    intro c hc
    rcases List.mem_append.1 hc with hc | hc
    · exact ih c hc
    · rw [List.mem_singleton] at hc; exact ⟨_, hd, hc⟩

theorem displayNat_free {c : Char} (h : ∀ d < 10, digitOf d ≠ c) (n : Nat) : c ∉ displayNat n := by
  intro hc
  obtain ⟨d, hd, e⟩ := decimal_digits (decimal_display n) c hc
  exact h d hd e.symm

theorem displayInt_free {c : Char} (h : ∀ d < 10, digitOf d ≠ c) (hm : c ≠ '-') (i : Int) :
    c ∉ displayInt i := by
  unfold displayInt
  split
  · rw [List.mem_cons, not_or]; exact ⟨hm, displayNat_free h _⟩
  · exact displayNat_free h _

theorem displayInt_inj {i j : Int} (h : displayInt i = displayInt j) : i = j := by
  have hm : ∀ n m : Nat, '-' :: displayNat n ≠ displayNat m := by
    intro n m he
    exact displayNat_free (c := '-') (by decide) m (he ▸ List.mem_cons_self)
  unfold displayInt at h
  split at h <;> split at h
  · have := displayNat_inj (List.cons.inj h).2; omega
  · exact absurd h (hm _ _)
  · exact absurd h.symm (hm _ _)
  · have := displayNat_inj h; omega

theorem i32_inj {x y : I32} (h : Display.i32 x = Display.i32 y) : x = y :=
  BitVec.eq_of_toInt_eq (displayInt_inj h)

theorem i32_free {c : Char} (h : ∀ d < 10, digitOf d ≠ c) (hm : c ≠ '-') (x : I32) :
    c ∉ Display.i32 x := displayInt_free h hm _

theorem t_inj {a b : String} (h : t a = t b) : a = b := String.toList_inj.1 h

theorem t_ne_nil {x : Str} {a : String} (h : a.toList ≠ []) : t a ++ x ≠ [] := by
  intro he
  exact h (List.append_eq_nil_iff.1 he).1

theorem utf8_text {e e' : Utf8Error} (h : utf8Error e = utf8Error e') : e = e' := by
  obtain ⟨v, k⟩ := e
  obtain ⟨v', k'⟩ := e'
  unfold utf8Error at h
  cases k with
  | none =>
    cases k' with
    | none =>
      simp only at h
      rw [displayNat_inj (List.append_cancel_left h)]
    | some m =>
      simp only [List.append_assoc] at h
      exact (t_differ (by decide) h).elim
  | some n =>
    cases k' with
    | none =>
      simp only [List.append_assoc] at h
      exact (t_differ (by decide) h).elim
    | some m =>
      simp only [List.append_assoc] at h
      obtain ⟨h1, h2⟩ := t_split (c := ' ') rfl (displayNat_free (by decide) _)
        (displayNat_free (by decide) _) (List.append_cancel_left h)
      rw [displayNat_inj h1, displayNat_inj h2]

theorem attribute_text {e e' : AttributeError} (h : Display.attributeError e = Display.attributeError e') :
    e = e' := by
  have nn : ∀ s : Str, s = s ++ [] := fun s => (List.append_nil s).symm
  cases e <;> cases e' <;> simp only [Display.attributeError] at h
  case notEnoughDataFor.notEnoughDataFor => rw [t_inj (List.append_cancel_left h)]
  case unrecognizedRemoteId.unrecognizedRemoteId =>
    rw [BitVec.eq_of_toNat_eq (displayNat_inj (List.append_cancel_left h))]
  case unimplemented.unimplemented => rfl
  case tooBigString.tooBigString => rw [i32_inj (List.append_cancel_left h)]
  case unimplemented.notEnoughDataFor => rw [nn (t _)] at h; exact (t_differ (by decide) h).elim
  case unimplemented.unrecognizedRemoteId => rw [nn (t _)] at h; exact (t_differ (by decide) h).elim
  case unimplemented.tooBigString => rw [nn (t _)] at h; exact (t_differ (by decide) h).elim
  case notEnoughDataFor.unimplemented =>
    rw [nn (t "Does not have an attribute implementation")] at h; exact (t_differ (by decide) h).elim
  case unrecognizedRemoteId.unimplemented =>
    rw [nn (t "Does not have an attribute implementation")] at h; exact (t_differ (by decide) h).elim
  case tooBigString.unimplemented =>
    rw [nn (t "Does not have an attribute implementation")] at h; exact (t_differ (by decide) h).elim
  all_goals exact (t_differ (by decide) h).elim

/-- The messages of frame errors, given the cause. -/
theorem frame_text (f : Fmt) {e e' : FrameError} (h : Display.frameError f e = Display.frameError f e')
    (hc : ∀ a o s x a' o' s' x', e = .attributeError a o s x → e' = .attributeError a' o' s' x' →
      x = x') : SameFrame f.f32 e e' := by
  cases e <;> cases e' <;> simp only [Display.frameError, line, List.append_assoc] at h
  case notEnoughDataFor.notEnoughDataFor => rw [t_inj (List.append_cancel_left h)]; exact .same
  case timeOutOfRange.timeOutOfRange => exact .time (List.append_cancel_left h)
  case deltaOutOfRange.deltaOutOfRange => exact .delta (List.append_cancel_left h)
  case objectIdOutOfRange.objectIdOutOfRange =>
    rw [i32_inj (List.append_cancel_left h)]; exact .same
  case missingActor.missingActor => rw [i32_inj (List.append_cancel_left h)]; exact .same
  case missingCache.missingCache =>
    obtain ⟨h1, h2⟩ := t_split (c := ' ') rfl (i32_free (by decide) (by decide) _)
      (i32_free (by decide) (by decide) _) (List.append_cancel_left h)
    rw [i32_inj h1, i32_inj h2]; exact .same
  case missingAttribute.missingAttribute =>
    have h := List.append_cancel_left (List.append_cancel_left (List.append_cancel_left
      (List.append_cancel_left (List.append_cancel_left h))))
    obtain ⟨h1, h⟩ := t_split (c := '\n') rfl (i32_free (by decide) (by decide) _)
      (i32_free (by decide) (by decide) _) h
    obtain ⟨h2, h⟩ := t_split (c := '\n') rfl (i32_free (by decide) (by decide) _)
      (i32_free (by decide) (by decide) _) (List.append_cancel_left h)
    have h3 := List.append_cancel_right (List.append_cancel_left h)
    rw [i32_inj h1, i32_inj h2, i32_inj h3]; exact .same
  case attributeError.attributeError a o s x a' o' s' x' =>
    have := hc _ _ _ _ _ _ _ _ rfl rfl
    subst this
    have h := List.append_cancel_left (List.append_cancel_left (List.append_cancel_left h))
    obtain ⟨h1, h⟩ := t_split (c := ' ') rfl (i32_free (by decide) (by decide) _)
      (i32_free (by decide) (by decide) _) h
    obtain ⟨h2, h⟩ := t_split (c := ' ') rfl (i32_free (by decide) (by decide) _)
      (i32_free (by decide) (by decide) _) h
    rw [i32_inj h1, i32_inj h2, i32_inj h]; exact .same
  all_goals exact (t_differ (by decide) h).elim

/-- The messages of network errors, but for failing frames. -/
theorem network_text (f : Fmt) {e e' : NetworkError}
    (h : Display.networkError f e = Display.networkError f e') :
    e = e' ∨ ∃ x c x' c', e = .frameError x c ∧ e' = .frameError x' c' := by
  cases e <;> cases e' <;> simp only [Display.networkError, List.append_assoc] at h
  case streamTooLargeIndex.streamTooLargeIndex =>
    obtain ⟨h1, h2⟩ := t_split (c := ' ') rfl (i32_free (by decide) (by decide) _)
      (i32_free (by decide) (by decide) _) (List.append_cancel_left h)
    rw [i32_inj h1, i32_inj h2]; exact .inl rfl
  case tooManyFrames.tooManyFrames => rw [i32_inj (List.append_cancel_left h)]; exact .inl rfl
  case frameError.frameError => exact .inr ⟨_, _, _, _, rfl, rfl⟩
  all_goals exact (t_differ (by decide) h).elim

/-- What a message tells at once. -/
theorem parse_text (f : Fmt) {e e' : ParseError}
    (h : Display.parseError f e = Display.parseError f e') :
    e = e' ∨ (∃ n n', e = .networkError n ∧ e' = .networkError n' ∧
        Display.networkError f n = Display.networkError f n') ∨
      (∃ s x x', e = .corruptReplay s x ∧ e' = .corruptReplay s x') ∨
      (∃ s o x s' o' x', e = .parseError s o x ∧ e' = .parseError s' o' x' ∧
        t s ++ (t " at offset (" ++ (Display.i32 o ++ (t "): " ++ Display.parseError f x))) =
        t s' ++ (t " at offset (" ++ (Display.i32 o' ++ (t "): " ++ Display.parseError f x')))) := by
  cases e <;> cases e' <;> simp only [Display.parseError, List.append_assoc] at h
  case utf8Error.utf8Error => rw [utf8_text (List.append_cancel_left h)]; exact .inl rfl
  case textTooLarge.textTooLarge =>
    rw [i32_inj (List.append_cancel_right (List.append_cancel_left h))]; exact .inl rfl
  case insufficientData.insufficientData =>
    obtain ⟨h1, h2⟩ := t_split (c := ' ') rfl (i32_free (by decide) (by decide) _)
      (i32_free (by decide) (by decide) _) (List.append_cancel_left h)
    rw [i32_inj h1, i32_inj (List.append_cancel_right h2)]; exact .inl rfl
  case unexpectedProperty.unexpectedProperty => rw [List.append_cancel_left h]; exact .inl rfl
  case crcMismatch.crcMismatch =>
    obtain ⟨h1, h2⟩ := t_split (c := ' ') rfl (displayNat_free (by decide) _)
      (displayNat_free (by decide) _) (List.append_cancel_left h)
    rw [BitVec.eq_of_toNat_eq (displayNat_inj h1), BitVec.eq_of_toNat_eq (displayNat_inj h2)]
    exact .inl rfl
  case corruptReplay.corruptReplay =>
    rw [t_inj (List.append_cancel_right (List.append_cancel_left h))]
    exact .inr (.inr (.inl ⟨_, _, _, rfl, rfl⟩))
  case listTooLarge.listTooLarge =>
    rw [displayNat_inj (List.append_cancel_right (List.append_cancel_left h))]; exact .inl rfl
  case parseError.parseError =>
    exact .inr (.inr (.inr ⟨_, _, _, _, _, _, rfl, rfl, List.append_cancel_left h⟩))
  case networkError.networkError => exact .inr (.inl ⟨_, _, rfl, rfl, h⟩)
  all_goals first
    | exact (t_differ (by decide) h).elim
    | (rename_i n _
       cases n <;> simp only [Display.networkError, List.append_assoc] at h <;>
         exact (t_differ (by decide) h).elim)
    | (rename_i n _ _
       cases n <;> simp only [Display.networkError, List.append_assoc] at h <;>
         exact (t_differ (by decide) h).elim)
    | (rename_i n _ _ _
       cases n <;> simp only [Display.networkError, List.append_assoc] at h <;>
         exact (t_differ (by decide) h).elim)
    | (rename_i n
       cases n <;> simp only [Display.networkError, List.append_assoc] at h <;>
         exact (t_differ (by decide) h).elim)

end Boxcars
