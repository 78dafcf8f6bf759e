import Verif.Proofs.Text
/-!
# What the UTF-8 validator reports
-/
namespace Boxcars
open Spec

theorem Except.map_eq_error {ε α β : Type} {x : Except ε α} {f : α → β} {e : ε}
    (h : x.map f = .error e) : x = .error e := by
  cases x with
  | error e' => cases h; rfl
  | ok a => cases h

/-- Bytes that decode to a single character are its encoding. -/
theorem utf8Char_of_decode {p t : List Byte} {c : Char} (h : utf8Decode 0 (p ++ t) = .ok [c]) :
    utf8Char c = p ++ t := by
  have := utf8Decode_ok 0 _ _ h
  simpa [utf8] using this.symm

/-- If whatever follows `p` decoding fails, `p` begins no character. -/
theorem no_char_of_error {p : List Byte} (h : ∀ t, ∃ e, utf8Decode 0 (p ++ t) = .error e) :
    ¬ ∃ c t, utf8Char c = p ++ t := by
  rintro ⟨c, t, hc⟩
  obtain ⟨e, he⟩ := h t
  have := utf8Decode_append_char 0 c []
  rw [List.append_nil, hc, he] at this
  simp [utf8Decode, Except.map] at this

theorem utf8Decode_error_le {off : Nat} {bs : List Byte} {e : Utf8Error}
    (h : utf8Decode off bs = .error e) : off ≤ e.validUpTo := by
  fun_induction utf8Decode off bs
  all_goals first
    | (cases h; exact Nat.le_refl _)
    | (rename_i ih; have := ih (Except.map_eq_error h); omega)
    | cases h

theorem utf8Char_ne_nil (c : Char) : 1 ≤ (utf8Char c).length := by
  rw [utf8Char_eq]; split
  · simp
  · split
    · simp
    · split <;> simp

/-- A sequence rejected at its first byte starts with no character. -/
theorem no_char_start {off : Nat} {bs : List Byte} {k : Option Nat}
    (h : utf8Decode off bs = .error ⟨off, k⟩) : ∀ c t, bs ≠ utf8Char c ++ t := by
  intro c t hbs
  rw [hbs, utf8Decode_append_char] at h
  have h1 := utf8Decode_error_le (Except.map_eq_error h)
  have h2 := utf8Char_ne_nil c
  simp only at h1
  omega

theorem seq2 {b0 b1 : Byte} (h0 : ¬ b0.toNat < 0x80)
    (h1 : (decide (0xC2 ≤ b0.toNat) && decide (b0.toNat ≤ 0xDF)) = true) (h2 : isCont b1 = true) :
    ∃ c, utf8Char c = [b0, b1] := by
  have h : utf8Decode 0 ([b0] ++ [b1]) =
      .ok [Char.ofNat ((b0.toNat - 0xC0) * 64 + (b1.toNat - 0x80))] := by
    rw [List.singleton_append, utf8Decode.eq_def]
    simp only [if_neg h0, if_pos h1, h2, Bool.not_true, Bool.false_eq_true, if_false]
    rfl
  exact ⟨_, utf8Char_of_decode h⟩

theorem seq3 {b0 b1 b2 : Byte} (h0 : ¬ b0.toNat < 0x80)
    (h00 : ¬ (decide (0xC2 ≤ b0.toNat) && decide (b0.toNat ≤ 0xDF)) = true)
    (h1 : (decide (0xE0 ≤ b0.toNat) && decide (b0.toNat ≤ 0xEF)) = true)
    (h2 : utf8Second3 b0.toNat b1.toNat = true) (h3 : isCont b2 = true) :
    ∃ c, utf8Char c = [b0, b1, b2] := by
  have h : utf8Decode 0 ([b0] ++ [b1, b2]) =
      .ok [Char.ofNat ((b0.toNat - 0xE0) * 4096 + (b1.toNat - 0x80) * 64 + (b2.toNat - 0x80))] := by
    rw [List.singleton_append, utf8Decode.eq_def]
    simp only [if_neg h0, if_neg h00, if_pos h1, h2, h3, Bool.not_true, Bool.false_eq_true, if_false]
    rfl
  exact ⟨_, utf8Char_of_decode h⟩

theorem seq4 {b0 b1 b2 b3 : Byte} (h0 : ¬ b0.toNat < 0x80)
    (h00 : ¬ (decide (0xC2 ≤ b0.toNat) && decide (b0.toNat ≤ 0xDF)) = true)
    (h01 : ¬ (decide (0xE0 ≤ b0.toNat) && decide (b0.toNat ≤ 0xEF)) = true)
    (h1 : (decide (0xF0 ≤ b0.toNat) && decide (b0.toNat ≤ 0xF4)) = true)
    (h2 : utf8Second4 b0.toNat b1.toNat = true) (h3 : isCont b2 = true) (h4 : isCont b3 = true) :
    ∃ c, utf8Char c = [b0, b1, b2, b3] := by
  have h : utf8Decode 0 ([b0] ++ [b1, b2, b3]) =
      .ok [Char.ofNat ((b0.toNat - 0xF0) * 262144 + (b1.toNat - 0x80) * 4096
        + (b2.toNat - 0x80) * 64 + (b3.toNat - 0x80))] := by
    rw [List.singleton_append, utf8Decode.eq_def]
    simp only [if_neg h0, if_neg h00, if_neg h01, if_pos h1, h2, h3, h4, Bool.not_true,
      Bool.false_eq_true, if_false]
    rfl
  exact ⟨_, utf8Char_of_decode h⟩

/-- Some second byte fits every first byte of a three byte sequence. -/
theorem second3 {n : Nat} (h1 : (decide (0xE0 ≤ n) && decide (n ≤ 0xEF)) = true) :
    ∃ b : Byte, utf8Second3 n b.toNat = true := by
  simp only [Bool.and_eq_true, decide_eq_true_eq] at h1
  by_cases h : n = 0xE0
  · exact ⟨0xA0#8, by subst h; decide⟩
  · refine ⟨0x80#8, ?_⟩
    simp only [utf8Second3, Bool.or_eq_true, Bool.and_eq_true, beq_iff_eq, decide_eq_true_eq,
      BitVec.toNat_ofNat]
    omega

/-- Some second byte fits every first byte of a four byte sequence. -/
theorem second4 {n : Nat} (h1 : (decide (0xF0 ≤ n) && decide (n ≤ 0xF4)) = true) :
    ∃ b : Byte, utf8Second4 n b.toNat = true := by
  simp only [Bool.and_eq_true, decide_eq_true_eq] at h1
  by_cases h : n = 0xF0
  · exact ⟨0x90#8, by subst h; decide⟩
  · refine ⟨0x80#8, ?_⟩
    simp only [utf8Second4, Bool.or_eq_true, Bool.and_eq_true, beq_iff_eq, decide_eq_true_eq,
      BitVec.toNat_ofNat]
    omega

theorem isCont_80 : isCont 0x80#8 = true := by decide

/-- A report at the start of the sequence. -/
theorem fault_here {off v : Nat} {bs : List Byte} {k k' : Option Nat} (hne : bs ≠ [])
    (hd : utf8Decode off bs = .error ⟨off, k⟩)
    (h : (Except.error ⟨off, k⟩ : Except Utf8Error Str) = .error ⟨v, k'⟩)
    (hk : match k with
      | none => ∃ c t, utf8Char c = bs ++ t
      | some n => 1 ≤ n ∧ n ≤ bs.length ∧ (n = 1 ∨ ∃ c t, utf8Char c = bs.take n ++ t) ∧
          ∀ t, ∃ e, utf8Decode 0 (bs.take (n + 1) ++ t) = .error e) :
    off ≤ v ∧ Utf8Fault bs (v - off) k' := by
  cases h
  refine ⟨Nat.le_refl _, [], bs, rfl, by simp [utf8], hne, no_char_start hd, ?_⟩
  cases k with
  | none => exact hk
  | some n => exact ⟨hk.1, hk.2.1, hk.2.2.1, no_char_of_error hk.2.2.2⟩

/-- A report behind a character. -/
theorem fault_later {off v : Nat} {p bs : List Byte} {c : Char} {k : Option Nat}
    (hp : utf8Char c = p) (ih : off + p.length ≤ v ∧ Utf8Fault bs (v - (off + p.length)) k) :
    off ≤ v ∧ Utf8Fault (p ++ bs) (v - off) k := by
  obtain ⟨hle, s, rest, h1, h2, h3, h4, h5⟩ := ih
  subst hp
  refine ⟨by omega, c :: s, rest, ?_, ?_, h3, h4, h5⟩
  · rw [h1, utf8, utf8, List.flatMap_cons, List.append_assoc]
  · rw [utf8] at h2
    rw [utf8, List.flatMap_cons, List.length_append]
    omega

set_option linter.unusedSimpArgs false in
/-- The report of the validator, when it starts at offset `off`. -/
theorem utf8Decode_error {off : Nat} {bs : List Byte} {v : Nat} {k : Option Nat}
    (h : utf8Decode off bs = .error ⟨v, k⟩) : off ≤ v ∧ Utf8Fault bs (v - off) k := by
  fun_induction utf8Decode off bs
  · cases h
  · rename_i b0 rest n0 h0 ih
    have hn : n0 = b0.toNat := rfl
    clear_value n0
    subst hn
    have hc : utf8Char (Char.ofNat b0.toNat) = [b0] := by
      refine utf8Char_of_decode (p := [b0]) (t := []) ?_
      rw [List.append_nil, utf8Decode.eq_def]
      simp only
      rw [if_pos h0]; rfl
    exact fault_later hc (ih (Except.map_eq_error h))
  · rename_i b0 n0 h0 h1
    have hn : n0 = b0.toNat := rfl
    clear_value n0
    subst hn
    exact fault_here (by simp) (by rw [utf8Decode.eq_def]; simp only [if_neg h0, if_pos h1,
          Bool.not_true, Bool.not_false, Bool.false_eq_true, if_true, if_false]) h
      (by obtain ⟨c, hc⟩ := seq2 h0 h1 isCont_80; exact ⟨c, _, hc⟩)
  · rename_i b0 n0 h0 h1 b1 rest h2
    have hn : n0 = b0.toNat := rfl
    clear_value n0
    subst hn
    simp only [Bool.not_eq_true'] at h2
    exact fault_here (by simp) (by rw [utf8Decode.eq_def]; simp only [if_neg h0, if_pos h1, h2,
          Bool.not_true, Bool.not_false, Bool.false_eq_true, if_true, if_false]) h
      ⟨Nat.le_refl _, by simp, .inl rfl, fun t => ⟨_, by
        simp only [List.take, List.cons_append, List.nil_append]; rw [utf8Decode.eq_def]; simp only [if_neg h0, if_pos h1, h2,
          Bool.not_true, Bool.not_false, Bool.false_eq_true, if_true, if_false]; rfl⟩⟩
  · rename_i b0 n0 h0 h1 b1 rest h2 ih
    have hn : n0 = b0.toNat := rfl
    clear_value n0
    subst hn
    simp only [Bool.not_eq_true', Bool.not_eq_false] at h2
    obtain ⟨c, hc⟩ := seq2 h0 h1 h2
    exact fault_later hc (ih (Except.map_eq_error h))
  · rename_i b0 n0 h0 h00 h1
    have hn : n0 = b0.toNat := rfl
    clear_value n0
    subst hn
    exact fault_here (by simp) (by rw [utf8Decode.eq_def]; simp only [if_neg h0, if_neg h00, if_pos h1,
          Bool.not_true, Bool.not_false, Bool.false_eq_true, if_true, if_false]) h
      (by
        obtain ⟨b, hb⟩ := second3 h1
        obtain ⟨c, hc⟩ := seq3 h0 h00 h1 hb isCont_80
        exact ⟨c, _, hc⟩)
  · rename_i b0 n0 h0 h00 h1 b1 rest h2
    have hn : n0 = b0.toNat := rfl
    clear_value n0
    subst hn
    simp only [Bool.not_eq_true'] at h2
    exact fault_here (by simp) (by rw [utf8Decode.eq_def]; simp only [if_neg h0, if_neg h00, if_pos h1, h2,
          Bool.not_true, Bool.not_false, Bool.false_eq_true, if_true, if_false]) h
      ⟨Nat.le_refl _, by simp, .inl rfl, fun t => ⟨_, by
        simp only [List.take, List.cons_append, List.nil_append]; rw [utf8Decode.eq_def]; simp only [if_neg h0, if_neg h00, if_pos h1, h2,
          Bool.not_true, Bool.not_false, Bool.false_eq_true, if_true, if_false]; rfl⟩⟩
  · rename_i b0 n0 h0 h00 h1 b1 h2
    have hn : n0 = b0.toNat := rfl
    clear_value n0
    subst hn
    simp only [Bool.not_eq_true', Bool.not_eq_false] at h2
    exact fault_here (by simp) (by rw [utf8Decode.eq_def]; simp only [if_neg h0, if_neg h00, if_pos h1, h2,
          Bool.not_true, Bool.not_false, Bool.false_eq_true, if_true, if_false]) h
      (by obtain ⟨c, hc⟩ := seq3 h0 h00 h1 h2 isCont_80; exact ⟨c, _, hc⟩)
  · rename_i b0 n0 h0 h00 h1 b1 h2 b2 rest h3
    have hn : n0 = b0.toNat := rfl
    clear_value n0
    subst hn
    simp only [Bool.not_eq_true', Bool.not_eq_false] at h2 h3
    exact fault_here (by simp) (by rw [utf8Decode.eq_def]; simp only [if_neg h0, if_neg h00, if_pos h1, h2, h3,
          Bool.not_true, Bool.not_false, Bool.false_eq_true, if_true, if_false]) h
      ⟨by omega, by simp, .inr (by
        obtain ⟨c, hc⟩ := seq3 h0 h00 h1 h2 isCont_80; exact ⟨c, _, hc⟩), fun t => ⟨_, by
        simp only [List.take, List.cons_append, List.nil_append]; rw [utf8Decode.eq_def]; simp only [if_neg h0, if_neg h00, if_pos h1, h2, h3,
          Bool.not_true, Bool.not_false, Bool.false_eq_true, if_true, if_false]; rfl⟩⟩
  · rename_i b0 n0 h0 h00 h1 b1 h2 b2 rest h3 ih
    have hn : n0 = b0.toNat := rfl
    clear_value n0
    subst hn
    simp only [Bool.not_eq_true', Bool.not_eq_false] at h2 h3
    obtain ⟨c, hc⟩ := seq3 h0 h00 h1 h2 h3
    exact fault_later hc (ih (Except.map_eq_error h))
  · rename_i b0 n0 h0 h00 h01 h1
    have hn : n0 = b0.toNat := rfl
    clear_value n0
    subst hn
    exact fault_here (by simp) (by rw [utf8Decode.eq_def]; simp only [if_neg h0, if_neg h00, if_neg h01, if_pos h1,
          Bool.not_true, Bool.not_false, Bool.false_eq_true, if_true, if_false]) h
      (by
        obtain ⟨b, hb⟩ := second4 h1
        obtain ⟨c, hc⟩ := seq4 h0 h00 h01 h1 hb isCont_80 isCont_80
        exact ⟨c, _, hc⟩)
  · rename_i b0 n0 h0 h00 h01 h1 b1 rest h2
    have hn : n0 = b0.toNat := rfl
    clear_value n0
    subst hn
    simp only [Bool.not_eq_true'] at h2
    exact fault_here (by simp) (by rw [utf8Decode.eq_def]; simp only [if_neg h0, if_neg h00, if_neg h01, if_pos h1, h2,
          Bool.not_true, Bool.not_false, Bool.false_eq_true, if_true, if_false]) h
      ⟨Nat.le_refl _, by simp, .inl rfl, fun t => ⟨_, by
        simp only [List.take, List.cons_append, List.nil_append]; rw [utf8Decode.eq_def]; simp only [if_neg h0, if_neg h00, if_neg h01, if_pos h1, h2,
          Bool.not_true, Bool.not_false, Bool.false_eq_true, if_true, if_false]; rfl⟩⟩
  · rename_i b0 n0 h0 h00 h01 h1 b1 h2
    have hn : n0 = b0.toNat := rfl
    clear_value n0
    subst hn
    simp only [Bool.not_eq_true', Bool.not_eq_false] at h2
    exact fault_here (by simp) (by rw [utf8Decode.eq_def]; simp only [if_neg h0, if_neg h00, if_neg h01, if_pos h1, h2,
          Bool.not_true, Bool.not_false, Bool.false_eq_true, if_true, if_false]) h
      (by
        obtain ⟨c, hc⟩ := seq4 h0 h00 h01 h1 h2 isCont_80 isCont_80
        exact ⟨c, _, hc⟩)
  · rename_i b0 n0 h0 h00 h01 h1 b1 h2 b2 rest h3
    have hn : n0 = b0.toNat := rfl
    clear_value n0
    subst hn
    simp only [Bool.not_eq_true', Bool.not_eq_false] at h2 h3
    exact fault_here (by simp) (by rw [utf8Decode.eq_def]; simp only [if_neg h0, if_neg h00, if_neg h01, if_pos h1, h2, h3,
          Bool.not_true, Bool.not_false, Bool.false_eq_true, if_true, if_false]) h
      ⟨by omega, by simp, .inr (by
        obtain ⟨c, hc⟩ := seq4 h0 h00 h01 h1 h2 isCont_80 isCont_80
        exact ⟨c, _, hc⟩), fun t => ⟨_, by
        simp only [List.take, List.cons_append, List.nil_append]; rw [utf8Decode.eq_def]; simp only [if_neg h0, if_neg h00, if_neg h01, if_pos h1, h2, h3,
          Bool.not_true, Bool.not_false, Bool.false_eq_true, if_true, if_false]; rfl⟩⟩
  · rename_i b0 n0 h0 h00 h01 h1 b1 h2 b2 h3
    have hn : n0 = b0.toNat := rfl
    clear_value n0
    subst hn
    simp only [Bool.not_eq_true', Bool.not_eq_false] at h2 h3
    exact fault_here (by simp) (by rw [utf8Decode.eq_def]; simp only [if_neg h0, if_neg h00, if_neg h01, if_pos h1, h2, h3,
          Bool.not_true, Bool.not_false, Bool.false_eq_true, if_true, if_false]) h
      (by
        obtain ⟨c, hc⟩ := seq4 h0 h00 h01 h1 h2 h3 isCont_80
        exact ⟨c, _, hc⟩)
  · rename_i b0 n0 h0 h00 h01 h1 b1 h2 b2 h3 b3 rest h4
    have hn : n0 = b0.toNat := rfl
    clear_value n0
    subst hn
    simp only [Bool.not_eq_true', Bool.not_eq_false] at h2 h3 h4
    exact fault_here (by simp) (by rw [utf8Decode.eq_def]; simp only [if_neg h0, if_neg h00, if_neg h01, if_pos h1, h2, h3, h4,
          Bool.not_true, Bool.not_false, Bool.false_eq_true, if_true, if_false]) h
      ⟨by omega, by simp, .inr (by
        obtain ⟨c, hc⟩ := seq4 h0 h00 h01 h1 h2 h3 isCont_80
        exact ⟨c, _, hc⟩), fun t => ⟨_, by
        simp only [List.take, List.cons_append, List.nil_append]; rw [utf8Decode.eq_def]; simp only [if_neg h0, if_neg h00, if_neg h01, if_pos h1, h2, h3, h4,
          Bool.not_true, Bool.not_false, Bool.false_eq_true, if_true, if_false]; rfl⟩⟩
  · rename_i b0 n0 h0 h00 h01 h1 b1 h2 b2 h3 b3 rest h4 ih
    have hn : n0 = b0.toNat := rfl
    clear_value n0
    subst hn
    simp only [Bool.not_eq_true', Bool.not_eq_false] at h2 h3 h4
    obtain ⟨c, hc⟩ := seq4 h0 h00 h01 h1 h2 h3 h4
    exact fault_later hc (ih (Except.map_eq_error h))
  · rename_i b0 rest n0 h0 h00 h01 h1
    have hn : n0 = b0.toNat := rfl
    clear_value n0
    subst hn
    exact fault_here (by simp) (by rw [utf8Decode.eq_def]; simp only [if_neg h0, if_neg h00, if_neg h01, if_neg h1,
          Bool.not_true, Bool.not_false, Bool.false_eq_true, if_true, if_false]) h
      ⟨Nat.le_refl _, by simp, .inl rfl, fun t => ⟨⟨0, some 1⟩, by
        cases rest <;> simp only [List.take, List.cons_append, List.nil_append] <;>
        rw [utf8Decode.eq_def] <;> simp only [if_neg h0, if_neg h00, if_neg h01, if_neg h1,
          Bool.not_true, Bool.not_false, Bool.false_eq_true, if_true, if_false]⟩⟩

/-- UTF-8 is a prefix code. -/
theorem utf8Char_append_inj {c c' : Char} {t t' : List Byte}
    (h : utf8Char c ++ t = utf8Char c' ++ t') : c = c' ∧ t = t' := by
  have key : ∀ {c c' : Char} {t t' : List Byte}, utf8Char c ++ t = utf8Char c' ++ t' →
      (utf8Char c).length ≤ (utf8Char c').length → c = c' := by
    intro c c' t t' h hl
    have hp : utf8Char c' = utf8Char c ++ (utf8Char c').drop (utf8Char c).length := by
      have h1 := congrArg (List.take (utf8Char c).length) h
      rw [List.take_left, List.take_append_of_le_length hl] at h1
      have h2 := List.take_append_drop (utf8Char c).length (utf8Char c')
      rw [← h1] at h2
      exact h2.symm
    have h2 := utf8Decode_append_char 0 c' []
    rw [List.append_nil, hp, utf8Decode_append_char] at h2
    obtain ⟨a, -, ha⟩ := Except.map_eq_ok (h2.trans (by rfl : _ = Except.ok [c']))
    exact (List.cons.inj ha).1
  have hc : c = c' := by
    rcases Nat.le_total (utf8Char c).length (utf8Char c').length with hl | hl
    · exact key h hl
    · exact (key h.symm hl).symm
  subst hc
  exact ⟨rfl, List.append_cancel_left h⟩

theorem fault_not_ok (s s' : Str) (rest : List Byte) (h : utf8 s = utf8 s' ++ rest)
    (hne : rest ≠ []) (hno : ∀ c t, rest ≠ utf8Char c ++ t) : False := by
  induction s' generalizing s with
  | nil =>
    rw [utf8, utf8, List.flatMap_nil, List.nil_append] at h
    cases s with
    | nil => exact hne (by simpa using h.symm)
    | cons c s => rw [List.flatMap_cons] at h; exact hno _ _ h.symm
  | cons c' s' ih =>
    cases s with
    | nil =>
      have h1 := utf8Char_ne_nil c'
      have h2 := congrArg List.length h
      simp only [utf8, List.flatMap_nil, List.flatMap_cons, List.length_append, List.length_nil] at h2
      omega
    | cons c s =>
      rw [utf8, utf8, List.flatMap_cons, List.flatMap_cons, List.append_assoc] at h
      exact ih s (utf8Char_append_inj h).2

/-- Where and why: position and length are determined by the bytes. -/
theorem utf8Fault_unique {bs : List Byte} {v v' : Nat} {k k' : Option Nat}
    (h : Utf8Fault bs v k) (h' : Utf8Fault bs v' k') : v = v' ∧ k = k' := by
  obtain ⟨s, rest, hb, hv, hne, hno, hk⟩ := h
  obtain ⟨s', rest', hb', hv', hne', hno', hk'⟩ := h'
  have key : ∀ (s s' : Str) (rest rest' : List Byte), utf8 s ++ rest = utf8 s' ++ rest' →
      (∀ c t, rest ≠ utf8Char c ++ t) → (∀ c t, rest' ≠ utf8Char c ++ t) → s = s' ∧ rest = rest' := by
    intro s
    induction s with
    | nil =>
      intro s' rest rest' h h1 h2
      cases s' with
      | nil => exact ⟨rfl, by simpa [utf8] using h⟩
      | cons c s' =>
        rw [utf8, utf8, List.flatMap_nil, List.nil_append, List.flatMap_cons, List.append_assoc] at h
        exact (h1 _ _ h).elim
    | cons c s ih =>
      intro s' rest rest' h h1 h2
      cases s' with
      | nil =>
        rw [utf8, utf8, List.flatMap_nil, List.nil_append, List.flatMap_cons, List.append_assoc] at h
        exact (h2 _ _ h.symm).elim
      | cons c' s' =>
        rw [utf8, utf8, List.flatMap_cons, List.append_assoc, List.flatMap_cons,
          List.append_assoc] at h
        obtain ⟨hc, hr⟩ := utf8Char_append_inj h
        obtain ⟨hs, hr⟩ := ih s' rest rest' hr h1 h2
        exact ⟨by rw [hc, hs], hr⟩
  obtain ⟨rfl, rfl⟩ := key s s' rest rest' (hb.symm.trans hb') hno hno'
  refine ⟨hv.trans hv'.symm, ?_⟩
  have mono : ∀ i j, i ≤ j → (∃ c t, utf8Char c = rest.take j ++ t) →
      ∃ c t, utf8Char c = rest.take i ++ t := by
    rintro i j hij ⟨c, t, h⟩
    refine ⟨c, (rest.take j).drop i ++ t, ?_⟩
    rw [← List.append_assoc, h]
    congr 1
    have h2 := List.take_append_drop i (rest.take j)
    rw [List.take_take, Nat.min_eq_left hij] at h2
    exact h2.symm
  have full : (∃ c t, utf8Char c = rest ++ t) → ∀ i, ∃ c t, utf8Char c = rest.take i ++ t := by
    rintro ⟨c, t, h⟩ i
    exact ⟨c, rest.drop i ++ t, by rw [← List.append_assoc, List.take_append_drop, h]⟩
  have one : ∀ n m, 1 ≤ n → n < m → (m = 1 ∨ ∃ c t, utf8Char c = rest.take m ++ t) →
      (¬ ∃ c t, utf8Char c = rest.take (n + 1) ++ t) → False := by
    intro n m hn hnm h1 h2
    rcases h1 with h1 | h1
    · omega
    · exact h2 (mono _ _ hnm h1)
  cases k with
  | none =>
    cases k' with
    | none => rfl
    | some n => exact (hk'.2.2.2 (full hk _)).elim
  | some n =>
    cases k' with
    | none => exact (hk.2.2.2 (full hk' _)).elim
    | some m =>
      rcases Nat.lt_trichotomy n m with h | h | h
      · exact (one n m hk.1 h hk'.2.2.1 hk.2.2.2).elim
      · rw [h]
      · exact (one m n hk'.1 h hk.2.2.1 hk'.2.2.2).elim

/-- The validator reports a fault exactly where and as the specification says. -/
theorem utf8Decode_error_iff {bs : List Byte} {v : Nat} {k : Option Nat} :
    utf8Decode 0 bs = .error ⟨v, k⟩ ↔ Utf8Fault bs v k := by
  constructor
  · intro h; exact (utf8Decode_error h).2
  · intro h
    cases hd : utf8Decode 0 bs with
    | ok s =>
      have hs := utf8Decode_ok 0 bs s hd
      obtain ⟨s', rest, hb, -, hne, hno, -⟩ := h
      exact (fault_not_ok s s' rest (hs.symm.trans hb) hne hno).elim
    | error e =>
      obtain ⟨v', k'⟩ := e
      obtain ⟨rfl, rfl⟩ := utf8Fault_unique h (utf8Decode_error hd).2
      rfl

end Boxcars
