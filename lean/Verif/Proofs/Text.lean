import Verif.Model.Text
import Verif.Spec.Text
/-!
# Lemmas about the text decoders
-/
namespace Boxcars
open Spec

theorem char_range (c : Char) :
    c.toNat < 0xD800 ∨ (0xDFFF < c.toNat ∧ c.toNat < 0x110000) := by
  have := c.valid
  simp only [UInt32.isValidChar, Nat.isValidChar] at this
  exact this

theorem ofNat_toNat_of_valid {n : Nat} (h : n < 0xD800 ∨ (0xDFFF < n ∧ n < 0x110000)) :
    (Char.ofNat n).toNat = n := by
  have hv : n.isValidChar := h
  simp only [Char.ofNat, hv, dif_pos]
  rfl

/-! ## UTF-8 -/

theorem utf8Char_eq (c : Char) : utf8Char c =
    if c.toNat ≤ 0x7f then [BitVec.ofNat 8 c.toNat]
    else if c.toNat ≤ 0x7ff then
      [BitVec.ofNat 8 (c.toNat / 64 % 0x20 + 0xc0), BitVec.ofNat 8 (c.toNat % 0x40 + 0x80)]
    else if c.toNat ≤ 0xffff then
      [BitVec.ofNat 8 (c.toNat / 4096 % 0x10 + 0xe0),
       BitVec.ofNat 8 (c.toNat / 64 % 0x40 + 0x80), BitVec.ofNat 8 (c.toNat % 0x40 + 0x80)]
    else
      [BitVec.ofNat 8 (c.toNat / 262144 % 0x08 + 0xf0),
       BitVec.ofNat 8 (c.toNat / 4096 % 0x40 + 0x80),
       BitVec.ofNat 8 (c.toNat / 64 % 0x40 + 0x80), BitVec.ofNat 8 (c.toNat % 0x40 + 0x80)] := by
  unfold utf8Char String.utf8EncodeChar
  have hc : c.val.toNat = c.toNat := rfl
  simp only [hc]
  split
  · rfl
  · split
    · rfl
    · split
      · rfl
      · rfl

/-- Decoding the encoding of a character. -/
theorem utf8Decode_append_char (off : Nat) (c : Char) (rest : List Byte) :
    utf8Decode off (utf8Char c ++ rest) =
      (utf8Decode (off + (utf8Char c).length) rest).map (c :: ·) := by
  have hc := char_range c
  have hof : ∀ n, n = c.toNat → Char.ofNat n = c := by
    rintro n rfl; exact Char.ofNat_toNat c
  rw [utf8Char_eq]
  split
  · rename_i h
    rw [List.singleton_append, utf8Decode.eq_def]
    have e : (BitVec.ofNat 8 c.toNat).toNat = c.toNat := by
      rw [BitVec.toNat_ofNat]; omega
    simp only [e]
    rw [if_pos (by omega), hof _ rfl]; rfl
  · split
    · rename_i h0 h
      have e0 : (BitVec.ofNat 8 (c.toNat / 64 % 0x20 + 0xc0)).toNat = c.toNat / 64 + 0xc0 := by
        rw [BitVec.toNat_ofNat]; omega
      have e1 : (BitVec.ofNat 8 (c.toNat % 0x40 + 0x80)).toNat = c.toNat % 64 + 0x80 := by
        rw [BitVec.toNat_ofNat]; omega
      simp only [List.cons_append, List.nil_append]
      rw [utf8Decode.eq_def]
      simp only [e0, e1, isCont]
      rw [if_neg (by omega), if_pos (by simp only [Bool.and_eq_true, decide_eq_true_eq]; omega),
        if_neg (by simp only [Bool.not_eq_true', Bool.and_eq_false_iff, decide_eq_false_iff_not]; omega),
        hof _ (by omega)]
      rfl
    · split
      · rename_i h0 h1 h
        have e0 : (BitVec.ofNat 8 (c.toNat / 4096 % 0x10 + 0xe0)).toNat = c.toNat / 4096 + 0xe0 := by
          rw [BitVec.toNat_ofNat]; omega
        have e1 : (BitVec.ofNat 8 (c.toNat / 64 % 0x40 + 0x80)).toNat = c.toNat / 64 % 64 + 0x80 := by
          rw [BitVec.toNat_ofNat]; omega
        have e2 : (BitVec.ofNat 8 (c.toNat % 0x40 + 0x80)).toNat = c.toNat % 64 + 0x80 := by
          rw [BitVec.toNat_ofNat]; omega
        simp only [List.cons_append, List.nil_append]
        rw [utf8Decode.eq_def]
        simp only [e0, e1, e2, isCont, utf8Second3]
        have hs : ((c.toNat / 4096 + 0xe0 == 0xE0 && decide (0xA0 ≤ c.toNat / 64 % 64 + 0x80)
            && decide (c.toNat / 64 % 64 + 0x80 ≤ 0xBF))
          || (decide (0xE1 ≤ c.toNat / 4096 + 0xe0) && decide (c.toNat / 4096 + 0xe0 ≤ 0xEC)
            && decide (0x80 ≤ c.toNat / 64 % 64 + 0x80) && decide (c.toNat / 64 % 64 + 0x80 ≤ 0xBF))
          || (c.toNat / 4096 + 0xe0 == 0xED && decide (0x80 ≤ c.toNat / 64 % 64 + 0x80)
            && decide (c.toNat / 64 % 64 + 0x80 ≤ 0x9F))
          || (decide (0xEE ≤ c.toNat / 4096 + 0xe0) && decide (c.toNat / 4096 + 0xe0 ≤ 0xEF)
            && decide (0x80 ≤ c.toNat / 64 % 64 + 0x80)
            && decide (c.toNat / 64 % 64 + 0x80 ≤ 0xBF))) = true := by
          simp only [Bool.or_eq_true, Bool.and_eq_true, decide_eq_true_eq, beq_iff_eq]
          omega
        rw [hs]
        rw [if_neg (by omega), if_neg (by simp only [Bool.and_eq_true, decide_eq_true_eq]; omega),
          if_pos (by simp only [Bool.and_eq_true, decide_eq_true_eq]; omega),
          if_neg (by simp),
          if_neg (by simp only [Bool.not_eq_true', Bool.and_eq_false_iff, decide_eq_false_iff_not]; omega),
          hof _ (by omega)]
        rfl
      · rename_i h0 h1 h
        have e0 : (BitVec.ofNat 8 (c.toNat / 262144 % 0x08 + 0xf0)).toNat = c.toNat / 262144 + 0xf0 := by
          rw [BitVec.toNat_ofNat]; omega
        have e1 : (BitVec.ofNat 8 (c.toNat / 4096 % 0x40 + 0x80)).toNat = c.toNat / 4096 % 64 + 0x80 := by
          rw [BitVec.toNat_ofNat]; omega
        have e2 : (BitVec.ofNat 8 (c.toNat / 64 % 0x40 + 0x80)).toNat = c.toNat / 64 % 64 + 0x80 := by
          rw [BitVec.toNat_ofNat]; omega
        have e3 : (BitVec.ofNat 8 (c.toNat % 0x40 + 0x80)).toNat = c.toNat % 64 + 0x80 := by
          rw [BitVec.toNat_ofNat]; omega
        simp only [List.cons_append, List.nil_append]
        rw [utf8Decode.eq_def]
        simp only [e0, e1, e2, e3, isCont, utf8Second4]
        have hs : ((c.toNat / 262144 + 0xf0 == 0xF0 && decide (0x90 ≤ c.toNat / 4096 % 64 + 0x80)
            && decide (c.toNat / 4096 % 64 + 0x80 ≤ 0xBF))
          || (decide (0xF1 ≤ c.toNat / 262144 + 0xf0) && decide (c.toNat / 262144 + 0xf0 ≤ 0xF3)
            && decide (0x80 ≤ c.toNat / 4096 % 64 + 0x80)
            && decide (c.toNat / 4096 % 64 + 0x80 ≤ 0xBF))
          || (c.toNat / 262144 + 0xf0 == 0xF4 && decide (0x80 ≤ c.toNat / 4096 % 64 + 0x80)
            && decide (c.toNat / 4096 % 64 + 0x80 ≤ 0x8F))) = true := by
          simp only [Bool.or_eq_true, Bool.and_eq_true, decide_eq_true_eq, beq_iff_eq]
          omega
        rw [hs]
        rw [if_neg (by omega), if_neg (by simp only [Bool.and_eq_true, decide_eq_true_eq]; omega),
          if_neg (by simp only [Bool.and_eq_true, decide_eq_true_eq]; omega),
          if_pos (by simp only [Bool.and_eq_true, decide_eq_true_eq]; omega),
          if_neg (by simp),
          if_neg (by simp only [Bool.not_eq_true', Bool.and_eq_false_iff, decide_eq_false_iff_not]; omega),
          if_neg (by simp only [Bool.not_eq_true', Bool.and_eq_false_iff, decide_eq_false_iff_not]; omega),
          hof _ (by omega)]
        rfl

theorem utf8Decode_encode (off : Nat) (s : Str) : utf8Decode off (utf8 s) = .ok s := by
  induction s generalizing off with
  | nil => rfl
  | cons c s ih =>
    rw [utf8, List.flatMap_cons, utf8Decode_append_char, ← utf8, ih]
    rfl

theorem Except.map_eq_ok {ε α β : Type} {x : Except ε α} {f : α → β} {b : β}
    (h : x.map f = .ok b) : ∃ a, x = .ok a ∧ f a = b := by
  cases x with
  | error e => cases h
  | ok a => exact ⟨a, rfl, by cases h; rfl⟩

theorem byte_eq_ofNat {b : Byte} {n : Nat} (h : n = b.toNat) : BitVec.ofNat 8 n = b := by
  subst h; simp

/-- Only encodings are accepted. -/
theorem utf8Decode_ok (off : Nat) (bs : List Byte) (s : Str) (h : utf8Decode off bs = .ok s) :
    bs = utf8 s := by
  fun_induction utf8Decode off bs generalizing s
  case case1 => cases h; rfl
  all_goals try (cases h; done)
  · rename_i n0 h0 ih
    obtain ⟨s', h1, rfl⟩ := Except.map_eq_ok h
    rw [utf8, List.flatMap_cons, ← utf8, ← ih s' h1, utf8Char_eq,
      ofNat_toNat_of_valid (by omega), if_pos (by omega), byte_eq_ofNat rfl]
    rfl
  · rename_i b0 n0 h0 h1 b1 rest h2 ih
    obtain ⟨s', h3, rfl⟩ := Except.map_eq_ok h
    simp only [isCont, Bool.not_eq_true', Bool.not_eq_false, Bool.and_eq_true,
      decide_eq_true_eq] at h1 h2
    have hn : n0 = b0.toNat := rfl
    clear_value n0
    rw [utf8, List.flatMap_cons, ← utf8, ← ih s' h3, utf8Char_eq,
      ofNat_toNat_of_valid (by omega), if_neg (by omega), if_pos (by omega),
      byte_eq_ofNat (b := b0) (by omega), byte_eq_ofNat (b := b1) (by omega)]
    rfl
  · rename_i b0 n0 h0 h00 h1 b1 h2 b2 rest h3 ih
    obtain ⟨s', h4, rfl⟩ := Except.map_eq_ok h
    simp only [isCont, utf8Second3, Bool.not_eq_true', Bool.not_eq_false, Bool.and_eq_true,
      Bool.or_eq_true, beq_iff_eq, decide_eq_true_eq] at h1 h2 h3
    have hn : n0 = b0.toNat := rfl
    clear_value n0
    rw [utf8, List.flatMap_cons, ← utf8, ← ih s' h4, utf8Char_eq,
      ofNat_toNat_of_valid (by omega), if_neg (by omega), if_neg (by omega), if_pos (by omega),
      byte_eq_ofNat (b := b0) (by omega), byte_eq_ofNat (b := b1) (by omega),
      byte_eq_ofNat (b := b2) (by omega)]
    rfl
  · rename_i b0 n0 h0 h00 h01 h1 b1 h2 b2 h3 b3 rest h4 ih
    obtain ⟨s', h5, rfl⟩ := Except.map_eq_ok h
    simp only [isCont, utf8Second4, Bool.not_eq_true', Bool.not_eq_false, Bool.and_eq_true,
      Bool.or_eq_true, beq_iff_eq, decide_eq_true_eq] at h1 h2 h3 h4
    have hn : n0 = b0.toNat := rfl
    clear_value n0
    rw [utf8, List.flatMap_cons, ← utf8, ← ih s' h5, utf8Char_eq,
      ofNat_toNat_of_valid (by omega), if_neg (by omega), if_neg (by omega), if_neg (by omega),
      byte_eq_ofNat (b := b0) (by omega), byte_eq_ofNat (b := b1) (by omega),
      byte_eq_ofNat (b := b2) (by omega), byte_eq_ofNat (b := b3) (by omega)]
    rfl

/-- The UTF-8 decoder accepts exactly encodings and returns the encoded string. -/
theorem utf8Decode_iff (off : Nat) (bs : List Byte) (s : Str) :
    utf8Decode off bs = .ok s ↔ bs = utf8 s :=
  ⟨utf8Decode_ok off bs s, by rintro rfl; exact utf8Decode_encode off s⟩

theorem utf8_injective {s t : Str} (h : utf8 s = utf8 t) : s = t := by
  have := utf8Decode_encode 0 s
  rw [h, utf8Decode_encode] at this
  cases this; rfl

/-! ## Windows-1252 -/

theorem cp1252_cp1252Char : ∀ b : Byte, cp1252 (cp1252Char b) = some b := by decide +kernel

theorem cp1252_lookup_some {n m : Nat} (h : cp1252Table.lookup n = some m) :
    cp1252Char (BitVec.ofNat 8 m) = Char.ofNat n := by
  have hmem : (n, m) ∈ cp1252Table := by
    revert h
    generalize cp1252Table = l
    intro h
    induction l with
    | nil => simp at h
    | cons x l ih =>
      obtain ⟨a, b⟩ := x
      rw [List.lookup_cons] at h
      split at h
      · rename_i he
        simp only [Option.some.injEq] at h
        simp only [beq_iff_eq] at he
        subst h; subst he
        exact List.mem_cons_self
      · exact List.mem_cons_of_mem _ (ih h)
  have hall : ∀ p ∈ cp1252Table, cp1252Char (BitVec.ofNat 8 p.2) = Char.ofNat p.1 := by
    decide +kernel
  exact hall _ hmem

theorem cp1252Char_identity : ∀ b : Byte,
    (b.toNat < 0x80 ∨ (0xA0 ≤ b.toNat ∧ b.toNat ≤ 0xFF)
      ∨ b.toNat ∈ [0x81, 0x8D, 0x8F, 0x90, 0x9D]) → cp1252Char b = Char.ofNat b.toNat := by
  decide +kernel

theorem cp1252_iff (c : Char) (b : Byte) : cp1252 c = some b ↔ c = cp1252Char b := by
  constructor
  · intro h
    unfold cp1252 at h
    split at h
    · rename_i m hm
      simp only [Option.some.injEq] at h
      subst h
      rw [cp1252_lookup_some hm, Char.ofNat_toNat]
    · split at h
      · rename_i hr
        simp only [Option.some.injEq] at h
        have hb : b.toNat = c.toNat := by
          rw [← h, BitVec.toNat_ofNat]
          simp only [List.mem_cons, List.not_mem_nil, or_false] at hr
          omega
        rw [cp1252Char_identity b (by rw [hb]; exact hr), hb, Char.ofNat_toNat]
      · cases h
  · rintro rfl; exact cp1252_cp1252Char b

theorem isCp1252_iff (s : Str) (body : List Byte) :
    IsCp1252 s body ↔ s = body.map cp1252Char := by
  unfold IsCp1252
  induction s generalizing body with
  | nil => cases body <;> simp
  | cons c s ih =>
    cases body with
    | nil => simp
    | cons b body =>
      simp only [List.map_cons, List.cons.injEq, ih, cp1252_iff]

/-! ## UTF-16 -/

theorem utf16Char_high (u v : BitVec 16) (hu : isHigh u) (hv : isLow v) :
    utf16Char (Char.ofNat (0x10000 + (u.toNat - 0xD800) * 0x400 + (v.toNat - 0xDC00))) = [u, v] := by
  unfold isHigh at hu
  unfold isLow at hv
  unfold utf16Char
  rw [ofNat_toNat_of_valid (by omega), if_neg (by omega)]
  have e1 : BitVec.ofNat 16 (0xD800 + (0x10000 + (u.toNat - 0xD800) * 0x400
      + (v.toNat - 0xDC00) - 0x10000) / 0x400) = u := by
    apply BitVec.eq_of_toNat_eq; rw [BitVec.toNat_ofNat]; omega
  have e2 : BitVec.ofNat 16 (0xDC00 + (0x10000 + (u.toNat - 0xD800) * 0x400
      + (v.toNat - 0xDC00) - 0x10000) % 0x400) = v := by
    apply BitVec.eq_of_toNat_eq; rw [BitVec.toNat_ofNat]; omega
  rw [e1, e2]

theorem utf16Char_bmp (u : BitVec 16) (h1 : ¬ isHigh u) (h2 : ¬ isLow u) :
    utf16Char (Char.ofNat u.toNat) = [u] := by
  unfold isHigh at h1
  unfold isLow at h2
  have := u.isLt
  unfold utf16Char
  rw [ofNat_toNat_of_valid (by omega), if_pos (by omega)]
  simp

theorem utf16Decode_append_char (c : Char) (us : List (BitVec 16)) :
    utf16Decode ((utf16Char c ++ us).map BitVec.toNat) = c :: utf16Decode (us.map BitVec.toNat) := by
  have hc := char_range c
  unfold utf16Char
  split
  · have e : (BitVec.ofNat 16 c.toNat).toNat = c.toNat := by
      rw [BitVec.toNat_ofNat]; omega
    simp only [List.cons_append, List.nil_append, List.map_cons, e]
    rw [utf16Decode.eq_def]
    simp only []
    rw [if_neg (by simp only [Bool.and_eq_true, decide_eq_true_eq]; omega),
      if_neg (by simp only [Bool.and_eq_true, decide_eq_true_eq]; omega), Char.ofNat_toNat]
  · have e1 : (BitVec.ofNat 16 (0xD800 + (c.toNat - 0x10000) / 0x400)).toNat
        = 0xD800 + (c.toNat - 0x10000) / 0x400 := by
      rw [BitVec.toNat_ofNat]; omega
    have e2 : (BitVec.ofNat 16 (0xDC00 + (c.toNat - 0x10000) % 0x400)).toNat
        = 0xDC00 + (c.toNat - 0x10000) % 0x400 := by
      rw [BitVec.toNat_ofNat]; omega
    simp only [List.cons_append, List.nil_append, List.map_cons, e1, e2]
    rw [utf16Decode.eq_def]
    simp only []
    rw [if_pos (by simp only [Bool.and_eq_true, decide_eq_true_eq]; omega),
      if_pos (by simp only [Bool.and_eq_true, decide_eq_true_eq]; omega)]
    have e : 0x10000 + (0xD800 + (c.toNat - 0x10000) / 0x400 - 0xD800) * 0x400
        + (0xDC00 + (c.toNat - 0x10000) % 0x400 - 0xDC00) = c.toNat := by omega
    rw [e, Char.ofNat_toNat]

theorem utf16Decode_replaced (us : List (BitVec 16)) :
    Utf16Replaced us (utf16Decode (us.map BitVec.toNat)) := by
  induction h : us.length using Nat.strongRecOn generalizing us with
  | ind n ih =>
    cases us with
    | nil => simpa [utf16Decode] using Utf16Replaced.nil
    | cons u rest =>
      simp only [List.length_cons] at h
      rw [List.map_cons, utf16Decode.eq_def]
      simp only []
      split
      · rename_i hu
        have hu' : isHigh u := by simpa [isHigh] using hu
        cases rest with
        | nil =>
          exact Utf16Replaced.high hu' (by simp) (by simpa using Utf16Replaced.nil)
        | cons v rest =>
          simp only [List.map_cons]
          simp only [List.length_cons] at h
          split
          · rename_i hv
            have hv' : isLow v := by simpa [isLow] using hv
            have := Utf16Replaced.char
              (Char.ofNat (0x10000 + (u.toNat - 0xD800) * 0x400 + (v.toNat - 0xDC00)))
              (ih rest.length (by omega) rest rfl)
            rw [utf16Char_high u v hu' hv'] at this
            exact this
          · rename_i hv
            have hv' : ¬ isLow v := by simpa [isLow] using hv
            have := ih (v :: rest).length (by simp only [List.length_cons]; omega) (v :: rest) rfl
            exact Utf16Replaced.high hu' (by intro w hw; cases hw; exact hv') this
      · rename_i hu
        have hu' : ¬ isHigh u := by simpa [isHigh] using hu
        split
        · rename_i hv
          exact Utf16Replaced.low (by simpa [isLow] using hv) (ih rest.length (by omega) rest rfl)
        · rename_i hv
          have hv' : ¬ isLow u := by simpa [isLow] using hv
          have := Utf16Replaced.char (Char.ofNat u.toNat) (ih rest.length (by omega) rest rfl)
          rw [utf16Char_bmp u hu' hv'] at this
          exact this

theorem utf16Decode_of_replaced {us : List (BitVec 16)} {s : Str} (h : Utf16Replaced us s) :
    utf16Decode (us.map BitVec.toNat) = s := by
  induction h with
  | nil => rfl
  | char c _ ih => rw [utf16Decode_append_char, ih]
  | @high u us s hu hv _ ih =>
    unfold isHigh at hu
    rw [List.map_cons, utf16Decode.eq_def]
    simp only []
    rw [if_pos (by simp only [Bool.and_eq_true, decide_eq_true_eq]; omega)]
    cases us with
    | nil => rw [← ih]; rfl
    | cons v us =>
      have := hv v rfl
      unfold isLow at this
      simp only [List.map_cons]
      rw [if_neg (by simp only [Bool.and_eq_true, decide_eq_true_eq]; omega), ← ih]
      rfl
  | @low u us s hu _ ih =>
    unfold isLow at hu
    rw [List.map_cons, utf16Decode.eq_def]
    simp only []
    rw [if_neg (by simp only [Bool.and_eq_true, decide_eq_true_eq]; omega),
      if_pos (by simp only [Bool.and_eq_true, decide_eq_true_eq]; omega), ih]
    rfl

/-- The UTF-16 decoder computes the specification. -/
theorem utf16Decode_iff (us : List (BitVec 16)) (s : Str) :
    utf16Decode (us.map BitVec.toNat) = s ↔ Utf16Replaced us s :=
  ⟨by rintro rfl; exact utf16Decode_replaced us, utf16Decode_of_replaced⟩

theorem utf16Replaced_utf16 (s : Str) : Utf16Replaced (utf16 s) s := by
  induction s with
  | nil => exact .nil
  | cons c s ih => exact .char c ih

/-- Bytes of a unit list. -/
theorem utf16Units_le (us : List (BitVec 16)) :
    utf16Units (us.flatMap (fun u => le 2 u.toNat)) = us.map BitVec.toNat := by
  induction us with
  | nil => rfl
  | cons u us ih =>
    simp only [List.flatMap_cons, le, List.cons_append, List.nil_append,
      List.map_cons, utf16Units, BitVec.toNat_ofNat]
    congr 1
    have := u.isLt
    omega

/-- Every even-length byte string is the bytes of a unit list. -/
theorem exists_units (n : Nat) (bs : List Byte) (h : bs.length = 2 * n) :
    ∃ us : List (BitVec 16), us.length = n ∧ bs = us.flatMap (fun u => le 2 u.toNat) := by
  induction n generalizing bs with
  | zero => exact ⟨[], rfl, by simpa using h⟩
  | succ n ih =>
    match bs, h with
    | b0 :: b1 :: rest, h =>
      simp only [List.length_cons] at h
      obtain ⟨us, hl, rfl⟩ := ih rest (by omega)
      refine ⟨BitVec.ofNat 16 (b0.toNat + 256 * b1.toNat) :: us, by simp [hl], ?_⟩
      have h0 := b0.isLt
      have h1 := b1.isLt
      have e : (BitVec.ofNat 16 (b0.toNat + 256 * b1.toNat)).toNat = b0.toNat + 256 * b1.toNat := by
        rw [BitVec.toNat_ofNat]; omega
      simp only [List.flatMap_cons, le, e, List.cons_append, List.nil_append]
      rw [← byte_eq_ofNat (b := b0) (n := b0.toNat) rfl]
      congr 1
      · apply BitVec.eq_of_toNat_eq; simp only [BitVec.toNat_ofNat]; omega
      · congr 1
        apply BitVec.eq_of_toNat_eq; simp only [BitVec.toNat_ofNat]; omega
    | [_], h => simp only [List.length_cons, List.length_nil] at h; omega
    | [], h => simp only [List.length_nil] at h; omega

end Boxcars
