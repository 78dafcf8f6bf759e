import Verif.Proofs.Utf8
import Verif.Proofs.Run
import Verif.Proofs.Encode
/-!
# C17, C18, C19: text and string fields

`at_ T d` is the parser with `d` still unread out of `T` bytes, so a result state
`at_ T rest` says how many bytes were consumed and that the offset is right.
-/
namespace Boxcars.Props
open Boxcars Spec

variable (env : Env) (T : Nat) (hT : Room env T)
include hT

/-! ## C17 -/

/-- C17. A positive length `n` consumes `4 + n` bytes and gives the string whose
Windows-1252 encoding is the first `n - 1` of them. -/
theorem text_windows1252 (n : I32) (body rest : Bytes) (h0 : 0 < n.toInt) (h1 : n.toInt ≤ 10000)
    (hb : (body.length : Int) = n.toInt) (hd : (word n ++ (body ++ rest)).length ≤ T) :
    ∃ s, IsCp1252 s body.dropLast ∧
      parseText env (at_ T (word n ++ (body ++ rest))) = .ok s (at_ T rest) := by
  have hne : body ≠ [] := by rintro rfl; simp at hb; omega
  have hbody := List.dropLast_concat_getLast hne
  refine ⟨body.dropLast.map cp1252Char, (isCp1252_iff _ _).2 rfl, ?_⟩
  rw [← List.append_assoc] at hd ⊢
  refine parseText_spec.run hT hd (.inr (.inl ⟨body.dropLast, body.getLast hne, ?_,
    (isCp1252_iff _ _).2 rfl, ?_⟩))
  · rw [List.length_dropLast]; omega
  · rw [hbody]
    congr 2
    rw [List.length_dropLast, Nat.sub_add_cancel (by omega)]
    apply BitVec.eq_of_toInt_eq
    rw [BitVec.toInt_ofNat', Int.bmod_eq_of_le] <;> omega

/-- C17. A negative length `-n` consumes `4 + 2 n` bytes and gives the UTF-16LE
decoding of the first `n - 1` units, unpaired surrogates replaced. -/
theorem text_utf16 (n : I32) (units : List (BitVec 16)) (last : BitVec 16) (rest : Bytes)
    (h0 : -10000 ≤ n.toInt) (h1 : n.toInt < 0) (hb : (units.length : Int) + 1 = -n.toInt)
    (hd : (word n ++ ((units ++ [last]).flatMap (fun u => le 2 u.toNat) ++ rest)).length ≤ T) :
    ∃ s, Utf16Replaced units s ∧
      parseText env (at_ T (word n ++ ((units ++ [last]).flatMap (fun u => le 2 u.toNat) ++ rest)))
        = .ok s (at_ T rest) := by
  refine ⟨_, (utf16Decode_iff units _).1 rfl, ?_⟩
  rw [← List.append_assoc] at hd ⊢
  refine parseText_spec.run hT hd (.inr (.inr ⟨units, last, by omega, (utf16Decode_iff units _).1 rfl, ?_⟩))
  congr 2
  apply BitVec.eq_of_toInt_eq
  have hu : (BitVec.ofNat 32 (units.length + 1)).toInt = units.length + 1 := by
    rw [BitVec.toInt_ofNat', Int.bmod_eq_of_le] <;> omega
  rw [BitVec.toInt_neg, hu, Int.bmod_eq_of_le] <;> omega

/-- C17. Length zero gives the empty string and consumes four bytes. -/
theorem text_empty (rest : Bytes) (hd : (word 0 ++ rest).length ≤ T) :
    parseText env (at_ T (word 0 ++ rest)) = .ok [] (at_ T rest) :=
  parseText_spec.run hT hd (.inl ⟨rfl, rfl⟩)

/-- C17. Lengths outside -10000..10000 are rejected with the length. -/
theorem text_too_large (n : I32) (d : Bytes) (h : n.toInt < -10000 ∨ 10000 < n.toInt)
    (hd : (word n ++ d).length ≤ T) :
    parseText env (at_ T (word n ++ d)) = .err (.textTooLarge n) (at_ T d) := by
  unfold parseText
  simp only [bind, P.bind]
  rw [take32_run hT hd]
  simp only [if_pos h]
  rfl

omit hT in
theorem i32OfNat_toNat (n : Nat) (h : n < 2 ^ 31) : (i32OfNat n).toInt = n := by
  unfold i32OfNat
  rw [BitVec.toInt_ofNat', Int.bmod_eq_of_le] <;> omega

/-- C17. A text with fewer bytes than its length requires is rejected, reporting the
required and the available number of bytes. -/
theorem text_short (n : I32) (d : Bytes) (h0 : -10000 ≤ n.toInt) (h1 : n.toInt ≤ 10000)
    (hs : (d.length : Int) < if n.toInt < 0 then -2 * n.toInt else n.toInt)
    (hd : (word n ++ d).length ≤ T) :
    ∃ want have_ : I32, want.toInt = (if n.toInt < 0 then -2 * n.toInt else n.toInt) ∧
      have_.toInt = d.length ∧
      parseText env (at_ T (word n ++ d)) = .err (.insufficientData want have_) (at_ T d) := by
  have hdl : d.length < 2 ^ 31 := by split at hs <;> omega
  unfold parseText
  simp only [bind, P.bind]
  rw [take32_run hT hd]
  simp only [if_neg (show ¬ (n.toInt < -10000 ∨ 10000 < n.toInt) by omega)]
  by_cases hn : n.toInt < 0
  · simp only [if_pos hn, P.bind] at hs ⊢
    rw [takeData_short (by omega)]
    refine ⟨_, _, ?_, ?_, rfl⟩
    · rw [i32OfNat_toNat _ (by omega)]; omega
    · rw [i32OfNat_toNat _ hdl]
  · simp only [if_neg hn, P.bind] at hs ⊢
    rw [takeData_short (by omega)]
    refine ⟨_, _, ?_, ?_, rfl⟩
    · rw [i32OfNat_toNat _ (by omega)]; omega
    · rw [i32OfNat_toNat _ hdl]

omit hT in
/-- C17. Fewer than four bytes are not enough for the length. -/
theorem text_no_length (d : Bytes) (h : d.length < 4) :
    parseText env (at_ T d) = .err (.insufficientData 4 (i32OfNat d.length)) (at_ T d) := by
  unfold parseText
  simp only [bind, P.bind]
  rw [take32_short h]

/-! ## C18 -/

/-- C18. Every string of at most 9999 Windows-1252 characters survives. -/
theorem text_round_trip_windows1252 (s : Str) (body : Bytes) (last : Byte) (rest : Bytes)
    (hs : IsCp1252 s body) (hl : s.length ≤ 9999)
    (hd : ((word (BitVec.ofNat 32 (body.length + 1)) ++ (body ++ [last])) ++ rest).length ≤ T) :
    parseText env (at_ T ((word (BitVec.ofNat 32 (body.length + 1)) ++ (body ++ [last])) ++ rest)) =
      .ok s (at_ T rest) := by
  have := isCp1252_length hs
  exact parseText_spec.run hT hd (.inr (.inl ⟨body, last, by omega, hs, rfl⟩))

/-- C18. Every string of at most 9999 UTF-16 units survives. -/
theorem text_round_trip_utf16 (s : Str) (last : BitVec 16) (rest : Bytes)
    (hl : (utf16 s).length ≤ 9999)
    (hd : ((word (-(BitVec.ofNat 32 ((utf16 s).length + 1))) ++
      (utf16 s ++ [last]).flatMap (fun u => le 2 u.toNat)) ++ rest).length ≤ T) :
    parseText env (at_ T ((word (-(BitVec.ofNat 32 ((utf16 s).length + 1))) ++
      (utf16 s ++ [last]).flatMap (fun u => le 2 u.toNat)) ++ rest)) = .ok s (at_ T rest) :=
  parseText_spec.run hT hd (.inr (.inr ⟨utf16 s, last, by omega, utf16Replaced_utf16 s, rfl⟩))

/-! ## C19 -/

/-- C19. A string field of `n ≥ 0` bytes is accepted exactly when its first `n - 1`
bytes are the UTF-8 encoding of a string, and then gives that string. -/
theorem str_ok_iff (n : I32) (body rest : Bytes) (hn : 0 ≤ n.toInt) (hb : body.length = n.toNat)
    (hd : (word n ++ (body ++ rest)).length ≤ T) (s : Str) (st : CoreSt) :
    parseStr env (at_ T (word n ++ (body ++ rest))) = .ok s st ↔
      body.dropLast = utf8 s ∧ st = at_ T rest := by
  rw [parseStr_run hT hd hn hb]
  have key : ∀ s, decodeStr body = .ok s ↔ body.dropLast = utf8 s := by
    intro s
    unfold decodeStr
    rw [utf8Decode_iff, List.dropLast_eq_take]
  cases hdec : decodeStr body with
  | ok t =>
    have := (key t).1 hdec
    constructor
    · intro h; cases h; exact ⟨this, rfl⟩
    · rintro ⟨h, rfl⟩
      rw [utf8_injective (this.symm.trans h)]
  | error e =>
    constructor
    · intro h; cases h
    · rintro ⟨h, _⟩
      rw [(key s).2 h] at hdec; cases hdec

/-- C19. If those bytes are not well-formed UTF-8 the field is rejected as such, and the
report says where the text stops being UTF-8 and how long the offending sequence is. -/
theorem str_utf8_error (n : I32) (body rest : Bytes) (hn : 0 ≤ n.toInt) (hb : body.length = n.toNat)
    (hd : (word n ++ (body ++ rest)).length ≤ T) (hbad : ∀ s, body.dropLast ≠ utf8 s) :
    ∃ e, parseStr env (at_ T (word n ++ (body ++ rest))) = .err (.utf8Error e) (at_ T rest) ∧
      Utf8Fault body.dropLast e.validUpTo e.errorLen := by
  rw [parseStr_run hT hd hn hb]
  cases hdec : decodeStr body with
  | ok t =>
    unfold decodeStr at hdec
    rw [utf8Decode_iff, ← List.dropLast_eq_take] at hdec
    exact (hbad t hdec).elim
  | error e =>
    refine ⟨e, rfl, ?_⟩
    unfold decodeStr at hdec
    rw [← List.dropLast_eq_take] at hdec
    exact utf8Decode_error_iff.1 hdec

/-- C19. The report is exact: it is given exactly for the fault the bytes have. -/
theorem str_utf8_error_iff (n : I32) (body rest : Bytes) (hn : 0 ≤ n.toInt)
    (hb : body.length = n.toNat) (hd : (word n ++ (body ++ rest)).length ≤ T) (e : Utf8Error) :
    (∃ st, parseStr env (at_ T (word n ++ (body ++ rest))) = .err (.utf8Error e) st) ↔
      Utf8Fault body.dropLast e.validUpTo e.errorLen := by
  rw [parseStr_run hT hd hn hb, ← utf8Decode_error_iff, List.dropLast_eq_take]
  unfold decodeStr
  cases hdec : utf8Decode 0 (body.take (body.length - 1)) with
  | ok t =>
    constructor
    · rintro ⟨_, h⟩; cases h
    · intro h; cases h
  | error e' =>
    constructor
    · rintro ⟨_, h⟩; cases h; rfl
    · intro h; cases h; exact ⟨_, rfl⟩

/-- C19. A negative length, or one that exceeds the remaining bytes, is rejected for
lack of data. -/
theorem str_insufficient (n : I32) (d : Bytes) (hn : n.toInt < 0 ∨ d.length < n.toNat)
    (hd : (word n ++ d).length ≤ T) :
    ∃ want, parseStr env (at_ T (word n ++ d)) =
      .err (.insufficientData want (i32OfNat d.length)) (at_ T d) :=
  parseStr_short hT hd hn

omit hT

/-! ## Instances -/

/-- A text with the euro sign, `€`, byte 0x80. -/
example : parseText Env.default64 (at_ 100 ((word 2 ++ ([0x80#8] ++ [0#8])) ++ [7#8])) =
    .ok ['€'] (at_ 100 [7#8]) :=
  text_round_trip_windows1252 Env.default64 100 (Room.of_lt (by decide)) ['€'] [0x80#8] 0 [7#8]
    (by unfold IsCp1252; decide +kernel) (by decide) (by decide)

/-- A character outside the basic plane takes two units. -/
example : parseText Env.default64 (at_ 100 ((word (-3) ++
      (utf16 ['😀'] ++ [0#16]).flatMap (fun u => le 2 u.toNat)) ++ [7#8])) = .ok ['😀'] (at_ 100 [7#8]) :=
  text_round_trip_utf16 Env.default64 100 (Room.of_lt (by decide)) ['😀'] 0 [7#8] (by decide) (by decide +kernel)

/-- An unpaired surrogate is replaced. -/
example : Utf16Replaced [0xD800#16, 0x41#16] ['�', 'A'] :=
  .high (by unfold isHigh; decide) (by intro v h; cases h; unfold isLow; decide)
    (.char 'A' .nil)

/-- An encoded surrogate is not UTF-8; the hypothesis of `str_utf8_error` can be met. -/
example : ∀ s, ([0xED#8, 0xA0#8, 0x80#8, 0#8] : Bytes).dropLast ≠ utf8 s := by
  intro s h
  have h2 : utf8Decode 0 [0xED#8, 0xA0#8, 0x80#8] = .ok s := (utf8Decode_iff 0 _ s).2 h
  have h3 : ∀ t : Str, utf8Decode 0 [0xED#8, 0xA0#8, 0x80#8] ≠ .ok t := by
    intro t ht
    have : (match utf8Decode 0 [0xED#8, 0xA0#8, 0x80#8] with | .ok _ => true | _ => false) = false := by
      decide +kernel
    rw [ht] at this; cases this
  exact h3 s h2

/-- `A`, `é` cut short by another letter: the fault is behind one byte and one byte long. -/
example : Utf8Fault [0x41#8, 0xC3#8, 0x42#8] 1 (some 1) :=
  utf8Decode_error_iff.1 (by
    rw [utf8Decode.eq_def]; dsimp only; rw [if_pos (by decide), utf8Decode.eq_def]
    dsimp only; rw [if_neg (by decide), if_pos (by decide), if_pos (by decide)]; rfl)

/-- The first two bytes of `€` at the end of the text. -/
example : Utf8Fault [0xE2#8, 0x82#8] 0 none :=
  utf8Decode_error_iff.1 (by
    rw [utf8Decode.eq_def]; dsimp only
    rw [if_neg (by decide), if_neg (by decide), if_pos (by decide), if_neg (by decide)])

end Boxcars.Props
