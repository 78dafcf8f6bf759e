import Verif.Proofs.Size
import Verif.Proofs.AttrLength
import Verif.Props.Sample
import Verif.Props.Text
/-!
# C101: strings are read in the documented way
-/
namespace Boxcars.Props
open Boxcars Spec

/-- Only ASCII. -/
def Ascii (bs : Bytes) : Prop := ∀ b ∈ bs, b.toNat < 128

theorem utf8Char_small {c : Char} (h : c.utf8Size = 1) : Ascii (utf8Char c) := by
  have hv : c.val ≤ 0x7f := by
    unfold Char.utf8Size at h
    simp only at h
    split at h
    · assumption
    · split at h
      · cases h
      · split at h <;> cases h
  have hn : c.val.toNat ≤ 127 := by simpa using UInt32.le_iff_toNat_le.1 hv
  intro b hb
  unfold utf8Char String.utf8EncodeChar at hb
  simp only [hn, if_true, List.map_cons, List.map_nil, List.mem_singleton] at hb
  rw [hb]
  have hn' : c.toNat ≤ 127 := hn
  simp
  omega

theorem utf8_same_length {s : Str} (h : (utf8 s).length = s.length) : Ascii (utf8 s) := by
  induction s with
  | nil => intro b hb; cases hb
  | cons c s ih =>
    have h1 := utf8_cons c s
    have h2 := utf8_len s
    have h3 := Char.utf8Size_pos c
    rw [h, List.length_cons] at h1
    intro b hb
    have e : utf8 (c :: s) = utf8Char c ++ utf8 s := by unfold utf8; rw [List.flatMap_cons]
    rw [e, List.mem_append] at hb
    rcases hb with hb | hb
    · exact utf8Char_small (by omega) b hb
    · exact ih (by omega) b hb

set_option maxRecDepth 100000 in
theorem ascii_char : ∀ b : Fin 128, utf8Char (Char.ofNat b) = [BitVec.ofNat 8 b] ∧
    cp1252 (Char.ofNat b) = some (BitVec.ofNat 8 b) := by decide +kernel

theorem ascii_text {bs : Bytes} (h : Ascii bs) : ∃ s, bs = utf8 s ∧ IsCp1252 s bs := by
  induction bs with
  | nil => exact ⟨[], rfl, rfl⟩
  | cons b bs ih =>
    obtain ⟨s, h1, h2⟩ := ih fun x hx => h x (List.mem_cons_of_mem _ hx)
    obtain ⟨k1, k2⟩ := ascii_char ⟨b.toNat, h b List.mem_cons_self⟩
    simp only [BitVec.ofNat_toNat, BitVec.setWidth_eq] at k1 k2
    refine ⟨Char.ofNat b.toNat :: s, ?_, ?_⟩
    · unfold utf8 at h1 ⊢
      rw [List.flatMap_cons, k1, ← h1]
      rfl
    · unfold IsCp1252 at h2 ⊢
      rw [List.map_cons, List.map_cons, k2, h2]

variable (env : Env) (T : Nat) (hT : Room env T)
include hT

/-- C101, as far as it holds: a key, kind or class name and a text with the same bytes are the same
string exactly if the bytes are ASCII. The full statement is that they always are; it fails, see
`doc_key_rejected`, `doc_key_differs` and `doc_key_utf16`. -/
theorem strings_agree_partial (n : I32) (body rest : Bytes) (h0 : 0 < n.toInt) (h1 : n.toInt ≤ 10000)
    (hb : body.length = n.toNat) (hd : (word n ++ (body ++ rest)).length ≤ T) :
    (∃ s, parseStr env (at_ T (word n ++ (body ++ rest))) = .ok s (at_ T rest) ∧
      parseText env (at_ T (word n ++ (body ++ rest))) = .ok s (at_ T rest)) ↔
    Ascii body.dropLast := by
  have hn : (body.length : Int) = n.toInt := by
    rw [hb]
    rw [BitVec.toInt_eq_toNat_cond] at h0 ⊢
    split at h0 <;> rename_i hc
    · rw [if_pos hc]
    · have := n.isLt; omega
  obtain ⟨s', k1, k2⟩ := text_windows1252 env T hT n body rest h0 h1 hn hd
  have k3 := fun s st => str_ok_iff env T hT n body rest (by omega) hb hd s st
  constructor
  · rintro ⟨s, g1, g2⟩
    obtain ⟨e1, _⟩ := (k3 _ _).1 g1
    rw [k2] at g2
    cases g2
    rw [e1] at k1 ⊢
    refine utf8_same_length ?_
    have := congrArg List.length k1
    simpa using this.symm
  · intro ha
    obtain ⟨s, e1, e2⟩ := ascii_text ha
    refine ⟨s, (k3 _ _).2 ⟨e1, rfl⟩, ?_⟩
    have hne : body ≠ [] := by
      rintro rfl
      simp at hn
      omega
    have e3 := List.dropLast_append_getLast hne
    have e4 : word n = word (BitVec.ofNat 32 (body.dropLast.length + 1)) := by
      rw [List.length_dropLast]
      congr 1
      apply BitVec.eq_of_toNat_eq
      have := n.isLt
      rw [BitVec.toNat_ofNat, ← hb]
      have : 0 < body.length := List.length_pos_iff.2 hne
      rw [Nat.mod_eq_of_lt (by omega)]
      omega
    have hl : s.length ≤ 9999 := by
      have := congrArg List.length e2
      simp only [List.length_map, List.length_dropLast] at this
      omega
    have k4 := text_round_trip_windows1252 env T hT s body.dropLast (body.getLast hne) rest e2 hl
    rw [e3, ← e4, List.append_assoc] at k4
    exact k4 hd

/-- C101 fails: `é` as documented, one byte of Windows-1252, is a text and no key. -/
theorem doc_key_rejected (rest : Bytes) (hd : (word 2 ++ ([0xe9, 0] ++ rest)).length ≤ T) :
    parseText env (at_ T (word 2 ++ ([0xe9, 0] ++ rest))) = .ok ['é'] (at_ T rest) ∧
    ∀ s st, parseStr env (at_ T (word 2 ++ ([0xe9, 0] ++ rest))) ≠ .ok s st := by
  constructor
  · exact text_round_trip_windows1252 env T hT ['é'] [0xe9] 0 rest (by unfold IsCp1252; decide +kernel) (by decide) hd
  · intro s st h
    obtain ⟨h1, _⟩ := (str_ok_iff env T hT 2 [0xe9, 0] rest (by decide) rfl hd s st).1 h
    have h1 : [0xe9#8] = utf8 s := h1
    have h2 := utf8_len s
    rw [← h1] at h2
    match s, h1, h2 with
    | [], h1, _ => cases h1
    | [c], h1, _ =>
      have := utf8_same_length (s := [c]) (by rw [← h1]; rfl) 0xe9 (by rw [← h1]; exact List.mem_cons_self)
      revert this
      decide

/-- C101 fails: the bytes of `é` as a key are two other characters as a text. -/
theorem doc_key_differs (rest : Bytes) (hd : (word 3 ++ ([0xc3, 0xa9, 0] ++ rest)).length ≤ T) :
    parseStr env (at_ T (word 3 ++ ([0xc3, 0xa9, 0] ++ rest))) = .ok ['é'] (at_ T rest) ∧
    parseText env (at_ T (word 3 ++ ([0xc3, 0xa9, 0] ++ rest))) = .ok ['Ã', '©'] (at_ T rest) :=
  ⟨(str_ok_iff env T hT 3 [0xc3, 0xa9, 0] rest (by decide) rfl hd _ _).2 ⟨by decide +kernel, rfl⟩,
    text_round_trip_windows1252 env T hT ['Ã', '©'] [0xc3, 0xa9] 0 rest (by unfold IsCp1252; decide +kernel) (by decide) hd⟩

/-- C101 fails: there are no keys in UTF-16. -/
theorem doc_key_utf16 (n : I32) (d : Bytes) (hn : n.toInt < 0) (hd : (word n ++ d).length ≤ T) (s : Str)
    (st : CoreSt) : parseStr env (at_ T (word n ++ d)) ≠ .ok s st := by
  obtain ⟨w, h⟩ := str_insufficient env T hT n d (.inl hn) hd
  rw [h]
  exact fun h => nomatch h

omit hT

/-- In the sample file `é` may be the game type but not the start of a key: the file is rejected. -/
theorem doc_file_rejected :
    (∃ r, parseWith .never .never Env.default64 (sample.set 24 0xe9) = .ok r ∧ r.gameType = ['é']) ∧
    ∀ r, parseWith .never .never Env.default64 (sample.set 30 0xe9) ≠ .ok r := by
  have h1 : (match parseWith .never .never Env.default64 (sample.set 24 0xe9) with
    | .ok r => decide (r.gameType = ['é']) | _ => false) = true := by decide +kernel
  have h2 : (match parseWith .never .never Env.default64 (sample.set 30 0xe9) with
    | .ok _ => true | _ => false) = false := by decide +kernel
  constructor
  · cases hp : parseWith .never .never Env.default64 (sample.set 24 0xe9) with
    | ok r => rw [hp] at h1; exact ⟨r, rfl, of_decide_eq_true h1⟩
    | err e => rw [hp] at h1; cases h1
    | fault f => rw [hp] at h1; cases h1
  · intro r h
    rw [h] at h2
    cases h2

/-- `strings_agree_partial` on "Id" and on the UTF-8 bytes of `é`. -/
example : Ascii [0x49, 0x64] ∧ ¬Ascii [0xc3, 0xa9] := by
  constructor
  · intro b hb
    simp only [List.mem_cons, List.not_mem_nil, or_false] at hb
    rcases hb with rfl | rfl <;> decide
  · intro h; exact absurd (h 0xc3 (by simp)) (by decide)

end Boxcars.Props
