import Verif.Spec.Encode
import Verif.Proofs.File
/-!
# The encoder produces files of the grammar
-/
namespace Boxcars
open Spec

theorem strField_enc {s : Str} (h : StrOk s) : StrField s (encStr s) := .inr ⟨0, h, rfl⟩

theorem mapM_cp1252 {s : Str} {body : Bytes} (h : s.mapM cp1252 = some body) : IsCp1252 s body := by
  unfold IsCp1252
  induction s generalizing body with
  | nil => simp at h; subst h; rfl
  | cons c s ih =>
    rw [List.mapM_cons] at h
    cases hc : cp1252 c with
    | none => rw [hc] at h; cases h
    | some b =>
      rw [hc] at h
      cases hs : s.mapM cp1252 with
      | none => rw [hs] at h; cases h
      | some bs => rw [hs] at h; cases h; simp [hc, ih hs]

theorem isCp1252_length {s : Str} {body : Bytes} (h : IsCp1252 s body) : s.length = body.length := by
  have := congrArg List.length h
  simpa using this

theorem textField_enc {s : Str} (h : TextOk s) : TextField s (encText s) := by
  unfold TextOk at h
  unfold encText
  cases hm : s.mapM cp1252 with
  | some body =>
    rw [hm] at h
    have hb := mapM_cp1252 hm
    have := isCp1252_length hb
    simp only at h
    exact .inr (.inl ⟨body, 0, by omega, hb, rfl⟩)
  | none =>
    rw [hm] at h
    simp only at h
    exact .inr (.inr ⟨utf16 s, 0, by omega, utf16Replaced_utf16 s, rfl⟩)

theorem concat_enc {α : Type} {g : α → Bytes → Prop} {enc : α → Bytes} {xs : List α}
    (h : ∀ x ∈ xs, g x (enc x)) : Concat g xs (xs.flatMap enc) := by
  induction xs with
  | nil => exact .nil
  | cons x xs ih =>
    rw [List.flatMap_cons]
    exact .cons (h x (by simp)) (ih fun y hy => h y (by simp [hy]))

theorem listField_enc {α : Type} {g : α → Bytes → Prop} {enc : α → Bytes} {ok : α → Prop}
    {xs : List α} (h : ListOk ok xs) (he : ∀ x, ok x → g x (enc x)) :
    ListField g xs (encList enc xs) :=
  ⟨_, h.1, concat_enc fun x hx => he x (h.2 x hx), rfl⟩

theorem strOk_kind (v : HeaderProp) : StrOk (propKind v) := by
  have h : StrOk "ArrayProperty".toList ∧ StrOk "BoolProperty".toList ∧
      StrOk "ByteProperty".toList ∧ StrOk "FloatProperty".toList ∧ StrOk "IntProperty".toList ∧
      StrOk "NameProperty".toList ∧ StrOk "QWordProperty".toList ∧ StrOk "StrProperty".toList ∧
      StrOk "StructProperty".toList := by
    unfold StrOk
    decide +kernel
  obtain ⟨h1, h2, h3, h4, h5, h6, h7, h8, h9⟩ := h
  cases v with
  | array => exact h1
  | bool => exact h2
  | byte => exact h3
  | float => exact h4
  | int => exact h5
  | name => exact h6
  | qword => exact h7
  | str => exact h8
  | struct => exact h9

mutual
theorem propVal_enc {q : Bool} : ∀ {v : HeaderProp}, ValOk q v → PropVal q (propKind v) v (encVal q v)
  | .array xs, h => by
    unfold ValOk at h
    rw [encVal]
    exact .array h.1 (elems_enc h.2)
  | .bool b, _ => by
    rw [encVal]
    cases q with
    | false =>
      have := PropVal.bool (quirks := false) (if b then 1 else 0) rfl
      cases b <;> exact this
    | true =>
      have := PropVal.boolQuirks (quirks := true) (if b then 1 else 0) 0 0 0 rfl
      cases b <;> exact this
  | .byte k (some v), h => by
    unfold ValOk at h
    rw [encVal]
    exact .byte h.1 h.2.1 (strField_enc h.2.2.1) (strField_enc h.2.2.2)
  | .byte k none, h => by
    unfold ValOk at h
    rw [encVal]
    exact .byteQuirks h.1 (textField_enc h.2)
  | .float x, _ => by rw [encVal]; exact .float x
  | .int x, _ => by rw [encVal]; exact .int x
  | .name s, h => by unfold ValOk at h; rw [encVal]; exact .name (textField_enc h)
  | .qword x, _ => by rw [encVal]; exact .qword x
  | .str s, h => by unfold ValOk at h; rw [encVal]; exact .str (textField_enc h)
  | .struct n fs, h => by
    unfold ValOk at h
    rw [encVal]
    exact .struct (strField_enc h.1) (propList_enc h.2)
theorem elems_enc {q : Bool} : ∀ {xs : List (List (Str × HeaderProp))}, ElemsOk q xs →
    Concat (PropList q) xs (encElems q xs)
  | [], _ => by rw [encElems]; exact .nil
  | x :: xs, h => by
    unfold ElemsOk at h
    rw [encElems]
    exact .cons (propList_enc h.1) (elems_enc h.2)
theorem propList_enc {q : Bool} : ∀ {ps : List (Str × HeaderProp)}, PropsOk q ps →
    PropList q ps (encProps q ps)
  | [], _ => by
    rw [encProps]
    exact .done (strField_enc (by unfold StrOk; decide +kernel))
  | (key, v) :: rest, h => by
    rw [encProps, encProp]
    unfold PropsOk PropOk at h
    have := PropList.prop h.1.1 (strField_enc h.1.2.1) (strField_enc (strOk_kind v))
      (sz := word (BitVec.ofNat 32 (encVal q v).length) ++ word 0) (by simp)
      (propVal_enc h.1.2.2) (propList_enc h.2)
    simpa only [List.append_assoc] using this
end

theorem headerSec_enc {h : Header} (ok : HeaderOk h) : HeaderSec h (encHeader h) := by
  refine ⟨_, _, _, ?_, textField_enc ok.2.1, propList_enc ok.2.2, rfl⟩
  unfold NetVersionField
  split
  · rename_i hv
    obtain ⟨n, hn⟩ := Option.isSome_iff_exists.1 (ok.1.2 hv)
    exact ⟨n, hn, by rw [hn]; rfl⟩
  · rename_i hv
    have := mt ok.1.1 hv
    rw [Option.not_isSome_iff_eq_none] at this
    exact ⟨this, by rw [this]; rfl⟩

theorem bodySec_enc {b : ReplayBody} (ok : BodyOk b) : BodySec b (encBody b) := by
  obtain ⟨h1, h2, h3, h4, h5, h6, h7, h8, h9, h10⟩ := ok
  refine ⟨_, _, _, _, _, _, _, _, _, listField_enc h1 fun _ => textField_enc,
    listField_enc h2 fun k _ => rfl, h3,
    listField_enc h4 fun i hi => ⟨_, _, textField_enc hi.1, textField_enc hi.2, rfl⟩,
    listField_enc h5 fun t ht => ⟨_, textField_enc ht, rfl⟩,
    listField_enc h6 fun _ => textField_enc, listField_enc h7 fun _ => textField_enc,
    listField_enc h8 fun _ => textField_enc,
    listField_enc h9 fun c hc => ⟨_, strField_enc hc, rfl⟩,
    listField_enc h10 fun c hc => ⟨_, listField_enc hc fun p _ => rfl, rfl⟩, rfl⟩

theorem fits_length {n : Nat} (m : Nat) (h : n < 2 ^ 31) : Fits (BitVec.ofNat 32 n) (n + m) := by
  obtain ⟨h1, h2⟩ := (size_iff (BitVec.ofNat 32 n) n h).2 rfl
  exact ⟨h1, by omega⟩

theorem fileSecs_enc {h : Header} {b : ReplayBody} (hh : HeaderOk h) (hb : BodyOk b) (rest : Bytes)
    (hl : (encFile h b).length < 2 ^ 31) :
    FileSecs true (fileSections h b) (encFile h b ++ rest) rest := by
  have e : ∀ n : Nat, n < 2 ^ 31 → (BitVec.ofNat 32 n).toNat = n := fun n hn =>
    ((size_iff (BitVec.ofNat 32 n) n hn).2 rfl).2.symm
  unfold encFile encSection at hl
  simp only [List.length_append, word_length] at hl
  refine ⟨encHeader h, encBody b, headerSec_enc hh, bodySec_enc hb, ?_, ?_, ?_, fun _ => ⟨?_, ?_⟩⟩
  · simp [encFile, encSection, fileSections]
  · rw [List.length_append]; exact fits_length _ (by omega)
  · rw [List.length_append]; exact fits_length _ (by omega)
  · simp only [fileSections]
    rw [e _ (by omega), List.take_left]
  · simp only [fileSections]
    rw [e _ (by omega), List.take_left]

end Boxcars
