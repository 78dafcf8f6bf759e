import Verif.Props.FileFail
/-!
# C59: what more data changes about an error
-/
namespace Boxcars.Props
open Boxcars Spec

/-- The error says that data is missing. -/
def Missing (e : ParseError) : Prop := ∃ x y, cause e = .insufficientData x y

/-- A failure is about missing data, or is the same with `t` behind the input. -/
def Final (t : Bytes) (F F' : Fail) : Prop :=
  ∀ e d d', F e d d' → Missing e ∨ F' e (d ++ t) (d' ++ t)

namespace Final

variable {t : Bytes} {T W : Nat} {F F' G G' : Fail}

theorem short (n) : Final t (Short n) (Short n) := by
  rintro _ _ _ ⟨_⟩
  exact .inl ⟨_, _, rfl⟩

theorem lack (n) : Final t (Lack n) (Lack n) := by
  rintro _ _ _ ⟨_⟩
  exact .inl ⟨_, _, rfl⟩

theorem named {s} (h : Final t F F') : Final t (Named T s F) (Named (T + t.length) s F') := by
  rintro _ _ _ ⟨h'⟩
  rcases h _ _ _ h' with h | h
  · exact .inl h
  · right
    have := Named.mk (T := T + t.length) (name := s) h
    rwa [List.length_append, Nat.add_sub_add_right] at this

theorem app2 (a b c t : Bytes) : a ++ (b ++ c) ++ t = a ++ (b ++ (c ++ t)) := by
  simp only [List.append_assoc]

theorem app3 (a b c d t : Bytes) : a ++ (b ++ (c ++ d)) ++ t = a ++ (b ++ (c ++ (d ++ t))) := by
  simp only [List.append_assoc]

theorem app4 (a b c d e t : Bytes) :
    a ++ (b ++ (c ++ (d ++ e))) ++ t = a ++ (b ++ (c ++ (d ++ (e ++ t)))) := by
  simp only [List.append_assoc]

theorem append {e : ParseError} {b d d' : Bytes} (h : Missing e ∨ F e (d ++ t) (d' ++ t))
    (hb : F e (d ++ t) (d' ++ t) → G e (b ++ (d ++ t)) (d' ++ t)) :
    Missing e ∨ G e (b ++ d ++ t) (d' ++ t) := by
  rw [List.append_assoc]
  exact h.imp_right hb

theorem andThen {α : Type} {g : α → Bytes → Prop} (hF : Final t F F') (hG : Final t G G') :
    Final t (Then g F G) (Then g F' G') := by
  rintro _ _ _ (h | ⟨hg, h⟩)
  · exact (hF _ _ _ h).imp_right .first
  · exact append (hG _ _ _ h) (.second hg)

theorem text : Final t TextFieldFail TextFieldFail := by
  intro _ _ _ h
  cases h with
  | count h => exact (short _ _ _ _ h).imp_right .count
  | range h => right; rw [List.append_assoc]; exact .range h
  | narrow h1 h2 h => exact append (short _ _ _ _ h) (.narrow h1 h2)
  | wide h1 h2 h => exact append (short _ _ _ _ h) (.wide h1 h2)

theorem str : Final t StrFail StrFail := by
  intro _ _ _ h
  cases h with
  | count h => exact (short _ _ _ _ h).imp_right .count
  | data h => exact append (lack _ _ _ _ h) .data
  | utf8 h1 h2 h3 => right; simp only [List.append_assoc]; exact .utf8 h1 h2 h3

theorem list {α : Type} {g : α → Bytes → Prop} (hF : Final t F F') :
    Final t (ListFail W g F) (ListFail W g F') := by
  rintro _ _ _ (h | h)
  · exact (short _ _ _ _ h).imp_right .count
  · cases h with
    | tooLarge h => right; rw [List.append_assoc]; exact .items (.tooLarge h)
    | item h1 h2 h3 h =>
      refine append (F := ItemsAfterFail W g F' _) ?_ .items
      exact append (hF _ _ _ h) (.item h1 h2 h3)

theorem blob : Final t (BlobFail T) (BlobFail (T + t.length)) := by
  rintro _ _ _ (h | h)
  · exact ((short _).named _ _ _ h).imp_right .size
  · exact append ((lack _).named _ _ _ h) .data

theorem body : Final t (BodyFail T W) (BodyFail (T + t.length) W) :=
  andThen (named (list text)) <|
  andThen (named (list (andThen (short 4) (andThen (short 4) (short 4))))) <|
  andThen blob <|
  andThen (named (list (andThen (short 4) (andThen text text)))) <|
  andThen (named (list (andThen text (short 4)))) <|
  andThen (named (list text)) <|
  andThen (named (list text)) <|
  andThen (named (list text)) <|
  andThen (named (list (andThen str (short 4)))) <|
  named (list (andThen (short 4) (andThen (short 4) (andThen (short 4)
    (list (andThen (short 4) (short 4)))))))

mutual
theorem props {q : Bool} : ∀ {e d d'}, PropListFail T W q e d d' →
    Missing e ∨ PropListFail (T + t.length) W q e (d ++ t) (d' ++ t)
  | _, _, _, .key h => (str _ _ _ h).imp_right .key
  | _, _, _, .kind h1 h2 h => append (str _ _ _ h) (.kind h1 h2)
  | _, _, _, .size h1 h2 h3 h => by
    rw [app2]
    exact ((short _).named _ _ _ h).imp_right (.size h1 h2 h3)
  | _, _, _, .ignored h1 h2 h3 h4 h => by
    rw [app3]
    exact (short _ _ _ _ h).imp_right (.ignored h1 h2 h3 h4)
  | _, _, _, .value h1 h2 h3 h4 h => by
    rw [app3]
    exact (val h).imp_right (.value h1 h2 h3 h4)
  | _, _, _, .later h1 h2 h3 h4 h5 h => by
    rw [app4]
    exact (props h).imp_right (.later h1 h2 h3 h4 h5)
  | _, _, _, .afterSkip h1 h2 h3 h4 h5 h6 h => by
    rw [app4]
    exact (props h).imp_right (.afterSkip h1 h2 h3 h4 h5 h6)
theorem val {q : Bool} : ∀ {kind e d d'}, PropValFail T W q kind e d d' →
    Missing e ∨ PropValFail (T + t.length) W q kind e (d ++ t) (d' ++ t)
  | _, _, _, _, .bool h1 h => (short _ _ _ _ h).imp_right (.bool h1)
  | _, _, _, _, .boolQuirks h1 h => (short _ _ _ _ h).imp_right (.boolQuirks h1)
  | _, _, _, _, .byteKind h1 h => (str _ _ _ h).imp_right (.byteKind h1)
  | _, _, _, _, .byteSkip h1 h2 h => append (short _ _ _ _ h) (.byteSkip h1 h2)
  | _, _, _, _, .byteValue h1 h2 h3 h => append (str _ _ _ h) (.byteValue h1 h2 h3)
  | _, _, _, _, .byteQuirks h1 h => (text _ _ _ h).imp_right (.byteQuirks h1)
  | _, _, _, _, .arraySize h => ((short _).named _ _ _ h).imp_right .arraySize
  | _, _, _, _, .arrayTooLarge h => by right; rw [List.append_assoc]; exact .arrayTooLarge h
  | _, _, _, _, .arrayItem h1 h2 h3 h => by
    rw [app2]
    exact (props h).imp_right (.arrayItem h1 h2 h3)
  | _, _, _, _, .float h => (short _ _ _ _ h).imp_right .float
  | _, _, _, _, .int h => (short _ _ _ _ h).imp_right .int
  | _, _, _, _, .qword h => (short _ _ _ _ h).imp_right .qword
  | _, _, _, _, .name h => (text _ _ _ h).imp_right .name
  | _, _, _, _, .str h => (text _ _ _ h).imp_right .str
  | _, _, _, _, .structName h => (str _ _ _ h).imp_right .structName
  | _, _, _, _, .structFields h1 h => append (props h) (.structFields h1)
  | _, _, _, _, .unknown h => .inr (.unknown h)
end

theorem header : Final t (HeaderFail T W) (HeaderFail (T + t.length) W) := by
  intro _ _ _ h
  cases h with
  | major h => exact ((short _).named _ _ _ h).imp_right .major
  | minor h => exact append ((short _).named _ _ _ h) .minor
  | net h1 h2 h =>
    rw [app2]
    exact ((short _).named _ _ _ h).imp_right (.net h1 h2)
  | gameType h1 h =>
    rw [app3]
    exact (text.named _ _ _ h).imp_right (.gameType h1)
  | properties h1 h2 h =>
    rw [app4]
    exact ((named (fun _ _ _ h => props h) : Final t _ _) _ _ _ h).imp_right (.properties h1 h2)

end Final

theorem take_more {size : BitVec 32} {d t : Bytes} (h : Fits size d.length) :
    Fits size (d ++ t).length ∧ (d ++ t).take size.toNat = d.take size.toNat :=
  ⟨⟨h.1, by rw [List.length_append]; have := h.2; omega⟩, take_append_of_fits h⟩

/-- The same for a section; a wrong checksum may be noticed at another place. -/
theorem section_final {α : Type} {T : Nat} {t : Bytes} {c title name} {g : α → Bytes → Prop}
    {F F' : Fail} (hF : Final t F F')
    (tot : ∀ d : Bytes, d.length ≤ T + t.length → (∃ a b i, d = b ++ i ∧ g a b) ∨ ∃ e d', F' e d d')
    {e d d'} (hd : d.length ≤ T) (h : SectionFail T c title name g F e d d') :
    Missing e ∨ ∃ d'', SectionFail (T + t.length) c title name g F' e (d ++ t) d'' := by
  cases h with
  | size h => exact ((Final.short _).named _ _ _ h).imp_right fun h => ⟨_, .size h⟩
  | crc h =>
    rw [List.append_assoc]
    exact ((Final.short _).named _ _ _ h).imp_right fun h => ⟨_, .crc h⟩
  | data h =>
    rw [Final.app2]
    exact ((Final.lack _).named _ _ _ h).imp_right fun h => ⟨_, .data h⟩
  | content hf hc h =>
    rw [Final.app2]
    exact (hF _ _ _ h).imp_right fun h => ⟨_, .content (take_more hf).1
      (by rw [(take_more hf).2]; exact hc) h⟩
  | corrupt hf hc hx h =>
    rw [Final.app2]
    exact (hF _ _ _ h).imp_right fun h => ⟨_, .corrupt (take_more hf).1 hc
      (by rw [(take_more hf).2]; exact hx) h⟩
  | @mismatchFail size crc _ i _ hf hc hx h =>
    rw [Final.app2]
    right
    rw [← (take_more (t := t) hf).2] at hx ⊢
    rcases tot (i ++ t) (by simp only [List.length_append] at hd ⊢; omega) with
      ⟨a, b, i', hi, hg⟩ | ⟨e', d', h'⟩
    · have hf' := (take_more (t := t) hf).1
      rw [hi] at hx hf' ⊢
      exact ⟨_, .mismatch hf' hc hx hg⟩
    · exact ⟨_, .mismatchFail (take_more hf).1 hc hx h'⟩
  | @mismatch size crc a b i hf hc hx h =>
    rw [Final.app3]
    right
    have hf' := (take_more (t := t) hf).1
    rw [← (take_more (t := t) hf).2] at hx ⊢
    rw [List.append_assoc] at hf' hx ⊢
    exact ⟨_, .mismatch hf' hc hx h⟩

/-- A parser succeeds or fails. -/
theorem total {α : Type} {T W : Nat} {m : P α} {g : α → Bytes → Prop} {F : Fail} (env : Env)
    (hW : env.usizeBits = W) (hT : Room env T) (hs : PSpec T m (ofG g)) (hf : PFail T W T m F)
    (d : Bytes) (hd : d.length ≤ T) : (∃ a b i, d = b ++ i ∧ g a b) ∨ ∃ e d', F e d d' := by
  have hi := at_inv hT hd
  cases h : m env (at_ T d) with
  | ok a s =>
    obtain ⟨⟨b, h1, h2⟩, _⟩ := (hs.okIff T env _ hT.1 hi hd a s).1 h
    exact .inl ⟨a, b, _, h2, h1⟩
  | err e s =>
    rw [(hs.errInv T env _ hT.1 hi hd e s h).1.eq_at] at h
    exact .inr ⟨e, _, (hf env _ hW hT hi hd e _).1 h⟩
  | fault f => exact (hs.noFault T env _ hT hi hd f h).elim

/-- The sections of a file with more bytes behind it. -/
theorem fileSecs_append {c : Bool} {x : Sections} {data rest : Bytes} (t : Bytes)
    (h : FileSecs c x data rest) : FileSecs c x (data ++ t) (rest ++ t) := by
  obtain ⟨bh, bb, h1, h2, h3, h4, h5, h6⟩ := h
  have e1 := take_more (t := t) h4
  have e2 := take_more (t := t) h5
  simp only [List.append_assoc] at e1 e2
  refine ⟨bh, bb, h1, h2, ?_, e1.1, e2.1, ?_⟩
  · rw [h3]; simp only [List.append_assoc]
  · intro hc
    rw [e1.2, e2.2]
    simpa only [List.append_assoc] using h6 hc

variable (check : CrcCheck) (np : NetworkParse) (env : Env)

theorem small_of_append {data t : Bytes} (hs : Small env (data ++ t)) : Small env data := by
  obtain ⟨h1, h2⟩ := hs
  rw [List.length_append] at h1 h2
  exact ⟨h1.mono (by omega), fun h => by have := h2 h; omega⟩

/-- C59. An error that is not about missing data is the error of every continuation of the
input as well. -/
theorem error_final (data t : Bytes) (hs : Small env (data ++ t)) (e : ParseError)
    (h : parseWith check np env data = .err e) :
    Missing e ∨ parseWith check np env (data ++ t) = .err e := by
  have hs0 := small_of_append env hs
  rw [file_error_iff check np env data hs0] at h
  rw [file_error_iff check np env _ hs]
  have hT := hs.1
  unfold Fails at h ⊢
  rw [List.length_append] at hT ⊢
  cases h with
  | header h =>
    exact (section_final Final.header (total env rfl hT parseHeader_spec parseHeader_fail)
      (Nat.le_refl _) h).imp_right fun ⟨_, h⟩ => .header h
  | @body size crc hd b _ i _ h1 h2 h3 h =>
    have hl : i.length ≤ (word size ++ (word crc ++ (b ++ i))).length := by
      simp only [List.length_append]; omega
    refine (section_final Final.body (total env rfl hT parseBody_spec parseBody_fail)
      hl h).imp_right fun ⟨_, h⟩ => ?_
    have h4 := take_more (t := t) h2
    rw [List.append_assoc] at h4
    generalize (word size ++ (word crc ++ (b ++ i))).length = n at h ⊢
    rw [Final.app3]
    exact .body h1 h4.1 (fun hc => by rw [h4.2]; exact h3 hc) h
  | network h1 h2 h3 => exact .inr (.network h1 (fileSecs_append t h2) h3)

/-- C59. The outcome of a part of a file is that of the file, or it is an error about missing
data. -/
theorem prefix_outcome (data t : Bytes) (hs : Small env (data ++ t)) :
    parseWith check np env data = parseWith check np env (data ++ t) ∨
      ∃ e, parseWith check np env data = .err e ∧ Missing e := by
  cases h : parseWith check np env data with
  | ok r => exact .inl (trailing_ignored check np env data t r hs.len h).symm
  | err e =>
    rcases error_final check np env data t hs e h with h' | h'
    · exact .inr ⟨e, rfl, h'⟩
    · exact .inl h'.symm
  | fault f => exact (no_panic check np env data (small_of_append env hs) f h).elim

/-- C59. A file that is cut off, if it is rejected at all, is rejected for missing data. -/
theorem cut_off_missing (data : Bytes) (n : Nat) (hs : Small env data) (r : Replay)
    (h : parseWith check np env data = .ok r) (e : ParseError)
    (he : parseWith check np env (data.take n) = .err e) : Missing e := by
  rw [← List.take_append_drop n data] at hs h
  rcases error_final check np env _ _ hs e he with h' | h'
  · exact h'
  · rw [h] at h'; cases h'

/-- Missing data need not mean that the file is cut off: after a negative size every continuation
is answered with it. -/
theorem missing_forever (t : Bytes) (hs : Small env (word (-1) ++ (word 0 ++ t))) :
    parseWith check np env (word (-1) ++ (word 0 ++ t)) =
      .err (.parseError "header data" 8 (.insufficientData (-1) (BitVec.ofNat 32 t.length))) := by
  rw [file_error_iff check np env _ hs]
  have := Named.mk (T := (word (-1) ++ (word 0 ++ t)).length) (name := "header" ++ " data")
    (Lack.mk (n := -1) (d := t) (fun h => absurd h.1 (by decide)))
  have h8 : (word (-1) ++ (word 0 ++ t)).length - t.length = 8 := by
    rw [List.length_append, List.length_append, show (word (-1)).length = 4 by decide,
      show (word 0).length = 4 by decide]
    omega
  rw [h8] at this
  exact .header (.data this)

/-! ## Instances -/

example : Missing (.parseError "content data" 78 (.insufficientData 40 20)) :=
  cut_off_missing .always .always Env.default64 sample 98 (small_lt (by decide))
    sample_ok.choose sample_ok.choose_spec _ sample_cut

/-- The unknown kind stays whatever follows. -/
example (t : Bytes) (ht : t.length < 1000) :
    parseWith .onError .never Env.default64 (sample.set 37 0x4a ++ t) =
      .err (.corruptReplay "header" (.parseError "header properties" 57
        (.unexpectedProperty "JntProperty".toList))) :=
  (error_final .onError .never Env.default64 _ t
    (small_lt (by
      rw [List.length_append]
      have : (sample.set 37 0x4a).length = 118 := by decide
      omega)) _ sample_unknown).resolve_left
    (by rintro ⟨_, _, h⟩; cases h)

end Boxcars.Props
