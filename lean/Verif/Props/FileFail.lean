import Verif.Proofs.FileFail
import Verif.Proofs.Unknown
import Verif.Props.NoPanic
import Verif.Props.File
/-!
# C58: the error of a file that cannot be parsed
-/
namespace Boxcars.Props
open Boxcars Spec

variable (check : CrcCheck) (np : NetworkParse) (env : Env) (data : List Byte)

/-- The failures of a file as the specification has them, for given settings. -/
abbrev Fails (e : ParseError) : Prop :=
  FileFail data.length env.usizeBits check.checking (np == .always)
    (fun h b => NetworkFail h b (tableOf b)) e data

/-- C58. `parse` answers with the error `e` exactly if the file fails with `e` according to the
specification: which part fails, with which name and offset, and why. -/
theorem file_error_iff (hs : Small env data) (e : ParseError) :
    parseWith check np env data = .err e ↔ Fails check np env data e :=
  parse_err_iff env data hs check np e

/-- C58. No file fails in two ways. -/
theorem file_error_unique (hs : Small env data) {e e' : ParseError}
    (h : Fails check np env data e) (h' : Fails check np env data e') : e = e' := by
  rw [← file_error_iff check np env data hs] at h h'
  rw [h] at h'
  cases h'
  rfl

/-- C58. Every file is accepted or fails, and not both. -/
theorem accepted_xor_error (hs : Small env data) :
    (∃ r, parseWith check np env data = .ok r) ↔ ¬∃ e, Fails check np env data e := by
  simp only [← file_error_iff check np env data hs]
  cases hp : parseWith check np env data with
  | ok r => exact ⟨fun _ ⟨e, h⟩ => (by cases h), fun _ => ⟨r, rfl⟩⟩
  | err e => exact ⟨fun ⟨r, h⟩ => (by cases h), fun h => (h ⟨e, rfl⟩).elim⟩
  | fault f => exact (no_panic check np env data hs f hp).elim

/-! ## The innermost error -/

/-- The error without the places it passed through. -/
def cause : ParseError → ParseError
  | .parseError _ _ e => cause e
  | .corruptReplay _ e => cause e
  | e => e

/-! ### Unknown kinds: the converse of C15 -/

theorem short_not_unexpected {n e k d d'} (h : Short n e d d') : cause e ≠ .unexpectedProperty k := by
  cases h; intro h; cases h

theorem named_short_not_unexpected {T s n e k d d'} (h : Named T s (Short n) e d d') :
    cause e ≠ .unexpectedProperty k := by
  obtain ⟨h⟩ := h
  rw [cause]
  exact short_not_unexpected h

theorem lack_not_unexpected {n e k d d'} (h : Lack n e d d') : cause e ≠ .unexpectedProperty k := by
  cases h; intro h; cases h

theorem str_not_unexpected {e k d d'} (h : StrFail e d d') : cause e ≠ .unexpectedProperty k := by
  cases h with
  | count h => exact short_not_unexpected h
  | data h => exact lack_not_unexpected h
  | utf8 => intro h; cases h

theorem text_not_unexpected {e k d d'} (h : TextFieldFail e d d') :
    cause e ≠ .unexpectedProperty k := by
  cases h with
  | count h => exact short_not_unexpected h
  | range => intro h; cases h
  | narrow _ _ h => exact short_not_unexpected h
  | wide _ _ h => exact short_not_unexpected h

mutual
theorem propList_unexpected {T W : Nat} {q : Bool} {k : Str} :
    ∀ {e d d'}, PropListFail T W q e d d' → cause e = .unexpectedProperty k →
      e = .unexpectedProperty k ∧ UnknownAt q k d
  | _, _, _, .key h, hc => (str_not_unexpected h hc).elim
  | _, _, _, .kind _ _ h, hc => (str_not_unexpected h hc).elim
  | _, _, _, .size _ _ _ h, hc => (named_short_not_unexpected h hc).elim
  | _, _, _, .ignored _ _ _ _ h, hc => (short_not_unexpected h hc).elim
  | _, _, _, .value hk h1 h2 hs h, hc => by
    obtain ⟨he, hu⟩ := propVal_unexpected h hc
    exact ⟨he, hu hk h1 h2 hs⟩
  | _, _, _, .later hk h1 h2 hs hv h, hc => by
    obtain ⟨he, hu⟩ := propList_unexpected h hc
    exact ⟨he, .later hk h1 h2 hs hv hu⟩
  | _, _, _, .afterSkip hk hq h1 h2 hs h3 h, hc => by
    obtain ⟨he, hu⟩ := propList_unexpected h hc
    exact ⟨he, .afterSkip hk hq h1 h2 hs h3 hu⟩
theorem propVal_unexpected {T W : Nat} {q : Bool} {k : Str} :
    ∀ {kind e d d'}, PropValFail T W q kind e d d' → cause e = .unexpectedProperty k →
      e = .unexpectedProperty k ∧ ∀ {key b1 b2 sz}, key ≠ "None".toList → StrField key b1 →
        StrField kind b2 → sz.length = 8 → UnknownAt q k (b1 ++ (b2 ++ (sz ++ d)))
  | _, _, _, _, .bool _ h, hc => (short_not_unexpected h hc).elim
  | _, _, _, _, .boolQuirks _ h, hc => (short_not_unexpected h hc).elim
  | _, _, _, _, .byteKind _ h, hc => (str_not_unexpected h hc).elim
  | _, _, _, _, .byteSkip _ _ h, hc => (short_not_unexpected h hc).elim
  | _, _, _, _, .byteValue _ _ _ h, hc => (str_not_unexpected h hc).elim
  | _, _, _, _, .byteQuirks _ h, hc => (text_not_unexpected h hc).elim
  | _, _, _, _, .arraySize h, hc => (named_short_not_unexpected h hc).elim
  | _, _, _, _, .arrayTooLarge _, hc => by cases hc
  | _, _, _, _, .arrayItem (n := n) hn hx hb h, hc => by
    obtain ⟨he, hu⟩ := propList_unexpected h hc
    refine ⟨he, fun hk h1 h2 hs => ?_⟩
    have h0 : n.toInt = n.toNat := by
      have := BitVec.toInt_eq_toNat_cond n
      split at this <;> omega
    have hw : n = BitVec.ofNat 32 n.toNat := by simp
    rw [hw]
    exact .inArray hk h1 h2 hs (by omega) (by omega) hb hu
  | _, _, _, _, .float h, hc => (short_not_unexpected h hc).elim
  | _, _, _, _, .int h, hc => (short_not_unexpected h hc).elim
  | _, _, _, _, .qword h, hc => (short_not_unexpected h hc).elim
  | _, _, _, _, .name h, hc => (text_not_unexpected h hc).elim
  | _, _, _, _, .str h, hc => (text_not_unexpected h hc).elim
  | _, _, _, _, .structName h, hc => (str_not_unexpected h hc).elim
  | _, _, _, _, .structFields hb h, hc => by
    obtain ⟨he, hu⟩ := propList_unexpected h hc
    exact ⟨he, fun hk h1 h2 hs => .inStruct hk h1 h2 hs hb hu⟩
  | _, _, _, _, .unknown hk', hc => by
    cases hc
    exact ⟨rfl, fun hk h1 h2 hs => .here hk h1 h2 hs hk'⟩
end

/-- No error of the body comes from an unknown kind. -/
def Expected (F : Fail) : Prop := ∀ e d d', F e d d' → ∀ k, cause e ≠ .unexpectedProperty k

namespace Expected

theorem short (n) : Expected (Short n) := fun _ _ _ h _ => short_not_unexpected h
theorem text : Expected TextFieldFail := fun _ _ _ h _ => text_not_unexpected h
theorem str : Expected StrFail := fun _ _ _ h _ => str_not_unexpected h

theorem named {T s F} (h : Expected F) : Expected (Named T s F) := by
  rintro _ _ _ ⟨h'⟩ k
  rw [cause]
  exact h _ _ _ h' k

theorem andThen {α : Type} {g : α → Bytes → Prop} {F G} (hF : Expected F) (hG : Expected G) :
    Expected (Then g F G) := by
  rintro _ _ _ (h | ⟨_, h⟩) k
  · exact hF _ _ _ h k
  · exact hG _ _ _ h k

theorem list {α : Type} {W} {g : α → Bytes → Prop} {F} (hF : Expected F) :
    Expected (ListFail W g F) := by
  rintro _ _ _ (h | h) k
  · exact short_not_unexpected h
  · cases h with
    | tooLarge => intro hc; cases hc
    | item _ _ _ h => exact hF _ _ _ h k

theorem blob {T} : Expected (BlobFail T) := by
  rintro _ _ _ (h | h) k
  · exact named_short_not_unexpected h
  · exact (named fun _ _ _ h _ => lack_not_unexpected h : Expected _) _ _ _ h k

theorem body {T W} : Expected (BodyFail T W) :=
  andThen (named (list text)) <|
  andThen (named (list (andThen (short 4) (andThen (short 4) (short 4))))) <|
  andThen blob <|
  andThen (named (list (andThen (short 4) (andThen text text)))) <|
  andThen (named (list (andThen text (short 4)))) <|
  andThen (named (list text)) <|
  andThen (named (list text)) <|
  andThen (named (list text)) <|
  andThen (named (list (andThen str (short 4)))) <|
  named (list (andThen (short 4) (andThen (short 4) (andThen (short 4)
    (list (andThen (short 4) (short 4)))))))

end Expected

/-- A section fails because of an unknown kind only if its content does. -/
theorem section_unexpected {α : Type} {T c title name} {g : α → Bytes → Prop} {F : Fail} {e d d'}
    (h : SectionFail T c title name g F e d d') {k} (hc : cause e = .unexpectedProperty k) :
    ∃ size crc i e', d = word size ++ (word crc ++ i) ∧ Fits size i.length ∧ F e' i d' ∧
      (c = .always → Crc.crc (i.take size.toNat) = crc) ∧ cause e' = .unexpectedProperty k := by
  cases h with
  | size h => exact (named_short_not_unexpected h hc).elim
  | crc h => exact (named_short_not_unexpected h hc).elim
  | data h => exact ((Expected.named fun _ _ _ h _ => lack_not_unexpected h : Expected _) _ _ _ h k hc).elim
  | content hf hq h =>
    exact ⟨_, _, _, _, rfl, hf, h, fun hx => hq.resolve_left (by rw [hx]; decide), hc⟩
  | corrupt hf hq _ h => exact ⟨_, _, _, _, rfl, hf, h, fun hx => (by rw [hx] at hq; cases hq), hc⟩
  | mismatchFail => cases hc
  | mismatch => cases hc

theorem propListFail_of_unknown {T W : Nat} {q : Bool} {k : Str} {d : Bytes} (h : UnknownAt q k d) :
    ∃ d', PropListFail T W q (.unexpectedProperty k) d d' := by
  induction h with
  | here hk h1 h2 hs hn => exact ⟨_, .value hk h1 h2 hs (.unknown hn)⟩
  | later hk h1 h2 hs hv _ ih =>
    obtain ⟨d', ih⟩ := ih
    exact ⟨d', .later hk h1 h2 hs hv ih⟩
  | afterSkip hk hq h1 h2 hs h3 _ ih =>
    obtain ⟨d', ih⟩ := ih
    exact ⟨d', .afterSkip hk hq h1 h2 hs h3 ih⟩
  | @inArray _ _ _ _ n _ _ _ hk h1 h2 hs hn hx hb _ ih =>
    obtain ⟨d', ih⟩ := ih
    have h0 : (BitVec.ofNat 32 n).toInt = n := by
      rw [BitVec.toInt_eq_toNat_cond, BitVec.toNat_ofNat]
      split <;> omega
    exact ⟨d', .value hk h1 h2 hs (.arrayItem (by omega) (by omega) hb ih)⟩
  | inStruct hk h1 h2 hs h3 _ ih =>
    obtain ⟨d', ih⟩ := ih
    exact ⟨d', .value hk h1 h2 hs (.structFields h3 ih)⟩

theorem checking_always {check : CrcCheck} : check.checking = .always ↔ check = .always := by
  cases check <;> decide

/-- C58, the converse of C15. The error is about an unexpected property of kind `kind` exactly
if the properties of the header are well formed up to a property of this unknown kind. -/
theorem unknown_kind_iff (hs : Small env data) (kind : Str) :
    (∃ e, parseWith check np env data = .err e ∧ cause e = .unexpectedProperty kind) ↔
    ∃ size crc i major minor net game b1 b2 d,
      data = word size ++ (word crc ++ i) ∧ Fits size i.length ∧
      (check = .always → Crc.crc (i.take size.toNat) = crc) ∧
      i = word major ++ (word minor ++ (b1 ++ (b2 ++ d))) ∧
      NetVersionField major minor net b1 ∧ TextField game b2 ∧
      UnknownAt (decide (major = 0 ∧ minor = 0)) kind d := by
  simp only [file_error_iff check np env data hs]
  constructor
  · rintro ⟨e, h, hc⟩
    unfold Fails at h
    generalize data.length = T at h
    cases h with
    | header h =>
      obtain ⟨size, crc, i, e', rfl, hf, h, hk, hc⟩ := section_unexpected h hc
      cases h with
      | major h => exact (named_short_not_unexpected h hc).elim
      | minor h => exact (named_short_not_unexpected h hc).elim
      | net _ _ h => exact (named_short_not_unexpected h hc).elim
      | gameType _ h => exact (Expected.text.named _ _ _ h _ hc).elim
      | properties hn hg h =>
        obtain ⟨h⟩ := h
        exact ⟨size, crc, _, _, _, _, _, _, _, _, rfl, hf, fun ha => hk (checking_always.2 ha), rfl,
          hn, hg, (propList_unexpected h hc).2⟩
    | body _ _ _ h =>
      obtain ⟨_, _, _, _, _, _, h, _, hc⟩ := section_unexpected h hc
      exact (Expected.body _ _ _ h _ hc).elim
    | network => cases hc
  · rintro ⟨size, crc, i, major, minor, net, game, b1, b2, d, rfl, hf, hk, rfl, hn, hg, hu⟩
    unfold Fails
    generalize List.length (word size ++ _) = T
    obtain ⟨d', h⟩ := propListFail_of_unknown (T := T) (W := env.usizeBits) hu
    have hh : HeaderFail T env.usizeBits _ _ d' := .properties hn hg ⟨h⟩
    by_cases hx : Crc.crc ((word major ++ (word minor ++ (b1 ++ (b2 ++ d)))).take size.toNat) = crc
    · exact ⟨_, .header (.content hf (.inr hx) hh), rfl⟩
    · cases check with
      | always => exact (hx (hk rfl)).elim
      | never => exact ⟨_, .header (.content hf (.inl rfl) hh), rfl⟩
      | onError => exact ⟨_, .header (.corrupt hf rfl hx hh), rfl⟩

/-! ### The numbers of `InsufficientData` -/

/-- `InsufficientData x y` is said only where `y` bytes are left and `x` is negative or more,
and the offset mentioned is that of this place. -/
def Honest (T : Nat) (F : Fail) : Prop := ∀ e d d', F e d d' → ∀ x y,
  cause e = .insufficientData x y → y = BitVec.ofNat 32 d'.length ∧ ¬Fits x d'.length ∧
    d'.length ≤ d.length ∧ ∀ o ∈ offsets e, o = BitVec.ofNat 32 (T - d'.length)

namespace Honest

variable {T W : Nat} {F G : Fail}

theorem short (n : Nat) (hn : n < 2 ^ 31) : Honest T (Short n) := by
  rintro _ _ _ ⟨h⟩ x y hc
  cases hc
  refine ⟨rfl, fun ⟨_, hf⟩ => ?_, Nat.le_refl _, nofun⟩
  rw [BitVec.toNat_ofNat] at hf
  omega

theorem lack (n : BitVec 32) : Honest T (Lack n) := by
  rintro _ _ _ ⟨h⟩ x y hc
  cases hc
  exact ⟨rfl, h, Nat.le_refl _, nofun⟩

theorem named {s} (h : Honest T F) : Honest T (Named T s F) := by
  rintro _ _ _ ⟨h'⟩ x y hc
  obtain ⟨h1, h2, h3, h4⟩ := h _ _ _ h' x y hc
  refine ⟨h1, h2, h3, fun o ho => ?_⟩
  rcases List.mem_cons.1 ho with rfl | ho
  · rfl
  · exact h4 o ho

theorem append {e : ParseError} {b d d' : Bytes} {x y : BitVec 32}
    (h : y = BitVec.ofNat 32 d'.length ∧ ¬Fits x d'.length ∧
      d'.length ≤ d.length ∧ ∀ o ∈ offsets e, o = BitVec.ofNat 32 (T - d'.length)) :
    y = BitVec.ofNat 32 d'.length ∧ ¬Fits x d'.length ∧
      d'.length ≤ (b ++ d : Bytes).length ∧ ∀ o ∈ offsets e, o = BitVec.ofNat 32 (T - d'.length) :=
  ⟨h.1, h.2.1, by rw [List.length_append]; have := h.2.2.1; omega, h.2.2.2⟩

theorem andThen {α : Type} {g : α → Bytes → Prop} (hF : Honest T F) (hG : Honest T G) :
    Honest T (Then g F G) := by
  rintro _ _ _ (h | ⟨_, h⟩) x y hc
  · exact hF _ _ _ h x y hc
  · exact append (hG _ _ _ h x y hc)

theorem text : Honest T TextFieldFail := by
  intro _ _ _ h x y hc
  cases h with
  | count h => exact short 4 (by decide) _ _ _ h x y hc
  | range => cases hc
  | narrow _ _ h => exact append (short _ (by omega) _ _ _ h x y hc)
  | wide _ _ h => exact append (short _ (by omega) _ _ _ h x y hc)

theorem str : Honest T StrFail := by
  intro _ _ _ h x y hc
  cases h with
  | count h => exact short 4 (by decide) _ _ _ h x y hc
  | data h => exact append (lack _ _ _ _ h x y hc)
  | utf8 => cases hc

theorem list {α : Type} {g : α → Bytes → Prop} (hF : Honest T F) : Honest T (ListFail W g F) := by
  rintro _ _ _ (h | h) x y hc
  · exact short 4 (by decide) _ _ _ h x y hc
  · cases h with
    | tooLarge => cases hc
    | item _ _ _ h => exact append (append (hF _ _ _ h x y hc))

theorem blob : Honest T (BlobFail T) := by
  rintro _ _ _ (h | h) x y hc
  · exact (short 4 (by decide)).named _ _ _ h x y hc
  · exact append ((lack _).named _ _ _ h x y hc)

theorem word_ : Honest T (Short 4) := short 4 (by decide)

theorem body : Honest T (BodyFail T W) :=
  andThen (named (list text)) <|
  andThen (named (list (andThen word_ (andThen word_ word_)))) <|
  andThen blob <|
  andThen (named (list (andThen word_ (andThen text text)))) <|
  andThen (named (list (andThen text word_))) <|
  andThen (named (list text)) <|
  andThen (named (list text)) <|
  andThen (named (list text)) <|
  andThen (named (list (andThen str word_))) <|
  named (list (andThen word_ (andThen word_ (andThen word_
    (list (andThen word_ word_))))))

mutual
theorem props {q : Bool} : ∀ {e d d'}, PropListFail T W q e d d' → ∀ x y,
    cause e = .insufficientData x y → y = BitVec.ofNat 32 d'.length ∧ ¬Fits x d'.length ∧
      d'.length ≤ d.length ∧ ∀ o ∈ offsets e, o = BitVec.ofNat 32 (T - d'.length)
  | _, _, _, .key h, x, y, hc => str _ _ _ h x y hc
  | _, _, _, .kind _ _ h, x, y, hc => append (str _ _ _ h x y hc)
  | _, _, _, .size _ _ _ h, x, y, hc => append (append (word_.named _ _ _ h x y hc))
  | _, _, _, .ignored _ _ _ _ h, x, y, hc => append (append (append (word_ _ _ _ h x y hc)))
  | _, _, _, .value _ _ _ _ h, x, y, hc => append (append (append (val h x y hc)))
  | _, _, _, .later _ _ _ _ _ h, x, y, hc => append (append (append (append (props h x y hc))))
  | _, _, _, .afterSkip _ _ _ _ _ _ h, x, y, hc =>
    append (append (append (append (props h x y hc))))
theorem val {q : Bool} : ∀ {kind e d d'}, PropValFail T W q kind e d d' → ∀ x y,
    cause e = .insufficientData x y → y = BitVec.ofNat 32 d'.length ∧ ¬Fits x d'.length ∧
      d'.length ≤ d.length ∧ ∀ o ∈ offsets e, o = BitVec.ofNat 32 (T - d'.length)
  | _, _, _, _, .bool _ h, x, y, hc => short 1 (by decide) _ _ _ h x y hc
  | _, _, _, _, .boolQuirks _ h, x, y, hc => word_ _ _ _ h x y hc
  | _, _, _, _, .byteKind _ h, x, y, hc => str _ _ _ h x y hc
  | _, _, _, _, .byteSkip _ _ h, x, y, hc => append (short 1 (by decide) _ _ _ h x y hc)
  | _, _, _, _, .byteValue _ _ _ h, x, y, hc => append (str _ _ _ h x y hc)
  | _, _, _, _, .byteQuirks _ h, x, y, hc => text _ _ _ h x y hc
  | _, _, _, _, .arraySize h, x, y, hc => word_.named _ _ _ h x y hc
  | _, _, _, _, .arrayTooLarge _, x, y, hc => by cases hc
  | _, _, _, _, .arrayItem _ _ _ h, x, y, hc => append (append (props h x y hc))
  | _, _, _, _, .float h, x, y, hc => word_ _ _ _ h x y hc
  | _, _, _, _, .int h, x, y, hc => word_ _ _ _ h x y hc
  | _, _, _, _, .qword h, x, y, hc => short 8 (by decide) _ _ _ h x y hc
  | _, _, _, _, .name h, x, y, hc => text _ _ _ h x y hc
  | _, _, _, _, .str h, x, y, hc => text _ _ _ h x y hc
  | _, _, _, _, .structName h, x, y, hc => str _ _ _ h x y hc
  | _, _, _, _, .structFields _ h, x, y, hc => append (props h x y hc)
  | _, _, _, _, .unknown _, x, y, hc => by cases hc
end

theorem header : Honest T (HeaderFail T W) := by
  intro _ _ _ h x y hc
  cases h with
  | major h => exact word_.named _ _ _ h x y hc
  | minor h => exact append (word_.named _ _ _ h x y hc)
  | net _ _ h => exact append (append (word_.named _ _ _ h x y hc))
  | gameType _ h => exact append (append (append (text.named _ _ _ h x y hc)))
  | properties _ _ h =>
    exact append (append (append (append ((named (fun _ _ _ h => props h) : Honest T _) _ _ _ h x y hc))))

theorem sec {α : Type} {c title name} {g : α → Bytes → Prop} (hF : Honest T F) :
    Honest T (SectionFail T c title name g F) := by
  intro _ _ _ h x y hc
  cases h with
  | size h => exact word_.named _ _ _ h x y hc
  | crc h => exact append (word_.named _ _ _ h x y hc)
  | data h => exact append (append ((lack _).named _ _ _ h x y hc))
  | content _ _ h => exact append (append (hF _ _ _ h x y hc))
  | corrupt _ _ _ h => exact append (append (hF _ _ _ h x y hc))
  | mismatchFail => cases hc
  | mismatch => cases hc

end Honest

/-- Every failure is given a place. -/
def Placed (F : Fail) : Prop := ∀ e d d', F e d d' → (∃ x y, cause e = .insufficientData x y) →
  offsets e ≠ []

namespace Placed

variable {T W : Nat} {F G : Fail}

theorem named {s} : Placed (Named T s F) := by
  rintro _ _ _ ⟨_⟩ _ h
  cases h

theorem andThen {α : Type} {g : α → Bytes → Prop} (hF : Placed F) (hG : Placed G) :
    Placed (Then g F G) := by
  rintro _ _ _ (h | ⟨_, h⟩)
  · exact hF _ _ _ h
  · exact hG _ _ _ h

theorem blob : Placed (BlobFail T) := by
  rintro _ _ _ (h | h)
  · exact named _ _ _ h
  · exact named _ _ _ h

theorem body : Placed (BodyFail T W) :=
  andThen named <| andThen named <| andThen blob <| andThen named <| andThen named <|
  andThen named <| andThen named <| andThen named <| andThen named named

theorem header : Placed (HeaderFail T W) := by
  rintro _ _ _ (h | h | ⟨_, _, h⟩ | ⟨_, h⟩ | ⟨_, _, h⟩) <;> exact named _ _ _ h

theorem sec {α : Type} {c title name} {g : α → Bytes → Prop} (hF : Placed F) :
    Placed (SectionFail T c title name g F) := by
  intro _ _ _ h
  cases h with
  | size h => exact named _ _ _ h
  | crc h => exact named _ _ _ h
  | data h => exact named _ _ _ h
  | content _ _ h => exact hF _ _ _ h
  | corrupt _ _ _ h => exact fun hc => (hF _ _ _ h hc :)
  | mismatchFail => rintro ⟨_, _, h⟩; cases h
  | mismatch => rintro ⟨_, _, h⟩; cases h

end Placed

/-- C58. The numbers of `InsufficientData`: the second one is what is left of the file after the
offset the error mentions, the first one is negative or larger. -/
theorem insufficient_numbers (hs : Small env data) (hl : data.length < 2 ^ 31) {e : ParseError} {x y : I32}
    (h : parseWith check np env data = .err e) (hc : cause e = .insufficientData x y) :
    offsets e ≠ [] ∧ ∀ o ∈ offsets e, o.toInt + y.toInt = data.length ∧ 0 ≤ y.toInt ∧
      (x.toInt < 0 ∨ y.toInt < x.toInt) := by
  rw [file_error_iff check np env data hs] at h
  have fin : ∀ d' : Bytes, d'.length ≤ data.length →
      (y = BitVec.ofNat 32 d'.length ∧ ¬Fits x d'.length ∧
        ∀ o ∈ offsets e, o = BitVec.ofNat 32 (data.length - d'.length)) →
      ∀ o ∈ offsets e, o.toInt + y.toInt = data.length ∧ 0 ≤ y.toInt ∧
      (x.toInt < 0 ∨ y.toInt < x.toInt) := by
    rintro d' hd ⟨rfl, hf, ho⟩ o hm
    rw [ho o hm]
    unfold Fits at hf
    have hx := BitVec.toInt_eq_toNat_cond x
    rw [BitVec.toInt_eq_toNat_cond, BitVec.toInt_eq_toNat_cond, BitVec.toNat_ofNat, BitVec.toNat_ofNat]
    split at hx <;> split <;> split <;> omega
  unfold Fails at h
  cases h with
  | @header _ _ d' h =>
    obtain ⟨h1, h2, h3, h4⟩ := Honest.header.sec _ _ _ h x y hc
    exact ⟨Placed.header.sec _ _ _ h ⟨x, y, hc⟩, fin d' h3 ⟨h1, h2, h4⟩⟩
  | @body _ _ _ _ _ _ d' hh hf hcrc h =>
    obtain ⟨h1, h2, h3, h4⟩ := Honest.body.sec _ _ _ h x y hc
    refine ⟨Placed.body.sec _ _ _ h ⟨x, y, hc⟩, fin d' ?_ ⟨h1, h2, h4⟩⟩
    simp only [List.length_append]
    omega
  | network => cases hc

/-! ## Instances -/

/-- A file that ends before the header: its failure, read off the specification. -/
example (check : CrcCheck) (np : NetworkParse) :
    parseWith check np Env.default64 (word 100 ++ (word 7 ++ [1, 2, 3])) =
      .err (.parseError "header data" 8 (.insufficientData 100 3)) :=
  (file_error_iff check np _ _ (small_lt (by decide)) _).2
    (.header (.data ⟨Lack.mk (d := [1, 2, 3]) (by decide)⟩))

/-- The sample without its last 20 bytes: the declared size of the body is not there. -/
theorem sample_cut : parseWith .always .always Env.default64 (sample.take 98) =
    .err (.parseError "content data" 78 (.insufficientData 40 20)) :=
  eq_of_failsWith (by decide +kernel)

example : Fails .always .always Env.default64 (sample.take 98)
    (.parseError "content data" 78 (.insufficientData 40 20)) :=
  (file_error_iff _ _ _ _ (small_lt (by decide)) _).1 sample_cut

/-- 78 + 20 = 98 and 20 < 40. -/
example := insufficient_numbers .always .always Env.default64 (sample.take 98)
  (small_lt (by decide)) (by decide) sample_cut rfl

/-- The sample with the kind `JntProperty`, whose checksum is wrong. -/
theorem sample_unknown : parseWith .onError .never Env.default64 (sample.set 37 0x4a) =
    .err (.corruptReplay "header" (.parseError "header properties" 57
      (.unexpectedProperty "JntProperty".toList))) :=
  eq_of_failsWith (by decide +kernel)

/-- So its properties are well formed up to that kind. -/
example : ∃ size crc i major minor net game b1 b2 d,
    sample.set 37 0x4a = word size ++ (word crc ++ i) ∧ Fits size i.length ∧
    (CrcCheck.onError = .always → Crc.crc (i.take size.toNat) = crc) ∧
    i = word major ++ (word minor ++ (b1 ++ (b2 ++ d))) ∧
    NetVersionField major minor net b1 ∧ TextField game b2 ∧
    UnknownAt (decide (major = 0 ∧ minor = 0)) "JntProperty".toList d :=
  (unknown_kind_iff .onError .never Env.default64 _ (small_lt (by decide)) _).1
    ⟨_, sample_unknown, rfl⟩

end Boxcars.Props
