import Verif.Proofs.ErrorChain
import Verif.Props.FileFail
/-!
# C66: what messages tell about an error
-/
namespace Boxcars.Props
open Boxcars Spec

/-! ### The errors files are answered with -/

theorem named_located {T : Nat} {s : String} {F : Fail} (hs : s ∈ partNames)
    (hF : ∀ {e d d'}, F e d d' → Simple e) {e d d'} (h : Named T s F e d d') : Located e := by
  cases h with
  | mk h => exact .named hs (hF h)

/-- An error of a property list. -/
inductive InProps : ParseError → Prop where
  | simple {e} : Simple e → InProps e
  | size {s o a b} : s = "property size" ∨ s = "array property size" →
      InProps (.parseError s o (.insufficientData a b))

theorem size_inProps {T n : Nat} {s : String} (hs : s = "property size" ∨ s = "array property size")
    {e d d'} (h : Named T s (Short n) e d d') : InProps e := by
  cases h with
  | mk h => cases h; exact .size hs

theorem short_simple {n e d d'} (h : Short n e d d') : Simple e := by cases h; exact .short

theorem lack_simple {n e d d'} (h : Lack n e d d') : Simple e := by cases h; exact .short

theorem str_simple {e d d'} (h : StrFail e d d') : Simple e := by
  cases h with
  | count h => exact short_simple h
  | data h => exact lack_simple h
  | utf8 => exact .utf8

theorem text_simple {e d d'} (h : TextFieldFail e d d') : Simple e := by
  cases h with
  | count h => exact short_simple h
  | range => exact .text
  | narrow _ _ h => exact short_simple h
  | wide _ _ h => exact short_simple h

theorem then_simple {α : Type} {g : α → Bytes → Prop} {F G : Fail}
    (hF : ∀ {e d d'}, F e d d' → Simple e) (hG : ∀ {e d d'}, G e d d' → Simple e)
    {e d d'} (h : Then g F G e d d') : Simple e := by
  cases h with
  | first h => exact hF h
  | second _ h => exact hG h

theorem list_simple {α : Type} {W : Nat} {g : α → Bytes → Prop} {F : Fail}
    (hF : ∀ {e d d'}, F e d d' → Simple e) {e d d'} (h : ListFail W g F e d d') : Simple e := by
  cases h with
  | count h => exact short_simple h
  | items h =>
    cases h with
    | tooLarge => exact .list
    | item _ _ _ h => exact hF h

mutual
theorem propList_shape {T W : Nat} {q : Bool} :
    ∀ {e d d'}, PropListFail T W q e d d' → InProps e
  | _, _, _, .key h => .simple (str_simple h)
  | _, _, _, .kind _ _ h => .simple (str_simple h)
  | _, _, _, .size _ _ _ h => size_inProps (.inl rfl) h
  | _, _, _, .ignored _ _ _ _ h => .simple (short_simple h)
  | _, _, _, .value _ _ _ _ h => propVal_shape h
  | _, _, _, .later _ _ _ _ _ h => propList_shape h
  | _, _, _, .afterSkip _ _ _ _ _ _ h => propList_shape h
theorem propVal_shape {T W : Nat} {q : Bool} :
    ∀ {kind e d d'}, PropValFail T W q kind e d d' → InProps e
  | _, _, _, _, .bool _ h => .simple (short_simple h)
  | _, _, _, _, .boolQuirks _ h => .simple (short_simple h)
  | _, _, _, _, .byteKind _ h => .simple (str_simple h)
  | _, _, _, _, .byteSkip _ _ h => .simple (short_simple h)
  | _, _, _, _, .byteValue _ _ _ h => .simple (str_simple h)
  | _, _, _, _, .byteQuirks _ h => .simple (text_simple h)
  | _, _, _, _, .arraySize h => size_inProps (.inr rfl) h
  | _, _, _, _, .arrayTooLarge _ => .simple .list
  | _, _, _, _, .arrayItem _ _ _ h => propList_shape h
  | _, _, _, _, .float h => .simple (short_simple h)
  | _, _, _, _, .int h => .simple (short_simple h)
  | _, _, _, _, .qword h => .simple (short_simple h)
  | _, _, _, _, .name h => .simple (text_simple h)
  | _, _, _, _, .str h => .simple (text_simple h)
  | _, _, _, _, .structName h => .simple (str_simple h)
  | _, _, _, _, .structFields _ h => propList_shape h
  | _, _, _, _, .unknown _ => .simple .kind
end

theorem header_located {T W : Nat} {e d d'} (h : HeaderFail T W e d d') : Located e := by
  cases h with
  | major h => exact (named_located (by decide) short_simple h)
  | minor h => exact (named_located (by decide) short_simple h)
  | net _ _ h => exact (named_located (by decide) short_simple h)
  | gameType _ h => exact (named_located (by decide) text_simple h)
  | properties _ _ h =>
    cases h with
    | mk h =>
      cases propList_shape h with
      | simple h => exact .named (by decide) h
      | size hs => exact .size hs

theorem then_located {α : Type} {g : α → Bytes → Prop} {F G : Fail}
    (hF : ∀ {e d d'}, F e d d' → Located e) (hG : ∀ {e d d'}, G e d d' → Located e)
    {e d d'} (h : Then g F G e d d') : Located e := by
  cases h with
  | first h => exact hF h
  | second _ h => exact hG h

theorem listed {α : Type} {T W : Nat} {s : String} {g : α → Bytes → Prop} {F : Fail}
    (hs : s ∈ partNames) (hF : ∀ {e d d'}, F e d d' → Simple e) {e d d'}
    (h : Named T s (ListFail W g F) e d d') : Located e :=
  named_located hs (list_simple hF) h

theorem body_located {T W : Nat} {e d d'} (h : BodyFail T W e d d') : Located e := by
  unfold BodyFail at h
  refine then_located (listed (by decide) text_simple) (then_located (listed (by decide)
    (then_simple short_simple (then_simple short_simple short_simple))) (then_located ?_
    (then_located (listed (by decide) (then_simple short_simple (then_simple text_simple text_simple)))
    (then_located (listed (by decide) (then_simple text_simple short_simple))
    (then_located (listed (by decide) text_simple) (then_located (listed (by decide) text_simple)
    (then_located (listed (by decide) text_simple)
    (then_located (listed (by decide) (then_simple str_simple short_simple))
    (listed (by decide) (then_simple short_simple (then_simple short_simple (then_simple short_simple
      (list_simple (then_simple short_simple short_simple)))))))))))))) h
  intro e d d' h
  cases h with
  | size h => exact named_located (by decide) short_simple h
  | data h => exact named_located (by decide) lack_simple h

theorem section_answer {α : Type} {T : Nat} {check : Checking} {title name : String}
    {g : α → Bytes → Prop} {F : Fail} (h1 : title ++ " size" ∈ partNames)
    (h2 : title ++ " crc" ∈ partNames) (h3 : title ++ " data" ∈ partNames)
    (hn : name = "header" ∨ name = "body") (hF : ∀ {e d d'}, F e d d' → Located e) {e d d'}
    (h : SectionFail T check title name g F e d d') : Answer e := by
  cases h with
  | size h => exact .located (named_located h1 short_simple h)
  | crc h => exact .located (named_located h2 short_simple h)
  | data h => exact .located (named_located h3 lack_simple h)
  | content _ _ h => exact .located (hF h)
  | corrupt _ _ _ h => exact .corrupt hn (hF h)
  | mismatchFail => exact .mismatch
  | mismatch => exact .mismatch

/-- Every error a file is answered with has one of the shapes of `Answer`. -/
theorem answer_shape (check : CrcCheck) (np : NetworkParse) {env : Env} {data : List Byte}
    (hs : Small env data) {e : ParseError} (h : parseWith check np env data = .err e) :
    Answer e := by
  rw [file_error_iff check np env data hs] at h
  cases h with
  | header h =>
    exact section_answer (by decide) (by decide) (by decide) (.inl rfl) header_located h
  | body _ _ _ h =>
    exact section_answer (by decide) (by decide) (by decide) (.inr rfl) body_located h
  | network _ _ _ => exact .network

/-! ### Chains -/

/-- C66. Every error has one chain of causes. -/
theorem chain_unique {e : AnyError} {l l' : List AnyError} (h : Chain e l) (h' : Chain e l') :
    l = l' := by
  induction h generalizing l' with
  | last h =>
    cases h' with
    | last => rfl
    | cause h2 => rw [h] at h2; cases h2
  | cause h _ ih =>
    cases h' with
    | last h2 => rw [h] at h2; cases h2
    | cause h2 h3 => rw [h] at h2; cases h2; rw [ih h3]

theorem simple_chain {e : ParseError} (h : Simple e) : ∃ l, Chain (.parse e) l ∧ l.length ≤ 2 := by
  cases h with
  | utf8 => exact ⟨_, .cause rfl (.last rfl), Nat.le_refl _⟩
  | text => exact ⟨_, .last rfl, by simp⟩
  | short => exact ⟨_, .last rfl, by simp⟩
  | kind => exact ⟨_, .last rfl, by simp⟩
  | list => exact ⟨_, .last rfl, by simp⟩

theorem located_chain {e : ParseError} (h : Located e) :
    ∃ l, Chain (.parse e) l ∧ l.length ≤ 3 := by
  cases h with
  | named _ h =>
    obtain ⟨l, h1, h2⟩ := simple_chain h
    exact ⟨_, .cause rfl h1, by rw [List.length_cons]; omega⟩
  | size => exact ⟨_, .cause rfl (.cause rfl (.last rfl)), by simp⟩

/-- C66. For a file that is not accepted it ends after at most four errors. -/
theorem chain_short (check : CrcCheck) (np : NetworkParse) {env : Env} {data : List Byte}
    (hs : Small env data) {e : ParseError} (h : parseWith check np env data = .err e) :
    ∃ l, Chain (.parse e) l ∧ l.length ≤ 4 := by
  cases answer_shape check np hs h with
  | located h => obtain ⟨l, h1, h2⟩ := located_chain h; exact ⟨l, h1, by omega⟩
  | corrupt _ hl =>
    obtain ⟨l, h1, h2⟩ := located_chain hl
    exact ⟨_, .cause rfl h1, by rw [List.length_cons]; omega⟩
  | mismatch => exact ⟨_, .last rfl, by simp⟩
  | @network n =>
    cases n with
    | streamTooLargeIndex => exact ⟨_, .cause rfl (.last rfl), by simp⟩
    | tooManyFrames => exact ⟨_, .cause rfl (.last rfl), by simp⟩
    | frameError e c =>
      cases e with
      | attributeError a o s x =>
        exact ⟨_, .cause rfl (.cause rfl (.cause rfl (.last rfl))), by simp⟩
      | notEnoughDataFor => exact ⟨_, .cause rfl (.cause rfl (.last rfl)), by simp⟩
      | timeOutOfRange => exact ⟨_, .cause rfl (.cause rfl (.last rfl)), by simp⟩
      | deltaOutOfRange => exact ⟨_, .cause rfl (.cause rfl (.last rfl)), by simp⟩
      | objectIdOutOfRange => exact ⟨_, .cause rfl (.cause rfl (.last rfl)), by simp⟩
      | missingActor => exact ⟨_, .cause rfl (.cause rfl (.last rfl)), by simp⟩
      | missingCache => exact ⟨_, .cause rfl (.cause rfl (.last rfl)), by simp⟩
      | missingAttribute => exact ⟨_, .cause rfl (.cause rfl (.last rfl)), by simp⟩

/-! ### What messages tell -/

/-- C66. The messages along the chain of causes determine the error: equal texts come from the same
error, apart from the state of the decoder attached to a frame error and from floats that are
printed alike. -/
theorem messages_tell (f : Display.Fmt) {e e' : ParseError} {l l' : List AnyError}
    (h : Chain (.parse e) l) (h' : Chain (.parse e') l')
    (hm : l.map (AnyError.message f) = l'.map (AnyError.message f)) : SameError f.f32 e e' := by
  have hd : ∀ {e : AnyError} {l}, Chain e l → ∃ m, l = e :: m := by
    intro e l h
    cases h with
    | last => exact ⟨_, rfl⟩
    | cause => exact ⟨_, rfl⟩
  have tl : ∀ {e c : AnyError} {m}, e.source = some c → Chain e (e :: m) → Chain c m := by
    intro e c m hs h
    cases h with
    | last h => rw [h] at hs; cases hs
    | cause h h2 => rw [hs] at h; cases h; exact h2
  induction e generalizing e' l l' with
  | parseError s o x ih =>
    obtain ⟨m, rfl⟩ := hd h
    obtain ⟨m', rfl⟩ := hd h'
    rw [List.map_cons, List.map_cons] at hm
    obtain ⟨h1, h2⟩ := List.cons.inj hm
    rcases parse_text f h1 with rfl | ⟨_, _, h3, _⟩ | ⟨_, _, _, h3, _⟩ | ⟨s1, o1, x1, s2, o2, x2, h3, rfl, h5⟩
    · exact .same
    · cases h3
    · cases h3
    · cases h3
      have hx := tl rfl h
      have hx' := tl rfl h'
      have hhead : Display.parseError f x = Display.parseError f x2 := by
        obtain ⟨m, rfl⟩ := hd hx
        obtain ⟨m', rfl⟩ := hd hx'
        exact (List.cons.inj h2).1
      rw [hhead] at h5
      have h6 : Display.t s ++ (Display.t " at offset (" ++ Display.i32 o) =
          Display.t s2 ++ (Display.t " at offset (" ++ Display.i32 o2) := by
        apply List.append_cancel_right (bs := Display.t "): " ++ Display.parseError f x2)
        simpa only [List.append_assoc] using h5
      obtain ⟨h7, h8⟩ := t_split_right (c := '(') (r := " at offset ".toList) (by decide)
        (i32_free (by decide) (by decide) _) (i32_free (by decide) (by decide) _) h6
      rw [t_inj h7, i32_inj h8]
      exact .within (ih hx hx' h2)
  | corruptReplay s x ih =>
    obtain ⟨m, rfl⟩ := hd h
    obtain ⟨m', rfl⟩ := hd h'
    rw [List.map_cons, List.map_cons] at hm
    obtain ⟨h1, h2⟩ := List.cons.inj hm
    rcases parse_text f h1 with rfl | ⟨_, _, h3, _⟩ | ⟨_, _, x', h3, rfl⟩ | ⟨_, _, _, _, _, _, h3, _⟩
    · exact .same
    · cases h3
    · cases h3
      exact .corrupt (ih (tl rfl h) (tl rfl h') h2)
    · cases h3
  | networkError n =>
    obtain ⟨m, rfl⟩ := hd h
    obtain ⟨m', rfl⟩ := hd h'
    rw [List.map_cons, List.map_cons] at hm
    obtain ⟨h1, h2⟩ := List.cons.inj hm
    rcases parse_text f h1 with rfl | ⟨_, n', h3, rfl, h5⟩ | ⟨_, _, _, h3, _⟩ | ⟨_, _, _, _, _, _, h3, _⟩
    · exact .same
    · cases h3
      rcases network_text f h5 with rfl | ⟨x, c, x', c', rfl, rfl⟩
      · exact .same
      · have hx := tl rfl h
        have hx' := tl rfl h'
        obtain ⟨m, rfl⟩ := hd hx
        obtain ⟨m', rfl⟩ := hd hx'
        rw [List.map_cons, List.map_cons] at h2
        have h2 := (List.cons.inj h2).2
        have hy := tl rfl hx
        have hy' := tl rfl hx'
        obtain ⟨k, rfl⟩ := hd hy
        obtain ⟨k', rfl⟩ := hd hy'
        rw [List.map_cons, List.map_cons] at h2
        obtain ⟨h6, h7⟩ := List.cons.inj h2
        refine .frame (frame_text f h6 ?_)
        rintro a o s y a' o' s' y' rfl rfl
        obtain ⟨k, rfl⟩ := hd (tl rfl hy)
        obtain ⟨k', rfl⟩ := hd (tl rfl hy')
        exact attribute_text (List.cons.inj h7).1
    · cases h3
    · cases h3
  | utf8Error x =>
    obtain ⟨m, rfl⟩ := hd h
    obtain ⟨m', rfl⟩ := hd h'
    rcases parse_text f (List.cons.inj hm).1 with rfl | ⟨_, _, h3, _⟩ | ⟨_, _, _, h3, _⟩ | ⟨_, _, _, _, _, _, h3, _⟩
    · exact .same
    all_goals cases h3
  | textTooLarge x =>
    obtain ⟨m, rfl⟩ := hd h
    obtain ⟨m', rfl⟩ := hd h'
    rcases parse_text f (List.cons.inj hm).1 with rfl | ⟨_, _, h3, _⟩ | ⟨_, _, _, h3, _⟩ | ⟨_, _, _, _, _, _, h3, _⟩
    · exact .same
    all_goals cases h3
  | insufficientData x y =>
    obtain ⟨m, rfl⟩ := hd h
    obtain ⟨m', rfl⟩ := hd h'
    rcases parse_text f (List.cons.inj hm).1 with rfl | ⟨_, _, h3, _⟩ | ⟨_, _, _, h3, _⟩ | ⟨_, _, _, _, _, _, h3, _⟩
    · exact .same
    all_goals cases h3
  | unexpectedProperty x =>
    obtain ⟨m, rfl⟩ := hd h
    obtain ⟨m', rfl⟩ := hd h'
    rcases parse_text f (List.cons.inj hm).1 with rfl | ⟨_, _, h3, _⟩ | ⟨_, _, _, h3, _⟩ | ⟨_, _, _, _, _, _, h3, _⟩
    · exact .same
    all_goals cases h3
  | crcMismatch x y =>
    obtain ⟨m, rfl⟩ := hd h
    obtain ⟨m', rfl⟩ := hd h'
    rcases parse_text f (List.cons.inj hm).1 with rfl | ⟨_, _, h3, _⟩ | ⟨_, _, _, h3, _⟩ | ⟨_, _, _, _, _, _, h3, _⟩
    · exact .same
    all_goals cases h3
  | listTooLarge x =>
    obtain ⟨m, rfl⟩ := hd h
    obtain ⟨m', rfl⟩ := hd h'
    rcases parse_text f (List.cons.inj hm).1 with rfl | ⟨_, _, h3, _⟩ | ⟨_, _, _, h3, _⟩ | ⟨_, _, _, _, _, _, h3, _⟩
    · exact .same
    all_goals cases h3

theorem part_free : ∀ s ∈ partNames, '(' ∉ s.toList := by decide +kernel

theorem simple_text (f : Display.Fmt) {e e' : ParseError} (h : Simple e)
    (hm : Display.parseError f e = Display.parseError f e') : e = e' := by
  rcases parse_text f hm with rfl | ⟨_, _, rfl, _⟩ | ⟨_, _, _, rfl, _⟩ | ⟨_, _, _, _, _, _, rfl, _⟩
  · rfl
  all_goals cases h

theorem part_split {s s' : String} {o o' : I32} {x x' : Str} (h : '(' ∉ s.toList) (h' : '(' ∉ s'.toList)
    (he : Display.t s ++ (Display.t " at offset (" ++ (Display.i32 o ++ (Display.t "): " ++ x))) =
      Display.t s' ++ (Display.t " at offset (" ++ (Display.i32 o' ++ (Display.t "): " ++ x')))) :
    s = s' ∧ o = o' ∧ x = x' := by
  have hl : Display.t " at offset (" = Display.t " at offset " ++ ['('] := by decide
  have hn : '(' ∉ Display.t " at offset " := by decide
  rw [hl] at he
  have he : (Display.t s ++ Display.t " at offset ") ++ '(' :: (Display.i32 o ++ (Display.t "): " ++ x)) =
      (Display.t s' ++ Display.t " at offset ") ++ '(' :: (Display.i32 o' ++ (Display.t "): " ++ x')) := by
    simpa only [List.append_assoc, List.singleton_append] using he
  obtain ⟨h1, h2⟩ := sep_split (by rw [List.mem_append, not_or]; exact ⟨h, hn⟩)
    (by rw [List.mem_append, not_or]; exact ⟨h', hn⟩) he
  obtain ⟨h3, h4⟩ := t_split (c := ')') rfl (i32_free (by decide) (by decide) _)
    (i32_free (by decide) (by decide) _) h2
  exact ⟨t_inj (List.append_cancel_right h1), i32_inj h3, h4⟩

theorem located_text (f : Display.Fmt) {e e' : ParseError} (h : Located e) (h' : Answer e')
    (hm : Display.parseError f e = Display.parseError f e') : e = e' := by
  rcases parse_text f hm with rfl | ⟨_, _, rfl, _⟩ | ⟨_, _, _, rfl, _⟩ | ⟨s, o, x, s', o', x', rfl, rfl, h5⟩
  · rfl
  · cases h
  · cases h
  · have hs : '(' ∉ s.toList := by
      cases h with
      | named h _ => exact part_free _ h
      | size _ => decide
    have h' : Located (.parseError s' o' x') := by
      cases h' with
      | located h => exact h
    have hs' : '(' ∉ s'.toList := by
      cases h' with
      | named h _ => exact part_free _ h
      | size _ => decide
    obtain ⟨rfl, rfl, h6⟩ := part_split hs hs' h5
    cases h with
    | named _ h => rw [simple_text f h h6]
    | size hz =>
      cases h' with
      | named _ h' => rw [simple_text f h' h6.symm]
      | size hz' =>
        simp only [Display.parseError, List.append_assoc] at h6
        obtain ⟨rfl, rfl, h7⟩ := part_split (by rcases hz with rfl | rfl <;> decide)
          (by rcases hz' with rfl | rfl <;> decide) (List.append_cancel_left h6)
        have := simple_text f (e := .insufficientData _ _) (e' := .insufficientData _ _) .short (by
          simp only [Display.parseError, List.append_assoc]; exact h7)
        rw [this]

/-- C66. The message alone determines the error of a file outside the network data, but for the
cause of a section found to be corrupt; whether the network data is at fault is seen as well. -/
theorem message_tells (f : Display.Fmt) {e e' : ParseError} (h : Answer e) (h' : Answer e')
    (hm : Display.parseError f e = Display.parseError f e') :
    SameButCorrupt e e' ∨ ∃ n n', e = .networkError n ∧ e' = .networkError n' := by
  cases h with
  | located h => rw [located_text f h h' hm]; exact .inl .same
  | _ =>
    rcases parse_text f hm with h | ⟨_, _, h, rfl, _⟩ | ⟨_, _, _, h, rfl⟩ | ⟨_, _, _, _, _, _, h, _⟩
    · rw [← h]; exact .inl .same
    all_goals cases h
    all_goals first
      | exact .inr ⟨_, _, rfl, rfl⟩
      | exact .inl .corrupt

/-- C66. For two files that are answered with the same message. -/
theorem message_tells_files (f : Display.Fmt) (check : CrcCheck) (np : NetworkParse) {env : Env}
    {data data' : List Byte} (hs : Small env data) (hs' : Small env data') {e e' : ParseError}
    (h : parseWith check np env data = .err e) (h' : parseWith check np env data' = .err e')
    (hm : Display.parseError f e = Display.parseError f e') :
    SameButCorrupt e e' ∨ ∃ n n', e = .networkError n ∧ e' = .networkError n' :=
  message_tells f (answer_shape check np hs h) (answer_shape check np hs' h') hm

/-- The cause is indeed not seen in the message of a corrupt section. -/
theorem corrupt_hides (f : Display.Fmt) (s : String) (e e' : ParseError) :
    Display.parseError f (.corruptReplay s e) = Display.parseError f (.corruptReplay s e') := by
  simp only [Display.parseError]

/-- The messages an error tells along its chain, for at most `n` errors. -/
def told (f : Display.Fmt) : Nat → AnyError → List String
  | 0, _ => []
  | n + 1, e => String.ofList (e.message f) :: (match e.source with
    | some c => told f n c
    | none => [])

/-- A header with a property whose size is cut off, and a wrong checksum. -/
def cutProperty : List Byte :=
  [38, 0, 0, 0, 1, 2, 3, 4] ++ [1, 0, 0, 0, 0, 0, 0, 0] ++ [1, 0, 0, 0, 0] ++
  [2, 0, 0, 0, 65, 0] ++ [13, 0, 0, 0] ++ [73, 110, 116, 80, 114, 111, 112, 101, 114, 116, 121, 0, 0] ++
  [9, 9]

def plainFmt : Display.Fmt := ⟨fun _ => [], fun _ => [], fun _ => [], fun _ => [], fun _ => []⟩

set_option maxRecDepth 100000 in
/-- A chain of four errors. -/
theorem told_cut : (match parseWith .onError .always Env.default64 cutProperty with
    | .err e => told plainFmt 10 (.parse e)
    | _ => []) =
    ["Failed to parse header and crc check failed. Replay is corrupt",
     "Could not decode replay header properties at offset (44): Could not decode replay property size at offset (44): Insufficient data. Expected 4 bytes, but only 2 left",
     "Could not decode replay property size at offset (44): Insufficient data. Expected 4 bytes, but only 2 left",
     "Insufficient data. Expected 4 bytes, but only 2 left"] := by decide +kernel

end Boxcars.Props
