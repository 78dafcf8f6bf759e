import Verif.Spec.Unknown
import Verif.Proofs.Run
/-!
# Running the property list parser step by step
-/
namespace Boxcars
open Spec

variable {T : Nat} {env : Env}

/-- One iteration of the loop of `parse_rdict`. -/
theorem parseRdict_step (fuel : Nat) (mode : ParserMode) {key kind : Str} {b1 b2 sz d : Bytes}
    (hT : Room env T) (hd : (b1 ++ (b2 ++ (sz ++ d))).length ≤ T) (hk : key ≠ "None".toList)
    (h1 : StrField key b1) (h2 : StrField kind b2) (hsz : sz.length = 8) :
    parseRdict (fuel + 1) mode env (at_ T (b1 ++ (b2 ++ (sz ++ d)))) =
      (propValue (parseRdict fuel mode) mode kind >>= fun val =>
        parseRdict fuel mode >>= fun rest =>
          match val with
          | none => pure rest
          | some v => pure ((key, v) :: rest)) env (at_ T d) := by
  rw [parseRdict]
  simp only [bind, P.bind]
  rw [parseStr_spec.run hT hd h1]
  simp only [if_neg (show ¬ key = lit "None" from hk), P.bind]
  rw [parseStr_spec.run hT (by simp only [List.length_append] at hd ⊢; omega) h2]
  simp only
  obtain ⟨s1, s2, rfl, h3, h4⟩ : ∃ s1 s2, sz = s1 ++ s2 ∧ s1.length = 4 ∧ s2.length = 4 :=
    ⟨sz.take 4, sz.drop 4, (List.take_append_drop 4 sz).symm, by simp [hsz], by simp [hsz]⟩
  rw [← word_leNat s1 h3, List.append_assoc]
  simp only [List.length_append, h3, h4] at hd
  rw [takeI32_run hT (by simp only [List.length_append, word_length, h4]; omega)]
  simp only
  rw [← h4, takeData_run hT (by simp only [List.length_append, h4]; omega) (by omega)]
  rfl

theorem parseRdict_done (fuel : Nat) (mode : ParserMode) {b d : Bytes}
    (hT : Room env T) (hd : (b ++ d).length ≤ T) (h : StrField "None".toList b) :
    parseRdict (fuel + 1) mode env (at_ T (b ++ d)) = .ok [] (at_ T d) := by
  rw [parseRdict]
  simp only [bind, P.bind]
  rw [parseStr_spec.run hT hd h]
  simp only [if_true]
  rfl

/-- The mode with a given layout flag. -/
def modeOf : Bool → ParserMode
  | false => .standard
  | true => .quirks

theorem modeOf_isQuirks (q : Bool) : (modeOf q).isQuirks = q := by cases q <;> rfl

theorem propValue_unknown {recur : P (List (Str × HeaderProp))} {mode : ParserMode} {kind : Str}
    (h : kind ∉ knownKinds) (s : CoreSt) :
    propValue recur mode kind env s = .err (.unexpectedProperty kind) s := by
  unfold knownKinds at h
  simp only [List.mem_cons, List.not_mem_nil, or_false, not_or] at h
  obtain ⟨h1, h2, h3, h4, h5, h6, h7, h8, h9⟩ := h
  unfold propValue
  simp only [if_neg (show ¬ kind = lit _ from h1), if_neg (show ¬ kind = lit _ from h2),
    if_neg (show ¬ kind = lit _ from h3), if_neg (show ¬ kind = lit _ from h4),
    if_neg (show ¬ kind = lit _ from h5), if_neg (show ¬ kind = lit _ from h6),
    if_neg (show ¬ kind = lit _ from h7), if_neg (show ¬ kind = lit _ from h8),
    if_neg (show ¬ kind = lit _ from h9), P.fail]

theorem replicateP_err {α : Type} {f : P α} {g : α → Bytes → Prop} {e : ParseError} {st : CoreSt}
    {xs : List α} {body : Bytes} (hc : Concat g xs body) : ∀ {n : Nat} {d : Bytes}, xs.length < n →
    (body ++ d).length ≤ T → Room env T →
    PSpec (body ++ d).length f (ofG g) → f env (at_ T d) = .err e st →
    replicateP n f env (at_ T (body ++ d)) = .err e st := by
  induction hc with
  | nil =>
    intro n d hn _ _ _ hf
    cases n with
    | zero => omega
    | succ n =>
      rw [replicateP]
      simp only [bind, P.bind, List.nil_append, hf]
  | @cons x xs b bs h1 h2 ih =>
    intro n d hn hd hT hs hf
    cases n with
    | zero => omega
    | succ n =>
      rw [replicateP]
      simp only [bind, P.bind]
      rw [List.append_assoc] at hd hs ⊢
      rw [hs.run hT hd h1]
      simp only
      rw [ih (by simpa using hn) (by simp only [List.length_append] at hd ⊢; omega) hT
        (hs.mono (by simp only [List.length_append]; omega)) hf]

theorem parseRdict_unknown {q : Bool} {kind : Str} {d : Bytes} (h : UnknownAt q kind d) :
    ∀ {fuel T : Nat}, d.length < fuel → d.length ≤ T → Room env T →
      ∃ st, parseRdict fuel (modeOf q) env (at_ T d) = .err (.unexpectedProperty kind) st := by
  induction h with
  | here hk h1 h2 hs hn =>
    intro fuel T hf hd hT
    cases fuel with
    | zero => omega
    | succ fuel =>
      rw [parseRdict_step fuel _ hT hd hk h1 h2 hs]
      simp only [bind, P.bind]
      rw [propValue_unknown hn]
      exact ⟨_, rfl⟩
  | @later key k v b1 b2 sz b3 d hk h1 h2 hs hv _ ih =>
    intro fuel T hf hd hT
    have hb := StrField.length_ge h1
    cases fuel with
    | zero => omega
    | succ fuel =>
      rw [parseRdict_step fuel _ hT hd hk h1 h2 hs]
      simp only [bind, P.bind]
      simp only [List.length_append] at hf hd
      rw [(propValue_spec (N := (b3 ++ d).length) (parseRdict_spec fuel (modeOf q)
        (by simp only [List.length_append]; omega))).run hT (by simp only [List.length_append]; omega)
        (a := some v) (by rw [modeOf_isQuirks]; exact hv)]
      simp only
      obtain ⟨st, hst⟩ := ih (fuel := fuel) (T := T) (by omega) (by omega) hT
      rw [hst]
      exact ⟨st, rfl⟩
  | @afterSkip key b1 b2 sz b3 x d hk hq h1 h2 hs h3 _ ih =>
    intro fuel T hf hd hT
    have hb := StrField.length_ge h1
    cases fuel with
    | zero => omega
    | succ fuel =>
      rw [parseRdict_step fuel _ hT hd hk h1 h2 hs]
      simp only [bind, P.bind]
      simp only [List.length_append] at hf hd
      rw [(propValue_spec (N := ((b3 ++ [x]) ++ d).length) (parseRdict_spec fuel (modeOf q)
        (by simp only [List.length_append]; omega))).run hT (by simp only [List.length_append]; omega)
        (a := none) (by rw [modeOf_isQuirks]; exact ⟨rfl, hq, b3, x, h3, rfl⟩)]
      simp only
      obtain ⟨st, hst⟩ := ih (fuel := fuel) (T := T) (by omega) (by omega) hT
      rw [hst]
      exact ⟨st, rfl⟩
  | @inArray key b1 b2 sz n xs body d hk h1 h2 hs hn hx hc _ ih =>
    intro fuel T hf hd hT
    have hb := StrField.length_ge h1
    cases fuel with
    | zero => omega
    | succ fuel =>
      rw [parseRdict_step fuel _ hT hd hk h1 h2 hs]
      simp only [List.length_append] at hf hd
      obtain ⟨st, hst⟩ := ih (fuel := fuel) (T := T) (by omega) (by omega) hT
      simp only [bind, P.bind]
      unfold propValue
      simp only [if_neg (show ¬ lit "ArrayProperty" = lit "BoolProperty" by rw [lit_inj]; decide),
        if_neg (show ¬ lit "ArrayProperty" = lit "ByteProperty" by rw [lit_inj]; decide), if_true,
        bind, P.bind]
      rw [takeI32_run hT (by simp only [List.length_append]; omega)]
      obtain ⟨h0, hnn⟩ := (size_iff (BitVec.ofNat 32 n) n (by omega)).2 rfl
      simp only [P.usize, PSpec.usizeOfI32_nonneg env _ h0, ← hnn, repeatP]
      rw [if_neg (by omega), replicateP_err hc hx (by simp only [List.length_append]; omega) hT
        (by
          have := parseRdict_spec (N := (body ++ d).length) fuel (modeOf q)
            (by simp only [List.length_append]; omega)
          rwa [modeOf_isQuirks] at this) hst]
      exact ⟨st, rfl⟩
  | @inStruct key b1 b2 sz name b3 d hk h1 h2 hs h3 _ ih =>
    intro fuel T hf hd hT
    have hb := StrField.length_ge h1
    cases fuel with
    | zero => omega
    | succ fuel =>
      rw [parseRdict_step fuel _ hT hd hk h1 h2 hs]
      simp only [List.length_append] at hf hd
      obtain ⟨st, hst⟩ := ih (fuel := fuel) (T := T) (by omega) (by omega) hT
      simp only [bind, P.bind]
      unfold propValue
      simp only [if_neg (show ¬ lit "StructProperty" = lit "BoolProperty" by rw [lit_inj]; decide),
        if_neg (show ¬ lit "StructProperty" = lit "ByteProperty" by rw [lit_inj]; decide),
        if_neg (show ¬ lit "StructProperty" = lit "ArrayProperty" by rw [lit_inj]; decide),
        if_neg (show ¬ lit "StructProperty" = lit "FloatProperty" by rw [lit_inj]; decide),
        if_neg (show ¬ lit "StructProperty" = lit "IntProperty" by rw [lit_inj]; decide),
        if_neg (show ¬ lit "StructProperty" = lit "QWordProperty" by rw [lit_inj]; decide),
        if_neg (show ¬ lit "StructProperty" = lit "NameProperty" by rw [lit_inj]; decide),
        if_neg (show ¬ lit "StructProperty" = lit "StrProperty" by rw [lit_inj]; decide), if_true,
        bind, P.bind]
      rw [parseStr_spec.run hT (by simp only [List.length_append]; omega) h3]
      simp only [hst]
      exact ⟨st, rfl⟩

end Boxcars
