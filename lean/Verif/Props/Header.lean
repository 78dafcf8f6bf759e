import Verif.Proofs.Unknown
import Verif.Proofs.Encode
import Verif.Props.Sample
/-!
# C14, C15, C16, C20, C24, C43, C46: header properties and lists

`at_ T d` is the parser with `d` still unread out of `T` bytes.
-/
namespace Boxcars.Props
open Boxcars Spec

variable (env : Env) (T : Nat) (hT : Room env T)
include hT

/-! ## C14 -/

/-- C14. Header parsing succeeds exactly on the header sections of the grammar, with the
properties in file order. -/
theorem header_ok_iff (d : Bytes) (hd : d.length ≤ T) (h : Header) (st : CoreSt) :
    parseHeader env (at_ T d) = .ok h st ↔
      ∃ bs rest, HeaderSec h bs ∧ d = bs ++ rest ∧ st = at_ T rest := by
  rw [parseHeader_spec.okIff T env (at_ T d) hT.1 (at_inv hT hd) (Nat.le_refl _)]
  constructor
  · rintro ⟨⟨bs, h1, h2⟩, hi⟩
    exact ⟨bs, st.data, h1, h2, hi.eq_at⟩
  · rintro ⟨bs, rest, h1, h2, rfl⟩
    exact ⟨⟨bs, h1, h2⟩, at_inv hT (by rw [h2, List.length_append] at hd; omega)⟩

/-- C14. Every property tree, of any size and depth and with any duplicates, is returned
as encoded. -/
theorem properties_round_trip (mode : ParserMode) (ps : List (Str × HeaderProp)) (rest : Bytes)
    (ok : PropsOk mode.isQuirks ps) (fuel : Nat)
    (hd : (encProps mode.isQuirks ps ++ rest).length ≤ T)
    (hf : (encProps mode.isQuirks ps ++ rest).length < fuel) :
    parseRdict fuel mode env (at_ T (encProps mode.isQuirks ps ++ rest)) = .ok ps (at_ T rest) :=
  (parseRdict_spec fuel mode hf).run hT hd (propList_enc ok)

/-- C14. The eight bytes between kind and value do not matter, whatever they are and
however the rest parses. -/
theorem property_size_ignored (fuel : Nat) (mode : ParserMode) (key kind : Str) (b1 b2 sz sz' d : Bytes)
    (hk : key ≠ "None".toList) (h1 : StrField key b1) (h2 : StrField kind b2) (hs : sz.length = 8)
    (hs' : sz'.length = 8) (hd : (b1 ++ (b2 ++ (sz ++ d))).length ≤ T) :
    parseRdict (fuel + 1) mode env (at_ T (b1 ++ (b2 ++ (sz' ++ d)))) =
      parseRdict (fuel + 1) mode env (at_ T (b1 ++ (b2 ++ (sz ++ d)))) := by
  rw [parseRdict_step fuel mode hT hd hk h1 h2 hs,
    parseRdict_step fuel mode hT (by simp only [List.length_append] at hd ⊢; omega) hk h1 h2 hs']

/-- C14. A byte property of kind `None` is skipped together with one byte. -/
theorem byte_none_skipped (fuel : Nat) (key : Str) (b1 b2 sz b3 d : Bytes) (x : Byte)
    (hk : key ≠ "None".toList) (h1 : StrField key b1) (h2 : StrField "ByteProperty".toList b2)
    (hs : sz.length = 8) (h3 : StrField "None".toList b3)
    (hd : (b1 ++ (b2 ++ (sz ++ ((b3 ++ [x]) ++ d)))).length ≤ T) :
    parseRdict (fuel + 1) .standard env (at_ T (b1 ++ (b2 ++ (sz ++ ((b3 ++ [x]) ++ d))))) =
      parseRdict fuel .standard env (at_ T d) := by
  rw [parseRdict_step fuel _ hT hd hk h1 h2 hs]
  simp only [List.length_append] at hd
  unfold propValue
  simp only [if_neg (show ¬ lit "ByteProperty" = lit "BoolProperty" by rw [lit_inj]; decide), if_true,
    bind, P.bind]
  have hb : ([x] : Bytes).length = 1 := rfl
  rw [List.append_assoc, parseStr_spec.run hT (by simp only [List.length_append]; omega) h3]
  simp only [if_true, P.bind]
  rw [show takeData 1 env (at_ T ([x] ++ d)) = .ok [x] (at_ T d) from
    takeData_run (bs := [x]) hT (by simp only [List.length_append]; omega) (by simp)]
  simp only [pure, P.pure]
  cases parseRdict fuel .standard env (at_ T d) <;> rfl

/-! ## C15 -/

/-- C15. A property whose kind is not one of the nine known ones, at any nesting depth
and after any well-formed properties, makes header parsing fail with
`UnexpectedProperty` carrying that kind. -/
theorem unknown_kind_rejected (major minor : I32) (net : Option I32) (game : Str) (kind : Str)
    (b1 b2 d : Bytes) (hnet : NetVersionField major minor net b1) (hgame : TextField game b2)
    (h : UnknownAt (decide (major = 0 ∧ minor = 0)) kind d)
    (hd : (word major ++ (word minor ++ (b1 ++ (b2 ++ d)))).length ≤ T) :
    ∃ off st, parseHeader env (at_ T (word major ++ (word minor ++ (b1 ++ (b2 ++ d))))) =
      .err (.parseError "header properties" off (.unexpectedProperty kind)) st := by
  rw [parseHeader_eq]
  simp only [bind, P.bind]
  rw [takeI32_run hT hd]
  simp only [List.length_append] at hd
  simp only
  rw [takeI32_run hT (by simp only [List.length_append]; omega)]
  simp only
  rw [(netVersion_spec major minor).run hT (by simp only [List.length_append]; omega) hnet]
  simp only
  rw [(parseText_spec.wrap _).run hT (by simp only [List.length_append]; omega) hgame]
  simp only [P.wrap, P.bind, rdictFuel, at_]
  have hm := headerMode_isQuirks major minor net b1 hnet
  have hm2 : headerMode major minor net = modeOf (decide (major = 0 ∧ minor = 0)) := by
    rw [← hm]
    cases headerMode major minor net <;> rfl
  obtain ⟨st, hst⟩ := parseRdict_unknown (env := env) h (fuel := d.length + 1) (T := T) (by omega)
    (by omega) hT
  rw [hm2]
  simp only [at_] at hst
  rw [hst]
  exact ⟨_, _, rfl⟩

/-! ## C16 -/

/-- The net version is read exactly for major > 865 and minor > 17. -/
def NetConsistent (major minor : I32) (net : Option I32) : Prop :=
  net.isSome ↔ 865 < major.toInt ∧ 17 < minor.toInt

omit hT in
theorem headerMode_eq {major minor : I32} {net : Option I32} (h : NetConsistent major minor net) :
    headerMode major minor net = if major = 0 ∧ minor = 0 then .quirks else .standard := by
  unfold headerMode
  cases net with
  | none => rfl
  | some n =>
    have := h.1 rfl
    have hne : ¬ (major = 0 ∧ minor = 0) := by
      rintro ⟨rfl, _⟩
      exact absurd this.1 (by decide)
    rw [if_neg hne]

/-- C16. In a version 0.0 header a boolean takes four bytes, of which the first counts. -/
theorem bool_quirks (recur : P (List (Str × HeaderProp))) (net : Option I32)
    (hnet : NetConsistent 0 0 net) (b b1 b2 b3 : Byte) (d : Bytes)
    (hd : d.length + 4 ≤ T) :
    propValue recur (headerMode 0 0 net) "BoolProperty".toList env (at_ T (b :: b1 :: b2 :: b3 :: d)) =
      .ok (some (.bool (b == 1))) (at_ T d) := by
  rw [headerMode_eq hnet, if_pos ⟨rfl, rfl⟩]
  unfold propValue
  simp only [if_true, bind, P.bind]
  rw [show takeData 4 env (at_ T (b :: b1 :: b2 :: b3 :: d)) = .ok [b, b1, b2, b3] (at_ T d) from
    takeData_run (bs := [b, b1, b2, b3]) hT (by simpa using hd) (by simp)]
  rfl

/-- C16. In any other header a boolean takes one byte. -/
theorem bool_standard (recur : P (List (Str × HeaderProp))) (major minor : I32) (net : Option I32)
    (hnet : NetConsistent major minor net) (hv : ¬ (major = 0 ∧ minor = 0)) (b : Byte) (d : Bytes)
    (hd : d.length + 1 ≤ T) :
    propValue recur (headerMode major minor net) "BoolProperty".toList env (at_ T (b :: d)) =
      .ok (some (.bool (b == 1))) (at_ T d) := by
  rw [headerMode_eq hnet, if_neg hv]
  unfold propValue
  simp only [if_true, bind, P.bind]
  rw [show takeData 1 env (at_ T (b :: d)) = .ok [b] (at_ T d) from
    takeData_run (bs := [b]) hT (by simpa using hd) (by simp)]
  rfl

/-- C16. In a version 0.0 header a byte property is a single text. -/
theorem byte_quirks (recur : P (List (Str × HeaderProp))) (net : Option I32)
    (hnet : NetConsistent 0 0 net) (k : Str) (bs d : Bytes) (hk : TextField k bs)
    (hd : (bs ++ d).length ≤ T) :
    propValue recur (headerMode 0 0 net) "ByteProperty".toList env (at_ T (bs ++ d)) =
      .ok (some (.byte k none)) (at_ T d) := by
  rw [headerMode_eq hnet, if_pos ⟨rfl, rfl⟩]
  unfold propValue
  simp only [if_neg (show ¬ lit "ByteProperty" = lit "BoolProperty" by rw [lit_inj]; decide), if_true,
    bind, P.bind]
  rw [parseText_spec.run hT hd hk]
  rfl

/-- C16. In any other header it is two strings. -/
theorem byte_standard (recur : P (List (Str × HeaderProp))) (major minor : I32) (net : Option I32)
    (hnet : NetConsistent major minor net) (hv : ¬ (major = 0 ∧ minor = 0)) (k v : Str) (b1 b2 d : Bytes)
    (hk : StrField k b1) (hk2 : StrField v b2) (hn : k ≠ "None".toList)
    (hd : (b1 ++ (b2 ++ d)).length ≤ T) :
    propValue recur (headerMode major minor net) "ByteProperty".toList env (at_ T (b1 ++ (b2 ++ d))) =
      .ok (some (.byte k (some v))) (at_ T d) := by
  rw [headerMode_eq hnet, if_neg hv]
  unfold propValue
  simp only [if_neg (show ¬ lit "ByteProperty" = lit "BoolProperty" by rw [lit_inj]; decide), if_true,
    bind, P.bind]
  rw [parseStr_spec.run hT hd hk]
  simp only [if_neg (show ¬ k = lit "None" from hn), P.bind]
  rw [parseStr_spec.run hT (by simp only [List.length_append] at hd ⊢; omega) hk2]
  rfl

/-- C16. A parsed header has a net version exactly when major > 865 and minor > 17; so
the mode used for it is quirks exactly when both versions are 0. -/
theorem net_version_present (d : Bytes) (hd : d.length ≤ T) (h : Header) (st : CoreSt)
    (hp : parseHeader env (at_ T d) = .ok h st) :
    NetConsistent h.majorVersion h.minorVersion h.netVersion := by
  obtain ⟨bs, rest, ⟨b1, b2, b3, hn, _⟩, _⟩ := (header_ok_iff env T hT d hd h st).1 hp
  unfold NetVersionField at hn
  unfold NetConsistent
  split at hn
  · rename_i hv
    obtain ⟨n, h1, _⟩ := hn
    rw [h1]
    simp only [Option.isSome_some, true_iff]
    exact hv
  · rename_i hv
    rw [hn.1]
    simp only [Option.isSome_none, Bool.false_eq_true, false_iff]
    exact hv

/-! ## C20 -/

/-- C20. A list prefix that is negative or above 25000 is rejected before any element is
read: the error and the position are the same whatever the element parser does. -/
theorem list_too_large {α : Type} (f : P α) (n : I32) (d : Bytes) (h : n.toInt < 0 ∨ 25000 < n.toInt)
    (hd : (word n ++ d).length ≤ T) :
    listOf f env (at_ T (word n ++ d)) = .err (.listTooLarge (env.usizeOfI32 n)) (at_ T d) := by
  unfold listOf
  simp only [bind, P.bind]
  rw [take32_run hT hd]
  simp only [P.usize, repeatP]
  rw [if_pos]
  · rfl
  · rcases h with h | h
    · have := PSpec.usizeOfI32_neg env n h
      omega
    · rw [PSpec.usizeOfI32_nonneg env n (by omega)]
      rw [BitVec.toInt_eq_toNat_cond] at h
      split at h <;> omega

/-- C20. The same for array properties. -/
theorem array_too_large (recur : P (List (Str × HeaderProp))) (mode : ParserMode) (n : I32) (d : Bytes)
    (h : n.toInt < 0 ∨ 25000 < n.toInt) (hd : (word n ++ d).length ≤ T) :
    propValue recur mode "ArrayProperty".toList env (at_ T (word n ++ d)) =
      .err (.listTooLarge (env.usizeOfI32 n)) (at_ T d) := by
  unfold propValue
  simp only [if_neg (show ¬ lit "ArrayProperty" = lit "BoolProperty" by rw [lit_inj]; decide),
    if_neg (show ¬ lit "ArrayProperty" = lit "ByteProperty" by rw [lit_inj]; decide), if_true,
    bind, P.bind]
  rw [takeI32_run hT hd]
  simp only [P.usize, repeatP]
  rw [if_pos]
  · rfl
  · rcases h with h | h
    · have := PSpec.usizeOfI32_neg env n h
      omega
    · rw [PSpec.usizeOfI32_nonneg env n (by omega)]
      rw [BitVec.toInt_eq_toNat_cond] at h
      split at h <;> omega

omit hT in
theorem replicateP_length {α : Type} (f : P α) (n : Nat) (s s' : CoreSt) (xs : List α)
    (h : replicateP n f env s = .ok xs s') : xs.length = n := by
  induction n generalizing s s' xs with
  | zero => cases h; rfl
  | succ n ih =>
    rw [replicateP] at h
    simp only [bind, P.bind] at h
    cases hf : f env s with
    | ok a s1 =>
      rw [hf] at h
      simp only at h
      cases hr : replicateP n f env s1 with
      | ok ys s2 =>
        rw [hr] at h
        cases h
        rw [List.length_cons, ih _ _ _ hr]
      | err e s2 => rw [hr] at h; cases h
      | fault x => rw [hr] at h; cases h
    | err e s1 => rw [hf] at h; cases h
    | fault x => rw [hf] at h; cases h

/-- C20. A list that is read has exactly as many elements as its prefix says, at most
25000, whatever the element parser. -/
theorem list_length {α : Type} (f : P α) (n : I32) (d : Bytes) (hd : (word n ++ d).length ≤ T)
    (xs : List α) (st : CoreSt) (h : listOf f env (at_ T (word n ++ d)) = .ok xs st) :
    (xs.length : Int) = n.toInt ∧ xs.length ≤ 25000 := by
  by_cases hn : n.toInt < 0 ∨ 25000 < n.toInt
  · rw [list_too_large env T hT f n d hn hd] at h
    cases h
  · unfold listOf at h
    simp only [bind, P.bind] at h
    rw [take32_run hT hd] at h
    simp only [P.usize, repeatP, PSpec.usizeOfI32_nonneg env n (by omega)] at h
    have e : n.toInt = n.toNat := by
      have := n.isLt
      rw [BitVec.toInt_eq_toNat_cond] at hn ⊢
      split at hn <;> rename_i h2
      · rw [if_pos h2]
      · omega
    rw [if_neg (by omega)] at h
    have := replicateP_length env f _ _ _ _ h
    omega

omit hT

mutual
/-- All arrays in a property value have at most 25000 elements. -/
def ValArrays : HeaderProp → Prop
  | .array xs => xs.length ≤ 25000 ∧ ElemsArrays xs
  | .struct _ fs => PropsArrays fs
  | _ => True
def ElemsArrays : List (List (Str × HeaderProp)) → Prop
  | [] => True
  | x :: xs => PropsArrays x ∧ ElemsArrays xs
def PropsArrays : List (Str × HeaderProp) → Prop
  | [] => True
  | (_, v) :: rest => ValArrays v ∧ PropsArrays rest
end

theorem propList_arrays {q : Bool} {ps : List (Str × HeaderProp)} {bs : Bytes}
    (h : PropList q ps bs) : PropsArrays ps := by
  refine PropList.rec (motive_1 := fun ps _ _ => PropsArrays ps)
    (motive_2 := fun _ v _ _ => ValArrays v) (motive_3 := fun xs _ _ => ElemsArrays xs)
    ?_ ?_ ?_ ?_ ?_ ?_ ?_ ?_ ?_ ?_ ?_ ?_ ?_ ?_ ?_ ?_ h
  · intros; unfold PropsArrays; trivial
  · intros; unfold PropsArrays; exact ⟨by assumption, by assumption⟩
  · intros; assumption
  · intros; unfold ValArrays; trivial
  · intros; unfold ValArrays; trivial
  · intros; unfold ValArrays; trivial
  · intros; unfold ValArrays; trivial
  · intros; unfold ValArrays; exact ⟨by assumption, by assumption⟩
  · intros; unfold ValArrays; trivial
  · intros; unfold ValArrays; trivial
  · intros; unfold ValArrays; trivial
  · intros; unfold ValArrays; trivial
  · intros; unfold ValArrays; trivial
  · intros; unfold ValArrays; assumption
  · unfold ElemsArrays; trivial
  · intros; unfold ElemsArrays; exact ⟨by assumption, by assumption⟩

theorem concat_forall {α : Type} {g : α → Bytes → Prop} {p : α → Prop} {xs : List α} {bs : Bytes}
    (h : Concat g xs bs) (hp : ∀ x b, g x b → p x) : ∀ x ∈ xs, p x := by
  induction h with
  | nil => intro x hx; cases hx
  | cons h1 _ ih =>
    intro x hx
    rcases List.mem_cons.1 hx with rfl | hx
    · exact hp _ _ h1
    · exact ih x hx

/-- C20. Every list in a returned replay has at most 25000 elements. -/
theorem replay_list_lengths (check : CrcCheck) (np : NetworkParse) (data : Bytes)
    (hl : data.length ≤ env.isizeMax) (r : Replay) (h : parseWith check np env data = .ok r) :
    PropsArrays r.properties ∧ r.levels.length ≤ 25000 ∧ r.keyframes.length ≤ 25000 ∧
    r.debugInfo.length ≤ 25000 ∧ r.tickMarks.length ≤ 25000 ∧ r.packages.length ≤ 25000 ∧
    r.objects.length ≤ 25000 ∧ r.names.length ≤ 25000 ∧ r.classIndices.length ≤ 25000 ∧
    r.netCache.length ≤ 25000 ∧ ∀ c ∈ r.netCache, c.properties.length ≤ 25000 := by
  obtain ⟨x, rest, net, ⟨bh, bb, h1, h2, _⟩, _, rfl⟩ :=
    parseWith_ok_of hl h
  obtain ⟨_, _, b3, _, _, hp, _⟩ := h1
  obtain ⟨_, _, _, _, _, _, _, _, _, l1, l2, _, l3, l4, l5, l6, l7, l8, ⟨body, hc, l9, _⟩, _⟩ := h2
  refine ⟨propList_arrays hp, ?_, ?_, ?_, ?_, ?_, ?_, ?_, ?_, hc, ?_⟩
  · obtain ⟨_, h, _⟩ := l1; exact h
  · obtain ⟨_, h, _⟩ := l2; exact h
  · obtain ⟨_, h, _⟩ := l3; exact h
  · obtain ⟨_, h, _⟩ := l4; exact h
  · obtain ⟨_, h, _⟩ := l5; exact h
  · obtain ⟨_, h, _⟩ := l6; exact h
  · obtain ⟨_, h, _⟩ := l7; exact h
  · obtain ⟨_, h, _⟩ := l8; exact h
  · exact concat_forall l9 fun c b hb => by obtain ⟨_, ⟨_, h, _⟩, _⟩ := hb; exact h

/-! ## Instances of C14, C15, C16, C20 -/

/-- A tree with duplicate keys and nesting. -/
example : parseRdict 1000 .standard Env.default64 (at_ 1000 (encProps false
      [("a".toList, .struct "T".toList [("x".toList, .bool true)]), ("a".toList, .int 1),
       ("a".toList, .int 1)] ++ [9#8])) =
    .ok [("a".toList, .struct "T".toList [("x".toList, .bool true)]), ("a".toList, .int 1),
       ("a".toList, .int 1)] (at_ 1000 [9#8]) :=
  properties_round_trip Env.default64 1000 (Room.of_lt (by decide)) .standard _ [9#8]
    (by simp only [PropsOk, PropOk, ValOk, StrOk]; decide +kernel) 1000 (by decide +kernel)
    (by decide +kernel)

/-- An unknown kind inside a struct. -/
example : UnknownAt false "Foo".toList (encStr "k".toList ++ (encStr "StructProperty".toList ++
    (List.replicate 8 0#8 ++ (encStr "S".toList ++ (encStr "x".toList ++ (encStr "Foo".toList ++
      (List.replicate 8 1#8 ++ [])))))))  := by
  have ok : ∀ s ∈ ["k".toList, "StructProperty".toList, "S".toList, "x".toList, "Foo".toList],
      StrField s (encStr s) := fun s hs => strField_enc (by
    have : ∀ s ∈ ["k".toList, "StructProperty".toList, "S".toList, "x".toList, "Foo".toList],
        (utf8 s).length + 1 < 2 ^ 31 := by decide +kernel
    exact this s hs)
  exact .inStruct (by decide +kernel) (ok _ (by decide +kernel)) (ok _ (by decide +kernel)) rfl
    (ok _ (by decide +kernel)) (.here (by decide +kernel) (ok _ (by decide +kernel))
      (ok _ (by decide +kernel)) rfl (by decide +kernel))

/-- Versions that are and are not version 0.0. -/
example : NetConsistent 0 0 none ∧ NetConsistent 868 20 (some 10) ∧ NetConsistent 0 1 none := by
  unfold NetConsistent; decide

/-- A list prefix of -1. -/
example : listOf parseText Env.default64 (at_ 10 (word (-1) ++ [])) =
    .err (.listTooLarge (2 ^ 64 - 1)) (at_ 10 []) :=
  list_too_large Env.default64 10 (Room.of_lt (by decide)) parseText (-1) [] (.inl (by decide)) (by decide)

/-! ## C24 (violated) -/

mutual
/-- Nesting depth of a value: the number of `parse_rdict` calls active while its
innermost property list is read. -/
def valDepth : HeaderProp → Nat
  | .array xs => elemsDepth xs
  | .struct _ fs => propsDepth fs
  | _ => 0
def elemsDepth : List (List (Str × HeaderProp)) → Nat
  | [] => 0
  | x :: xs => max (propsDepth x) (elemsDepth xs)
/-- Nesting depth of a property list, itself included. -/
def propsDepth : List (Str × HeaderProp) → Nat
  | [] => 1
  | (_, v) :: rest => max (1 + valDepth v) (propsDepth rest)
end

/-- `k` structs inside each other. -/
def nested : Nat → List (Str × HeaderProp)
  | 0 => []
  | k + 1 => [([], .struct [] (nested k))]

theorem nested_depth (k : Nat) : propsDepth (nested k) = k + 1 := by
  induction k with
  | zero => simp [nested, propsDepth]
  | succ k ih => simp [nested, propsDepth, valDepth, ih]; omega

theorem nested_ok (k : Nat) : PropsOk false (nested k) := by
  induction k with
  | zero => unfold nested PropsOk; trivial
  | succ k ih =>
    have h0 : StrOk [] := by unfold StrOk; decide +kernel
    rw [nested, PropsOk, PropsOk, PropOk, ValOk]
    exact ⟨⟨by decide +kernel, h0, h0, ih⟩, trivial⟩

theorem encStr_none_length : (encStr "None".toList).length = 9 := by decide +kernel

theorem nested_length (k : Nat) : (encProps false (nested k)).length = 46 * k + 9 := by
  have h0 : (encStr []).length = 5 := by decide +kernel
  have h1 : (encStr "StructProperty".toList).length = 19 := by decide +kernel
  induction k with
  | zero => rw [nested, encProps, encStr_none_length]
  | succ k ih =>
    rw [nested, encProps, encProp, encProps]
    have e : encVal false (.struct [] (nested k)) = encStr [] ++ encProps false (nested k) := by
      rw [encVal]
    have e' : propKind (.struct [] (nested k)) = "StructProperty".toList := rfl
    rw [e, e']
    simp only [List.length_append, word_length]
    rw [h0, h1, ih, encStr_none_length]
    omega

/-- The header with `k` nested structs. -/
def nestedHeader (k : Nat) : Header := ⟨1, 0, none, [], nested k⟩

theorem nestedHeader_ok (k : Nat) : HeaderOk (nestedHeader k) := by
  refine ⟨?_, ?_, nested_ok k⟩
  · show (none : Option I32).isSome ↔ 865 < (1 : I32).toInt ∧ 17 < (0 : I32).toInt
    decide
  · show TextOk []
    decide +kernel

theorem sampleBody_ok : BodyOk sampleBody := by
  unfold BodyOk ListOk sampleBody
  simp

theorem nestedFile_length (k : Nat) : (encFile (nestedHeader k) sampleBody).length = 46 * k + 78 := by
  have e1 : (encHeader (nestedHeader k)).length = 46 * k + 22 := by
    have e0 : (encText []).length = 5 := by decide +kernel
    have e2 : isQuirks (nestedHeader k) = false := by
      show decide ((1 : I32) = 0 ∧ (0 : I32) = 0) = false
      decide
    unfold encHeader
    rw [e2]
    simp only [List.length_append, nestedHeader, word_length, nested_length, e0, Option.map_none,
      Option.getD_none, List.length_nil]
    omega
  have e3 : (encBody sampleBody).length = 40 := by decide +kernel
  unfold encFile encSection
  simp only [List.length_append, word_length, e1, e3]
  omega

/-- C24 is false. A file of `46 k + 78` bytes makes header parsing recurse `k + 1` deep
(each nested property list is read by a recursive call, one stack frame each), for every
`k` up to 46 million. -/
theorem depth_unbounded (k : Nat) (hk : k ≤ 46000000) :
    ∃ data r, data.length = 46 * k + 78 ∧ parseWith .always .never env data = .ok r ∧
      propsDepth r.properties = k + 1 := by
  have e4 := nestedFile_length k
  have hs := fileSecs_enc (nestedHeader_ok k) sampleBody_ok [] (by rw [e4]; omega)
  rw [List.append_nil] at hs
  refine ⟨encFile (nestedHeader k) sampleBody, (fileSections (nestedHeader k) sampleBody).replay none,
    e4, ?_, nested_depth k⟩
  rw [parseWith_ok_iff _ _ _ _ (Room.of_lt (by rw [e4]; omega))]
  exact ⟨_, _, none, hs, rfl, rfl⟩

/-- The same without a limit on `k` but that the file can exist (and stays below 2 GiB if
overflow checks are on): the sizes of the sections need not be right. -/
theorem depth_unbounded_any (k : Nat) (hk : Room env (46 * k + 78)) :
    ∃ data r, data.length = 46 * k + 78 ∧ parseWith .always .never env data = .ok r ∧
      propsDepth r.properties = k + 1 := by
  have e4 := nestedFile_length k
  unfold encFile encSection at e4
  simp only [List.length_append, word_length] at e4
  have hl : (word 0 ++ (word (Crc.crc []) ++ (encHeader (nestedHeader k) ++ (word 0 ++
      (word (Crc.crc []) ++ (encBody sampleBody ++ [])))))).length = 46 * k + 78 := by
    simp only [List.length_append, word_length, List.length_nil]; omega
  refine ⟨_, (Sections.mk 0 (Crc.crc []) (nestedHeader k) 0 (Crc.crc []) sampleBody).replay none,
    hl, ?_, nested_depth k⟩
  rw [parseWith_ok_iff _ _ _ _ (by rw [hl]; exact hk)]
  exact ⟨⟨0, Crc.crc [], nestedHeader k, 0, Crc.crc [], sampleBody⟩, [], none,
    ⟨_, _, headerSec_enc (nestedHeader_ok k), bodySec_enc sampleBody_ok, rfl,
    ⟨(by decide : (0 : Int) ≤ (0 : I32).toInt), Nat.zero_le _⟩,
    ⟨(by decide : (0 : Int) ≤ (0 : I32).toInt), Nat.zero_le _⟩,
    fun _ => ⟨rfl, rfl⟩⟩, rfl, rfl⟩

/-- So no constant bounds the depth, as far as there are files. -/
theorem no_depth_bound (B : Nat) (hB : Room env (46 * B + 78)) :
    ¬ ∀ data r, parseWith .always .never env data = .ok r → propsDepth r.properties ≤ B := by
  intro h
  obtain ⟨data, r, _, hp, hd⟩ := depth_unbounded_any env B hB
  have := h data r hp
  omega

/-- For instance a hundred thousand million million on 64-bit platforms in release builds. -/
example : ¬ ∀ data r, parseWith .always .never { Env.default64 with checks := false } data = .ok r →
    propsDepth r.properties ≤ 10 ^ 17 :=
  no_depth_bound _ _ ⟨by decide, fun h => by cases h⟩

theorem PropList_length_ge {q : Bool} {ps : List (Str × HeaderProp)} {bs : Bytes}
    (h : PropList q ps bs) : 4 ≤ bs.length := by
  cases h with
  | done h => exact StrField.length_ge h
  | prop _ h => have := StrField.length_ge h; rw [List.length_append]; omega
  | skip _ _ h => have := StrField.length_ge h; rw [List.length_append]; omega

theorem propList_depth {q : Bool} {ps : List (Str × HeaderProp)} {bs : Bytes}
    (h : PropList q ps bs) : 20 * propsDepth ps ≤ bs.length + 16 := by
  refine PropList.rec (motive_1 := fun ps bs _ => 20 * propsDepth ps ≤ bs.length + 16)
    (motive_2 := fun _ v bs _ => 20 * valDepth v ≤ bs.length + 12)
    (motive_3 := fun xs bs _ => 20 * elemsDepth xs ≤ bs.length + 16)
    ?_ ?_ ?_ ?_ ?_ ?_ ?_ ?_ ?_ ?_ ?_ ?_ ?_ ?_ ?_ ?_ h
  · intro bs h; have := StrField.length_ge h; unfold propsDepth; omega
  · intro key kind v rest b1 b2 sz b3 b4 _ h1 h2 hs _ h4 ih1 ih2
    have := StrField.length_ge h1
    have := StrField.length_ge h2
    have := PropList_length_ge h4
    unfold propsDepth
    simp only [List.length_append]
    omega
  · intro key rest b1 b2 sz b3 x b4 _ _ h1 h2 _ _ _ ih
    simp only [List.length_append]
    omega
  all_goals try (intros; unfold valDepth; omega)
  · intro xs body _ _ ih
    unfold valDepth
    simp only [List.length_append, word_length]
    omega
  · intro n fs b1 b2 h1 _ ih
    have := StrField.length_ge h1
    unfold valDepth
    simp only [List.length_append]
    omega
  · unfold elemsDepth; omega
  · intro x xs b bs _ _ ih1 ih2
    unfold elemsDepth
    simp only [List.length_append]
    omega

/-- C24, what does hold: the depth is at most a twentieth of the file size. -/
theorem depth_linear_partial (check : CrcCheck) (np : NetworkParse) (data : Bytes)
    (hl : data.length ≤ env.isizeMax) (r : Replay) (h : parseWith check np env data = .ok r) :
    20 * propsDepth r.properties ≤ data.length + 16 := by
  obtain ⟨x, rest, net, ⟨bh, bb, ⟨_, _, b3, _, _, hp, hbh⟩, _, rfl, _⟩, _, rfl⟩ :=
    parseWith_ok_of hl h
  have := propList_depth hp
  show 20 * propsDepth x.header.properties ≤ _
  simp only [hbh, List.length_append]
  omega

/-! ## C43 -/

/-- C43. The header lookups use the first property with the name, and only if it has the
right type. -/
theorem lookup_first (h : Header) (pre post : List (Str × HeaderProp)) (k : Str) (v : HeaderProp)
    (hp : h.properties = pre ++ (k, v) :: post) (hpre : ∀ p ∈ pre, p.1 ≠ k) :
    (k = "NumFrames".toList → h.numFrames = v.asI32) ∧
    (k = "MaxChannels".toList → h.maxChannels = v.asI32) ∧
    (k = "MatchType".toList → h.matchType = v.asString) ∧
    (k = "BuildVersion".toList → h.buildVersion = v.asString) := by
  have key : ∀ {α : Type} (f : HeaderProp → Option α), h.findProp k f = f v := by
    intro α f
    unfold Header.findProp
    rw [hp, List.find?_append, List.find?_eq_none.2 (by simpa using hpre)]
    simp
  refine ⟨?_, ?_, ?_, ?_⟩ <;> rintro rfl <;> exact key _

/-- C43. Without such a property the lookups give nothing. -/
theorem lookup_absent (h : Header) :
    ((∀ p ∈ h.properties, p.1 ≠ "NumFrames".toList) → h.numFrames = none) ∧
    ((∀ p ∈ h.properties, p.1 ≠ "MaxChannels".toList) → h.maxChannels = none) ∧
    ((∀ p ∈ h.properties, p.1 ≠ "MatchType".toList) → h.matchType = none) ∧
    ((∀ p ∈ h.properties, p.1 ≠ "BuildVersion".toList) → h.buildVersion = none) := by
  have key : ∀ {α : Type} (k : Str) (f : HeaderProp → Option α),
      (∀ p ∈ h.properties, p.1 ≠ k) → h.findProp k f = none := by
    intro α k f hk
    unfold Header.findProp
    rw [List.find?_eq_none.2 (by simpa using hk)]
    rfl
  exact ⟨key _ _, key _ _, key _ _, key _ _⟩

/-- A later duplicate of the right type does not help: the first one is a string. -/
example : (⟨0, 0, none, [], [("NumFrames".toList, .str "3".toList), ("NumFrames".toList, .int 3)]⟩ :
    Header).numFrames = none := by
  have := (lookup_first ⟨0, 0, none, [], [("NumFrames".toList, .str "3".toList),
    ("NumFrames".toList, .int 3)]⟩ [] _ _ _ rfl (by simp)).1 rfl
  exact this

/-! ## C46 -/

/-- C46. Each accessor returns the payload exactly for its variants. -/
theorem accessors (p : HeaderProp) :
    (∀ x, p.asArray = some x ↔ p = .array x) ∧ (∀ x, p.asBool = some x ↔ p = .bool x) ∧
    (∀ x, p.asFloat = some x ↔ p = .float x) ∧ (∀ x, p.asU64 = some x ↔ p = .qword x) ∧
    (∀ x, p.asI32 = some x ↔ p = .int x) ∧ (∀ x, p.asString = some x ↔ p = .name x ∨ p = .str x) ∧
    (p.isByte = true ↔ ∃ k v, p = .byte k v) := by
  cases p <;> simp [HeaderProp.asArray, HeaderProp.asBool, HeaderProp.asFloat, HeaderProp.asU64,
    HeaderProp.asI32, HeaderProp.asString, HeaderProp.isByte]

/-- C46. At most one accessor succeeds on a value. -/
theorem accessors_exclusive (p : HeaderProp) :
    ([p.asArray.isSome, p.asBool.isSome, p.asFloat.isSome, p.asU64.isSome, p.asI32.isSome,
      p.asString.isSome, p.isByte].filter (· == true)).length ≤ 1 := by
  cases p <;> simp [HeaderProp.asArray, HeaderProp.asBool, HeaderProp.asFloat, HeaderProp.asU64,
    HeaderProp.asI32, HeaderProp.asString, HeaderProp.isByte]

end Boxcars.Props
