import Verif.Spec.DocProps
import Verif.Proofs.AttrLength
import Verif.Proofs.Section
import Verif.Props.Header
/-!
# C102: header properties are read as documented
-/
namespace Boxcars.Props
open Boxcars Spec

theorem propVal_twoStrings {k' : Str} {v : HeaderProp} {b : Bytes} (h : PropVal false k' v b) (k : Str)
    (w : Option Str) (e : v = .byte k w) : k ≠ "None".toList ∧ w ≠ none := by
  subst e
  cases h with
  | byte _ hk => exact ⟨hk, fun h => nomatch h⟩
  | byteQuirks hq => cases hq

theorem propList_twoStrings : ∀ {ps : List (Str × HeaderProp)} {bs : Bytes}, PropList false ps bs →
    TwoStrings ps
  | _, _, .done _ => fun _ hp => nomatch hp
  | _, _, .prop _ _ _ _ hv hr => fun p hp k w e => by
    rcases List.mem_cons.1 hp with rfl | hp
    · exact propVal_twoStrings hv k w e
    · exact propList_twoStrings hr p hp k w e
  | _, _, .skip _ _ _ _ _ _ hr => propList_twoStrings hr

theorem docProps_propList : ∀ {ps : List (Str × HeaderProp)} {bs : Bytes}, DocProps ps bs → Flat ps →
    TwoStrings ps → PropList false ps bs
  | _, _, .done h, _, _ => .done h
  | _, _, .prop hk h1 h2 hs hv hr, hf, ht =>
    .prop hk h1 h2 hs
      (match hv with
        | .bool b => .bool b rfl
        | .byte _ g1 g2 => .byte rfl (ht _ List.mem_cons_self _ _ rfl).1 g1 g2
        | .store _ _ => absurd rfl (ht _ List.mem_cons_self _ _ rfl).2
        | .float x => .float x
        | .int x => .int x
        | .name g => .name g
        | .str g => .str g
        | .qword x => .qword x
        | .array _ => absurd rfl (hf _ List.mem_cons_self _))
      (docProps_propList hr (fun p hp => hf p (List.mem_cons_of_mem _ hp))
        (fun p hp => ht p (List.mem_cons_of_mem _ hp)))

variable (env : Env) (T : Nat) (hT : Room env T)
include hT

/-- C102, as far as it holds: documented properties without arrays are read as documented exactly if
every byte property has two strings, of which the first is not `None`. The full statement is that all
documented properties are read as documented; it fails, see `doc_store_never`, `doc_none_never` and
`doc_array_never`. -/
theorem doc_props_partial {ps : List (Str × HeaderProp)} {bs : Bytes} (h : DocProps ps bs) (hf : Flat ps)
    (rest : Bytes) (hd : (bs ++ rest).length ≤ T) (fuel : Nat) (hn : (bs ++ rest).length < fuel) :
    parseRdict fuel .standard env (at_ T (bs ++ rest)) = .ok ps (at_ T rest) ↔ TwoStrings ps := by
  have sp := parseRdict_spec fuel .standard hn
  constructor
  · intro hp
    obtain ⟨⟨bs', h1, _⟩, _⟩ :=
      (sp.okIff T env (at_ T (bs ++ rest)) hT.1 (at_inv hT hd) (Nat.le_refl _) ps _).1 hp
    exact propList_twoStrings h1
  · intro ht
    exact sp.run hT hd (docProps_propList h hf ht)

omit hT

/-- C102 fails: no value of a header is a byte property with a single string, except in version 0.0. -/
theorem doc_store_never (k k' : Str) (b : Bytes) : ¬PropVal false k' (.byte k none) b := by
  intro h; cases h; rename_i hq _; cases hq

/-- C102 fails: no value is a byte property of the kind `None`. -/
theorem doc_none_never (v : Option Str) (k' : Str) (b : Bytes) : ¬PropVal false k' (.byte "None".toList v) b := by
  intro h
  cases h with
  | byte _ hk => exact hk rfl
  | byteQuirks hq => cases hq

/-- The first four bytes of a property list are the size of its first key. -/
theorem docProps_start {ps : List (Str × HeaderProp)} {b : Bytes} (h : DocProps ps b)
    (hk : ∀ p ∈ ps.head?, p.1 ≠ []) :
    ∃ n r, 2 ≤ n ∧ n < 2 ^ 31 ∧ b = word (BitVec.ofNat 32 n) ++ r := by
  have key : ∀ {s : Str} {b : Bytes}, s ≠ [] → StrField s b →
      ∃ n r, 2 ≤ n ∧ n < 2 ^ 31 ∧ b = word (BitVec.ofNat 32 n) ++ r := by
    intro s b hs hb
    rcases hb with ⟨rfl, _⟩ | ⟨last, hl, rfl⟩
    · exact absurd rfl hs
    · have : 0 < (utf8 s).length := by
        have := utf8_len s
        have : 0 < s.length := List.length_pos_iff.2 hs
        omega
      exact ⟨_, _, by omega, hl, rfl⟩
  cases h with
  | done h => exact key (by decide) h
  | prop _ h1 =>
    obtain ⟨n, r, g1, g2, g3⟩ := key (hk _ rfl) h1
    exact ⟨n, _, g1, g2, by rw [g3, List.append_assoc]⟩

/-- C102 fails: a nested map as documented, without a count in front, is never read as that map,
unless its first key is empty. -/
theorem doc_array_never {ps : List (Str × HeaderProp)} {b : Bytes} (h : DocProps ps b)
    (hk : ∀ p ∈ ps.head?, p.1 ≠ []) (q : Bool) (k : Str) : ¬PropVal q k (.array [ps]) b := by
  obtain ⟨n, r, h1, h2, h3⟩ := docProps_start h hk
  intro hv
  generalize hb : b = b' at hv
  cases hv with
  | @array xs body hl hc =>
    rw [h3] at hb
    have e := congrArg BitVec.toNat (word_append_inj hb).1
    rw [BitVec.toNat_ofNat, BitVec.toNat_ofNat, List.length_singleton, Nat.mod_eq_of_lt (by omega)] at e
    omega

/-- C102 fails for numbers: the number of a 64-bit property is the documented signed one exactly
below 2^63. -/
theorem doc_qword (x : U64) : (HeaderProp.qword x).asU64 = some x ∧
    ((x.toNat : Int) = x.toInt ↔ x.toNat < 2 ^ 63) := by
  refine ⟨rfl, ?_⟩
  rw [BitVec.toInt_eq_toNat_cond]
  have := x.isLt
  split <;> omega

/-- A string of the header with a terminator of zero. -/
def docStr (s : String) : Bytes :=
  word (BitVec.ofNat 32 ((utf8 s.toList).length + 1)) ++ (utf8 s.toList ++ [0])

/-- The sample file with other properties. -/
def docFile (props : Bytes) : Bytes := sample.take 26 ++ (props ++ sample.drop 70)

/-- A property `P` of the given kind, and the end of the list. -/
def docProp (kind : String) (value : Bytes) : Bytes :=
  docStr "P" ++ (docStr kind ++ (List.replicate 8 0 ++ (value ++ docStr "None")))

theorem docStr_field (s : String) (h : (utf8 s.toList).length + 1 < 2 ^ 31) : StrField s.toList (docStr s) :=
  .inr ⟨0, h, rfl⟩

theorem docProp_doc {kind : String} {v : HeaderProp} {value : Bytes}
    (hk : (utf8 kind.toList).length + 1 < 2 ^ 31) (h : DocVal kind.toList v value) :
    DocProps [("P".toList, v)] (docProp kind value) :=
  .prop (by decide) (docStr_field "P" (by decide +kernel)) (docStr_field kind hk) (List.length_replicate ..) h
    (.done (docStr_field "None" (by decide +kernel)))

/-- The outcome is a replay whose only property is a byte property with these strings. -/
def readsByte (data : Bytes) (key kind value : Str) : Bool :=
  match parseWith .never .never Env.default64 data with
  | .ok r =>
    match r.properties with
    | [(k, .byte k' (some v))] => k == key && k' == kind && v == value
    | _ => false
  | _ => false

/-- The outcome is an error. -/
def isRejected (data : Bytes) : Bool :=
  match parseWith .never .never Env.default64 data with
  | .err _ => true
  | _ => false

/-- A documented file with a byte property of two strings is read as documented
(`doc_props_partial` is not empty); one with a byte property of Steam, one with a nested map, and one
with a byte property of the kind `None` are documented too, and rejected. -/
theorem doc_files :
    (DocProps [("P".toList, .byte "OnlinePlatform".toList (some "Epic".toList))]
        (docProp "ByteProperty" (docStr "OnlinePlatform" ++ docStr "Epic")) ∧
      readsByte (docFile (docProp "ByteProperty" (docStr "OnlinePlatform" ++ docStr "Epic")))
        "P".toList "OnlinePlatform".toList "Epic".toList = true) ∧
    (DocProps [("P".toList, .byte "OnlinePlatform_Steam".toList none)]
        (docProp "ByteProperty" (docStr "OnlinePlatform_Steam")) ∧
      isRejected (docFile (docProp "ByteProperty" (docStr "OnlinePlatform_Steam"))) = true) ∧
    (DocProps [("P".toList, .array [[("P".toList, .int 7)]])]
        (docProp "ArrayProperty" (docProp "IntProperty" (word 7))) ∧
      isRejected (docFile (docProp "ArrayProperty" (docProp "IntProperty" (word 7)))) = true) ∧
    (DocProps [("P".toList, .byte "None".toList (some "Epic".toList))]
        (docProp "ByteProperty" (docStr "None" ++ docStr "Epic")) ∧
      isRejected (docFile (docProp "ByteProperty" (docStr "None" ++ docStr "Epic"))) = true) := by
  refine ⟨⟨docProp_doc (by decide +kernel) (.byte ?_ (docStr_field _ (by decide +kernel))
      (docStr_field _ (by decide +kernel))), by decide +kernel⟩,
    ⟨docProp_doc (by decide +kernel) (.store (.inl rfl) (docStr_field _ (by decide +kernel))), by decide +kernel⟩,
    ⟨docProp_doc (by decide +kernel) (.array (docProp_doc (by decide +kernel) (.int 7))), by decide +kernel⟩,
    ⟨docProp_doc (by decide +kernel) (.byte ?_ (docStr_field _ (by decide +kernel))
      (docStr_field _ (by decide +kernel))), by decide +kernel⟩⟩ <;>
  · intro h
    rcases h with h | h <;> exact absurd h (by decide +kernel)

end Boxcars.Props
