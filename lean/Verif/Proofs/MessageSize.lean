import Verif.Proofs.Literals
import Verif.Proofs.Size
import Verif.Proofs.Message
import Verif.Spec.FileFail
import Verif.Spec.MessageSize
/-!
# The lengths of error messages
-/
namespace Boxcars.MessageSize
open Boxcars Spec Display Json

/-! ## numbers -/

theorem i32_len (x : I32) : len (i32 x) ≤ 11 := by
  unfold i32
  refine int_len (k := 10) (by decide) ?_
  have h1 := BitVec.toInt_lt (x := x)
  have h2 := BitVec.le_toInt (x := x)
  omega

theorem nat_len {n k : Nat} (hk : 0 < k) (h : n < 10 ^ k) : len (displayNat n) ≤ k := by
  have := digits_len h
  unfold displayNat
  omega

theorem word_len (x : BitVec 32) : len (displayNat x.toNat) ≤ 10 :=
  nat_len (by decide) (by have := x.isLt; omega)

theorem decimal_len {i : Int} {k : Nat} (hk : 0 < k) (h : i.natAbs < 10 ^ k) :
    len (decimal i) ≤ k + 1 := by
  have := int_len hk h
  rwa [show decimal i = displayInt i from ?_]
  unfold decimal displayInt displayNat
  cases i with
  | ofNat n => simp [toString, Int.repr, Nat.repr]
  | negSucc n => simp [toString, Int.repr, Nat.repr]

theorem dec_len (x : I32) : len (decimal x.toInt) ≤ 11 := by
  refine decimal_len (k := 10) (by decide) ?_
  have h1 := BitVec.toInt_lt (x := x)
  have h2 := BitVec.le_toInt (x := x)
  omega

/-! ## header and body -/

theorem insufficient_len (f : Fmt) (a b : I32) : len (parseError f (.insufficientData a b)) ≤ 72 := by
  have := i32_len a
  have := i32_len b
  unfold parseError
  lits
  omega

theorem usize_len (W : Nat) (hW : W ≤ 64) (n : BitVec 32) : len (displayNat (asUsize W n)) ≤ 20 := by
  refine nat_len (by decide) ?_
  unfold asUsize
  have h0 : (0 : Int) < 2 ^ W := Int.pow_pos (by decide)
  have h1 := Int.emod_lt_of_pos n.toInt h0
  have h2 := Int.emod_nonneg n.toInt (Int.ne_of_gt h0)
  have h3 : (2 : Nat) ^ W ≤ 2 ^ 64 := Nat.pow_le_pow_right (by decide) hW
  have h4 : (2 : Int) ^ W = ((2 ^ W : Nat) : Int) := by simp
  omega

theorem listTooLarge_len (f : Fmt) {W : Nat} (hW : W ≤ 64) (n : BitVec 32) :
    len (parseError f (.listTooLarge (asUsize W n))) ≤ 50 := by
  have := usize_len W hW n
  unfold parseError
  lits
  omega

theorem fault_bounds {bs : List Byte} {v : Nat} {k : Option Nat} (h : Utf8Fault bs v k) :
    v ≤ bs.length ∧ ∀ n, k = some n → n ≤ bs.length := by
  obtain ⟨s, rest, rfl, rfl, _, _, h⟩ := h
  rw [List.length_append]
  refine ⟨by omega, ?_⟩
  rintro n rfl
  obtain ⟨_, h, _⟩ := h
  omega

/-- The messages of failures `F` have at most `N` bytes more than the input. -/
def Brief (f : Fmt) (N : Nat) (F : Fail) : Prop :=
  ∀ e d d', F e d d' → len (parseError f e) ≤ N + d.length

namespace Brief
variable {f : Fmt}

theorem mono {N M : Nat} {F : Fail} (h : Brief f N F) (hm : N ≤ M) : Brief f M F :=
  fun _ _ _ hF => Nat.le_trans (h _ _ _ hF) (by omega)

theorem short (n : Nat) : Brief f 150 (Short n) := by
  rintro _ _ _ ⟨_⟩
  exact Nat.le_trans (insufficient_len f _ _) (by omega)

theorem lack (n : BitVec 32) : Brief f 150 (Lack n) := by
  rintro _ _ _ ⟨_⟩
  exact Nat.le_trans (insufficient_len f _ _) (by omega)

theorem utf8Error_len (f : Fmt) {x : Utf8Error} {bs : Bytes} (hl : bs.length < 2 ^ 32)
    (h : Utf8Fault bs x.validUpTo x.errorLen) : len (parseError f (.utf8Error x)) ≤ 150 := by
  obtain ⟨h1, h2⟩ := fault_bounds h
  obtain ⟨v, k⟩ := x
  have hv := nat_len (n := v) (k := 10) (by decide) (by simp only at h1; omega)
  unfold parseError Display.utf8Error
  cases k with
  | none =>
    simp only
    lits
    omega
  | some n =>
    have := h2 n rfl
    have hn := nat_len (n := n) (k := 10) (by decide) (by omega)
    simp only
    lits
    omega

theorem str : Brief f 150 StrFail := by
  intro e d d' h
  cases h with
  | count h => exact short _ _ _ _ h
  | data h =>
    have := lack (f := f) _ _ _ _ h
    rw [List.length_append]
    omega
  | @utf8 n body d x _ hb hf =>
    have hn := n.isLt
    have := utf8Error_len f (by rw [List.length_dropLast]; omega) hf
    omega

theorem text : Brief f 150 TextFieldFail := by
  intro e d d' h
  cases h with
  | count h => exact short _ _ _ _ h
  | @range n d _ =>
    have := i32_len n
    unfold parseError
    lits
    omega
  | narrow _ _ h =>
    have := short (f := f) _ _ _ _ h
    rw [List.length_append]
    omega
  | wide _ _ h =>
    have := short (f := f) _ _ _ _ h
    rw [List.length_append]
    omega

theorem named {T N : Nat} {s : String} {F : Fail} (h : Brief f N F)
    (hs : len (t s) ≤ 20 := by decide +kernel) : Brief f (N + 70) (Named T s F) := by
  rintro _ _ _ ⟨h'⟩
  have := h _ _ _ h'
  have := i32_len (BitVec.ofNat 32 (T - List.length (α := Byte) (by assumption)))
  unfold parseError
  lits
  omega

theorem andThen {α : Type} {N : Nat} {g : α → Bytes → Prop} {F G : Fail} (hF : Brief f N F)
    (hG : Brief f N G) : Brief f N (Then g F G) := by
  rintro _ _ _ (h | ⟨_, h⟩)
  · exact hF _ _ _ h
  · have := hG _ _ _ h
    rw [List.length_append]
    omega

theorem list {α : Type} {W N : Nat} (hW : W ≤ 64) (hN : 150 ≤ N) {g : α → Bytes → Prop} {F : Fail}
    (hF : Brief f N F) : Brief f N (ListFail W g F) := by
  rintro _ _ _ (h | h)
  · exact (short 4).mono hN _ _ _ h
  · cases h with
    | tooLarge =>
      have := listTooLarge_len f hW (by assumption)
      rw [List.length_append]
      omega
    | item _ _ _ h =>
      have := hF _ _ _ h
      simp only [List.length_append]
      omega

theorem blob {T : Nat} : Brief f 220 (BlobFail T) := by
  rintro _ _ _ (h | h)
  · exact named (short 4) (by decide +kernel) _ _ _ h
  · have := named (f := f) (lack _) (by decide +kernel) _ _ _ h
    rw [List.length_append]
    omega

theorem body {T W : Nat} (hW : W ≤ 64) : Brief f 220 (BodyFail T W) :=
  have h : ∀ {α : Type} {g : α → Bytes → Prop} {F : Fail}, Brief f 150 F →
      Brief f 150 (ListFail W g F) := fun h => list hW (Nat.le_refl _) h
  andThen (named (h text)) <|
  andThen (named (h (andThen (short 4) (andThen (short 4) (short 4))))) <|
  andThen blob <|
  andThen (named (h (andThen (short 4) (andThen text text)))) <|
  andThen (named (h (andThen text (short 4)))) <|
  andThen (named (h text)) <|
  andThen (named (h text)) <|
  andThen (named (h text)) <|
  andThen (named (h (andThen str (short 4)))) <|
  named (h (andThen (short 4) (andThen (short 4) (andThen (short 4)
    (h (andThen (short 4) (short 4)))))))

end Brief

theorem le_app {a N : Nat} {b d : Bytes} (h : a ≤ N + d.length) : a ≤ N + (b ++ d).length := by
  rw [List.length_append]; omega

mutual
theorem propList_len (f : Fmt) {T W : Nat} (hW : W ≤ 64) {q : Bool} :
    ∀ {e d d'}, PropListFail T W q e d d' → len (parseError f e) ≤ 220 + d.length
  | _, _, _, .key h => Brief.str.mono (by decide) _ _ _ h
  | _, _, _, .kind _ _ h => le_app (Brief.str.mono (by decide) _ _ _ h)
  | _, _, _, .size _ _ _ h => le_app (le_app ((Brief.short 4).named (by decide +kernel) _ _ _ h))
  | _, _, _, .ignored _ _ _ _ h =>
    le_app (le_app (le_app ((Brief.short 4).mono (by decide) _ _ _ h)))
  | _, _, _, .value _ _ h2 _ h => by
    have h1 := propVal_len f hW h
    have h3 := strField_size h2
    simp only [List.length_append]
    omega
  | _, _, _, .later _ _ _ _ _ h => le_app (le_app (le_app (le_app (propList_len f hW h))))
  | _, _, _, .afterSkip _ _ _ _ _ _ h => le_app (le_app (le_app (le_app (propList_len f hW h))))
theorem propVal_len (f : Fmt) {T W : Nat} (hW : W ≤ 64) {q : Bool} :
    ∀ {kind e d d'}, PropValFail T W q kind e d d' →
      len (parseError f e) ≤ 220 + textSize kind + d.length
  | _, _, _, _, .bool _ h => by have := Brief.short (f := f) _ _ _ _ h; omega
  | _, _, _, _, .boolQuirks _ h => by have := Brief.short (f := f) _ _ _ _ h; omega
  | _, _, _, _, .byteKind _ h => by have := Brief.str (f := f) _ _ _ h; omega
  | _, _, _, _, .byteSkip _ _ h => le_app (by have := Brief.short (f := f) _ _ _ _ h; omega)
  | _, _, _, _, .byteValue _ _ _ h => le_app (by have := Brief.str (f := f) _ _ _ h; omega)
  | _, _, _, _, .byteQuirks _ h => by have := Brief.text (f := f) _ _ _ h; omega
  | _, _, _, _, .arraySize h => by
    have := (Brief.short (f := f) 4).named (by decide +kernel) _ _ _ h; omega
  | _, _, _, _, .arrayTooLarge (n := n) _ => by have := listTooLarge_len f hW n; omega
  | _, _, _, _, .arrayItem _ _ _ h =>
    le_app (le_app (by have := propList_len f hW h; omega))
  | _, _, _, _, .float h => by have := Brief.short (f := f) _ _ _ _ h; omega
  | _, _, _, _, .int h => by have := Brief.short (f := f) _ _ _ _ h; omega
  | _, _, _, _, .qword h => by have := Brief.short (f := f) _ _ _ _ h; omega
  | _, _, _, _, .name h => by have := Brief.text (f := f) _ _ _ h; omega
  | _, _, _, _, .str h => by have := Brief.text (f := f) _ _ _ h; omega
  | _, _, _, _, .structName h => by have := Brief.str (f := f) _ _ _ h; omega
  | _, _, _, _, .structFields _ h => le_app (by have := propList_len f hW h; omega)
  | _, _, _, _, .unknown (kind := k) _ => by
    unfold parseError textSize
    lits
    unfold len
    omega
end

theorem header_len {f : Fmt} {T W : Nat} (hW : W ≤ 64) : Brief f 290 (HeaderFail T W) := by
  intro e d d' h
  cases h with
  | major h => exact (Brief.short 4).named.mono (by decide) _ _ _ h
  | minor h => exact le_app ((Brief.short 4).named.mono (by decide) _ _ _ h)
  | net _ _ h => exact le_app (le_app ((Brief.short 4).named.mono (by decide) _ _ _ h))
  | gameType _ h => exact le_app (le_app (le_app (Brief.text.named.mono (by decide) _ _ _ h)))
  | properties _ _ h =>
    have : ∀ q, Brief f 220 (PropListFail T W q) := fun _ _ _ _ h => propList_len f hW h
    exact le_app (le_app (le_app (le_app ((this _).named (by decide +kernel) _ _ _ h))))

theorem section_len {α : Type} {f : Fmt} {T : Nat} {c : Checking} {title name : String}
    {g : α → Bytes → Prop} {F : Fail} (hF : Brief f 290 F) (hn : len (t name) ≤ 20)
    (h1 : len (t (title ++ " size")) ≤ 20) (h2 : len (t (title ++ " crc")) ≤ 20)
    (h3 : len (t (title ++ " data")) ≤ 20) : Brief f 290 (SectionFail T c title name g F) := by
  intro e d d' h
  cases h with
  | size h => exact ((Brief.short 4).named h1).mono (by decide) _ _ _ h
  | crc h => exact le_app (((Brief.short 4).named h2).mono (by decide) _ _ _ h)
  | data h => exact le_app (le_app (((Brief.lack _).named h3).mono (by decide) _ _ _ h))
  | content _ _ h => exact le_app (le_app (hF _ _ _ h))
  | corrupt _ _ _ h =>
    unfold parseError
    lits
    omega
  | mismatchFail | mismatch =>
    unfold parseError
    lits
    simp only [List.length_append]
    have := word_len (by assumption)
    have h := fun x => word_len x
    refine Nat.le_trans (Nat.add_le_add (Nat.add_le_add (Nat.add_le_add (Nat.le_refl _) (h _))
      (Nat.le_refl _)) (h _)) (by omega)

theorem front_len {f : Fmt} {T W : Nat} {c : Checking} {must : Bool}
    {N : Header → ReplayBody → NetworkError → Prop} (hW : W ≤ 64) {e : ParseError} {d : Bytes}
    (h : FileFail T W c must N e d) (hn : ∀ x, e ≠ .networkError x) :
    len (parseError f e) ≤ 290 + d.length := by
  cases h with
  | header h =>
    exact section_len (header_len hW) (by decide +kernel) (by decide +kernel) (by decide +kernel)
      (by decide +kernel) _ _ _ h
  | body _ _ _ h =>
    exact le_app (le_app (le_app (section_len ((Brief.body hW).mono (by decide)) (by decide +kernel)
      (by decide +kernel) (by decide +kernel) (by decide +kernel) _ _ _ h)))
  | network => exact absurd rfl (hn _)

/-! ## values -/

/-- The message of a value that fails is short. -/
abbrev Terse (e : AttributeError) : Prop := len (attributeError e) ≤ 60

theorem terse_data {m : String} (h : len (t m) ≤ 24 := by decide +kernel) :
    Terse (.notEnoughDataFor m) := by
  unfold Terse attributeError
  lits
  omega

theorem terse_text {e : AttributeError} {i : Bits} (h : TextFail e i) : Terse e := by
  have big : ∀ n, Terse (.tooBigString n) := by
    intro n
    have := i32_len n
    unfold Terse attributeError
    lits
    omega
  cases h with
  | count => exact terse_data
  | range => exact big _
  | narrow => exact big _
  | wide => exact big _

theorem terse_remote {net : I32} {s : Byte} {e : AttributeError} {i : Bits}
    (h : RemoteFail net s e i) : Terse e := by
  cases h with
  | epic h => exact terse_text h
  | unknown =>
    have := nat_len (n := s.toNat) (k := 3) (by decide) (by have := s.isLt; omega)
    unfold Terse attributeError
    lits
    omega
  | _ => exact terse_data

theorem terse_id {net : I32} {s : Byte} {e : AttributeError} {i : Bits}
    (h : IdFail net s e i) : Terse e := by
  cases h with
  | remote h => exact terse_remote h
  | localId => exact terse_data

theorem terse_uniqueId {net : I32} {e : AttributeError} {i : Bits}
    (h : UniqueIdFail net e i) : Terse e := by
  cases h with
  | system => exact terse_data
  | id h => exact terse_id h

theorem plainName_len {d : Ctx} {tag : AttributeTag} {s : String} (h : plainName d tag = some s) :
    len (t s) ≤ 24 := by
  unfold plainName at h
  cases tag
  case qWordString =>
    simp only at h
    split at h
    · cases h
    · cases h; decide +kernel
  all_goals first | (cases h; decide +kernel) | cases h

theorem terse_attr {d : Ctx} {tag : AttributeTag} {e : AttributeError} {i : Bits}
    (h : AttrFails d tag e i) : Terse e := by
  cases h with
  | plain h => exact terse_data (plainName_len h)
  | rigidBody => exact terse_data
  | unimplemented => unfold Terse attributeError; lits; omega
  | string h => exact terse_text h
  | qWordString _ h => exact terse_text h
  | uniqueId h => exact terse_uniqueId h
  | partyLeader h =>
    cases h with
    | system => exact terse_data
    | id _ h => exact terse_id h
  | reservation h =>
    cases h with
    | id _ h => exact terse_uniqueId h
    | text _ _ _ h => exact terse_text h
    | _ => exact terse_data
  | privateMatch h =>
    cases h with
    | mutators h => exact terse_text h
    | gameName _ _ h => exact terse_text h
    | password _ _ _ h => exact terse_text h
    | _ => exact terse_data
  | repStatTitle h =>
    cases h with
    | name h => exact terse_text h
    | _ => exact terse_data
  | loadoutOnline => exact terse_data
  | loadoutsOnline => exact terse_data

/-! ## the failure of a frame -/

theorem short_frame (f : Fmt) {K : Nat} {m : String} (h : len (t m) ≤ 24 := by decide +kernel) :
    len (frameError f (.notEnoughDataFor m)) ≤ 200 + K := by
  unfold frameError
  lits
  omega

theorem ids_len (f : Fmt) (K : Nat) (a o s : I32) :
    len (frameError f (.objectIdOutOfRange o)) ≤ 200 + K ∧
    len (frameError f (.missingActor a)) ≤ 200 + K ∧
    len (frameError f (.missingCache a o)) ≤ 200 + K ∧
    len (frameError f (.missingAttribute a o s)) ≤ 200 + K := by
  have := i32_len a
  have := i32_len o
  have := i32_len s
  have : len (dashes 10) = 10 := by decide +kernel
  refine ⟨?_, ?_, ?_, ?_⟩ <;> simp only [frameError, line] <;> lits <;> omega

theorem value_len (f : Fmt) (K : Nat) (a o s : I32) {e : AttributeError} (h : Terse e) :
    len (frameError f (.attributeError a o s e)) ≤ 200 + K := by
  have := i32_len a
  have := i32_len o
  have := i32_len s
  simp only [frameError]
  lits
  omega

theorem propsFail_len (f : Fmt) (K : Nat) {d : Ctx} {A : AttrRel} {c : ClassDef} {id : ActorId}
    {obj : ObjectId} {us : List UpdatedAttribute} {e : FrameError} {i : Bits}
    (h : PropsFail A (AttrFails d) c id obj us e i) : len (frameError f e) ≤ 200 + K := by
  induction h with
  | flag => exact short_frame f
  | streamId => exact short_frame f
  | undeclared => exact (ids_len f K _ _ _).2.2.2
  | unimplemented => exact (ids_len f K _ _ _).2.2.2
  | value _ _ h => exact value_len f K _ _ _ (terse_attr h)
  | next _ _ _ _ ih => exact ih

theorem eventFail_len (f : Fmt) (K : Nat) {d : Ctx} {n : Net} {A : AttrRel} {known : Known}
    {us : List UpdatedAttribute} {e : FrameError} {i : Bits}
    (h : EventFail n A (AttrFails d) known us e i) : len (frameError f e) ≤ 200 + K := by
  cases h with
  | actor => exact short_frame f
  | isNew => exact short_frame f
  | announce _ h =>
    cases h with
    | object => exact (ids_len f K 0 _ 0).1
    | _ => exact short_frame f
  | classless => exact (ids_len f K _ _ 0).2.2.1
  | unknown => exact (ids_len f K _ 0 0).2.1
  | props _ _ _ h => exact propsFail_len f K h

theorem eventsFail_len (f : Fmt) (K : Nat) {d : Ctx} {n : Net} {A : AttrRel} {known : Known}
    {es : List Event} {us : List UpdatedAttribute} {e : FrameError} {i : Bits}
    (h : EventsFail n A (AttrFails d) known es us e i) : len (frameError f e) ≤ 200 + K := by
  induction h with
  | flag => exact short_frame f
  | event h => exact eventFail_len f K h
  | next _ _ _ ih => exact ih

theorem frameFail_len {f : Fmt} {K : Nat} (hf : BriefText f K) {d : Ctx} {n : Net} {A : AttrRel}
    {known : Known} {es : List Event} {us : List UpdatedAttribute} {e : FrameError} {i : Bits}
    (h : FrameFail n A (AttrFails d) known es us e i) : len (frameError f e) ≤ 200 + K := by
  cases h with
  | time => exact short_frame f
  | @timeRange x _ _ =>
    have := hf.f32 x
    simp only [frameError]
    lits
    unfold len
    omega
  | delta => exact short_frame f
  | @deltaRange _ x _ _ _ =>
    have := hf.f32 x
    simp only [frameError]
    lits
    unfold len
    omega
  | records _ _ _ h => exact eventsFail_len f K h

/-! ## names -/

theorem sizes_mem {α : Type} (g : α → Nat) {x : α} {l : List α} (h : x ∈ l) : g x ≤ sizes g l := by
  obtain ⟨a, b, rfl⟩ := List.append_of_mem h
  simp only [sizes, List.map_append, List.map_cons, List.sum_append, List.sum_cons]
  omega

theorem sizes_sub {α : Type} (g : α → Nat) {l m : List α} (hl : l.Nodup) (h : ∀ x ∈ l, x ∈ m) :
    sizes g l ≤ sizes g m := by
  induction l generalizing m with
  | nil => exact Nat.zero_le _
  | cons a l ih =>
    obtain ⟨p, q, rfl⟩ := List.append_of_mem (h a (by simp))
    rw [List.nodup_cons] at hl
    have := ih (m := p ++ q) hl.2 (by
      intro x hx
      have := h x (by simp [hx])
      rw [List.mem_append, List.mem_cons] at this
      rw [List.mem_append]
      rcases this with h | rfl | h
      · exact .inl h
      · exact absurd hx hl.1
      · exact .inr h)
    simp only [sizes, List.map_append, List.map_cons, List.sum_append, List.sum_cons] at this ⊢
    omega

theorem listing_nodup {P : Str → Prop} {l : List Str} (h : Listing P l) : l.Nodup :=
  h.sorted.imp fun {a b} hlt he => by
    subst he
    exact List.lt_irrefl a hlt

theorem commas_cons (s : Str) (l : List Str) :
    len (commas (s :: l)) ≤ len s + 2 + len (commas l) := by
  cases l with
  | nil => simp [commas, List.intercalate, len_nil]
  | cons a l =>
    simp only [commas, List.intercalate, List.intersperse_cons_cons, List.flatten_cons, len_append]
    have : len ", ".toList = 2 := by decide +kernel
    omega

theorem commas_len (l : List Str) : len (commas l) ≤ 2 * sizes textSize l := by
  induction l with
  | nil => exact Nat.zero_le _
  | cons s l ih =>
    have := commas_cons s l
    simp only [sizes, List.map_cons, List.sum_cons, textSize] at ih ⊢
    unfold len at *
    omega

theorem commas_paren_len (l : List Str) :
    len (commas (l.map fun m => "(".toList ++ m ++ ")".toList)) ≤ 4 * sizes textSize l := by
  induction l with
  | nil => exact Nat.zero_le _
  | cons s l ih =>
    have := commas_cons ("(".toList ++ s ++ ")".toList) (l.map fun m => "(".toList ++ m ++ ")".toList)
    have h1 : len ("(".toList ++ s ++ ")".toList) = len s + 2 := by lits; omega
    rw [h1] at this
    simp only [sizes, List.map_cons, List.sum_cons, textSize] at ih ⊢
    unfold len at *
    omega

theorem candidates_len {body : ReplayBody} {s : StreamId} {cs : Str} (h : Candidates body s cs) :
    len cs ≤ 120 + 6 * sizes textSize body.objects := by
  obtain ⟨h1, h2⟩ := h
  rename_i all unknown
  have e1 := commas_len unknown
  have e2 := commas_paren_len all
  have hm : ∀ m, Declares body s m → m ∈ body.objects := by
    rintro m ⟨_, _, _, _, _, _, h⟩
    exact List.mem_of_getElem? h
  have e3 := sizes_sub textSize (listing_nodup h1) (m := body.objects)
    (fun x hx => hm x ((h1.mem x).1 hx))
  have e4 := sizes_sub textSize (listing_nodup h2) (m := body.objects)
    (fun x hx => hm x ((h2.mem x).1 hx).1)
  lits
  omega

theorem name_len {objects : List Str} {k : Nat} {m : Str} (h : objects[k]? = some m) :
    len m ≤ sizes textSize objects := by
  have := sizes_mem textSize (List.mem_of_getElem? h)
  rw [textSize] at this
  unfold len
  omega

theorem reason_len {f : Fmt} {K : Nat} (hf : BriefText f K) {body : ReplayBody} {e : FrameError}
    {r : Str} (h : Reason f.tag body e r) : len r ≤ 200 + K + 7 * sizes textSize body.objects := by
  cases h with
  | classless h1 => have := name_len h1; lits; omega
  | @undeclared _ _ s _ _ _ h1 _ _ h2 =>
    have := name_len h1
    have := candidates_len h2
    have := dec_len s
    lits
    omega
  | unimplemented _ _ h1 => have := name_len h1; lits; omega
  | @value _ _ _ tag _ _ _ _ _ h1 _ _ _ h2 =>
    have := name_len h1
    have := candidates_len h2
    have h3 : len (f.tag tag) ≤ K := hf.tag tag
    lits
    omega
  | _ => exact Nat.zero_le _

/-! ## the activity before a failure -/

theorem entry_len (s : String) (v : Str) : len (entry s v) = len s.toList + len v + 1 := by
  unfold entry
  rw [len_append, len_append, show len ['\n'] = 1 by decide]

theorem nameIn_len (objects : List Str) (o : ObjectId) :
    len (nameIn objects o) ≤ sizes textSize objects := by
  unfold nameIn
  cases h : objects[o.toNat]? with
  | none => exact Nat.zero_le _
  | some m => exact name_len h

/-- The entries of the value shown. -/
def valueSize : Activity → Nat
  | .update u _ => attrSize u.attr
  | .announce _ => 0

theorem activity_len {f : Fmt} {K : Nat} (hf : BriefText f K) (objects : List Str) (a : Activity) :
    len (a.text f objects) ≤ 300 + 2 * K + 2 * sizes textSize objects + K * valueSize a := by
  cases a with
  | update u object =>
    have h1 := dec_len u.actorId
    have h2 := dec_len u.streamId
    have h3 := dec_len u.objectId
    have h4 := nameIn_len objects u.objectId
    have h5 : len (f.attr u.attr) ≤ K * attrSize u.attr := hf.attr u.attr
    simp only [Activity.text, valueSize]
    cases object with
    | none =>
      simp only [len_append, entry_len]
      lits
      omega
    | some o =>
      have h6 := dec_len o
      have h7 := nameIn_len objects o
      simp only [len_append, entry_len]
      lits
      omega
  | announce a =>
    have h1 := dec_len a.actorId
    have h3 := dec_len a.objectId
    have h4 := nameIn_len objects a.objectId
    have h5 : len (f.location a.initialTrajectory.location) ≤ K := hf.location _
    have h6 : len (f.rotation a.initialTrajectory.rotation) ≤ K := hf.rotation _
    simp only [Activity.text, valueSize]
    cases hn : a.nameId with
    | none =>
      simp only [len_append, entry_len]
      lits
      omega
    | some x =>
      have h7 := dec_len x
      simp only [len_append, entry_len]
      lits
      omega

theorem valueSize_le {owner : List Event → ActorId → Option ObjectId} {before es : List Event}
    {a : Activity} (h : LastActivity owner before es a) :
    valueSize a ≤ sizes (fun u => attrSize u.attr) (updates es) := by
  cases h with
  | @update es1 id us u es2 h _ =>
    subst h
    refine sizes_mem (fun u : UpdatedAttribute => attrSize u.attr) ?_
    simp [updates_append, updates]
  | announce => exact Nat.zero_le _

/-! ## the values of the frames -/

theorem framesAt_size {d : Ctx} {n : Net} {known k : Known} {fs : List Frame}
    {ess : List (List Event)} {i o : Bits} (h : FramesAt n (AttrAccepts d) known fs ess k i o) :
    fs.length + o.length ≤ i.length ∧ ess.length ≤ i.length ∧
      ∀ es ∈ ess, sizes (fun u => attrSize u.attr) (updates es) ≤ i.length := by
  induction h with
  | nil => simp
  | cons hf _ ih =>
    obtain ⟨_, _, _, _, _, _, j, rfl, hj⟩ := hf
    have := events_size hj
    obtain ⟨i1, i2, i3⟩ := ih
    simp only [List.length_append, field_length, List.length_cons]
    refine ⟨by omega, by omega, ?_⟩
    intro es hes
    rcases List.mem_cons.1 hes with rfl | hes
    · omega
    · have := i3 es hes; omega

theorem propsFail_size {d : Ctx} {c : ClassDef} {id : ActorId} {obj : ObjectId}
    {us : List UpdatedAttribute} {e : FrameError} {i : Bits}
    (h : PropsFail (AttrAccepts d) (AttrFails d) c id obj us e i) :
    sizes (fun u => attrSize u.attr) us ≤ i.length := by
  induction h with
  | next hs _ ha _ ih =>
    obtain ⟨_, _, _, rfl⟩ := hs
    have := accepts_size ha
    unfold sizes at ih ⊢
    simp only [List.map_cons, List.sum_cons, List.length_cons, List.length_append]
    omega
  | _ => exact Nat.zero_le _

theorem eventsFail_size {d : Ctx} {n : Net} {known : Known} {es : List Event}
    {us : List UpdatedAttribute} {e : FrameError} {i : Bits}
    (h : EventsFail n (AttrAccepts d) (AttrFails d) known es us e i) :
    sizes (fun u => attrSize u.attr) (updates es ++ us) ≤ i.length := by
  induction h with
  | flag => exact Nat.zero_le _
  | event h =>
    cases h with
    | props h1 _ _ h =>
      have := propsFail_size h
      obtain ⟨_, _, rfl⟩ := h1
      simp only [updates, List.nil_append, List.length_cons, List.length_append]
      omega
    | _ => exact Nat.zero_le _
  | next _ he _ ih =>
    cases he with
    | new _ hn _ =>
      obtain ⟨_, _, _, _, _, _, _, rfl⟩ := hn
      simp only [updates, List.length_cons, List.length_append] at ih ⊢
      omega
    | delete _ =>
      simp only [updates, List.length_cons, List.length_append] at ih ⊢
      omega
    | update _ _ _ hp =>
      have := props_size hp
      rw [sizes_append] at ih
      simp only [updates, List.length_cons, List.length_append, sizes_append] at ih ⊢
      omega

theorem frameFail_size {d : Ctx} {n : Net} {known : Known} {es : List Event}
    {us : List UpdatedAttribute} {e : FrameError} {i : Bits}
    (h : FrameFail n (AttrAccepts d) (AttrFails d) known es us e i) :
    sizes (fun u => attrSize u.attr) (updates (recordsRead es us)) ≤ i.length := by
  rw [updates_recordsRead]
  cases h with
  | records _ _ _ h =>
    have := eventsFail_size h
    simp only [List.length_append]
    omega
  | _ => exact Nat.zero_le _

theorem activityText_len {f : Fmt} {K B : Nat} (hf : BriefText f K) {objects : List Str}
    {owner : List Event → ActorId → Option ObjectId} {fs : List Frame} {ess : List (List Event)}
    {es : List Event} {txt : Str} (h : ActivityText f objects owner fs ess es txt)
    (hl : ess.length < 10 ^ 19)
    (h1 : sizes (fun u => attrSize u.attr) (updates es) ≤ B)
    (h2 : ∀ q ∈ ess, sizes (fun u => attrSize u.attr) (updates q) ≤ B) :
    len txt ≤ 500 + 4 * K + 2 * sizes textSize objects + K * B := by
  cases h with
  | @current a h3 _ =>
    have := activity_len hf objects a
    have := Nat.mul_le_mul_left K (Nat.le_trans (valueSize_le h3) h1)
    omega
  | @retrace pre esi post g a _ he _ _ h3 _ =>
    have := activity_len hf objects a
    have := Nat.mul_le_mul_left K (Nat.le_trans (valueSize_le h3) (h2 esi (by simp [he])))
    have e1 : len (f.f32 g.time) ≤ K := hf.f32 _
    have e2 : len (f.f32 g.delta) ≤ K := hf.f32 _
    have e3 : len (decimal (pre.length : Int)) ≤ 20 := decimal_len (k := 19) (by decide) (by
      rw [he] at hl
      simp only [List.length_append] at hl
      omega)
    simp only [len_append, entry_len]
    lits
    omega
  | none =>
    simp only [entry_len]
    lits
    omega

theorem position_len {f : Fmt} {K : Nat} (hf : BriefText f K) {fs : List Frame}
    (hl : fs.length < 10 ^ 19) : len (positionText f fs) ≤ 100 + 2 * K := by
  have e3 : len (decimal (fs.length : Int)) ≤ 20 := decimal_len (k := 19) (by decide) (by omega)
  have e : ∀ x, len (f.f32 x) ≤ K := hf.f32
  unfold positionText
  cases fs.getLast? with
  | none =>
    have := e 0
    simp only [entry_len]
    lits
    omega
  | some g =>
    have := e g.time
    have := e g.delta
    simp only [entry_len]
    lits
    omega

end Boxcars.MessageSize
