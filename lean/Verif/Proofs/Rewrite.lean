import Verif.Proofs.Encode
import Verif.Proofs.Size
/-!
# What the grammar accepts can be encoded

Every value that has a representation in the file format satisfies the conditions of the
encoder, and its encoding is at most a quarter longer: only an empty string or text
written as a zero count gets longer, from four bytes to five.
-/
namespace Boxcars
open Spec

theorem encStr_length (s : Str) : (encStr s).length = (utf8 s).length + 5 := by
  unfold encStr
  simp only [List.length_append, word_length, List.length_cons, List.length_nil]
  omega

theorem strField_back {s : Str} {bs : Bytes} (h : StrField s bs) :
    StrOk s ∧ 4 * (encStr s).length ≤ 5 * bs.length := by
  rw [encStr_length]
  rcases h with ⟨rfl, rfl⟩ | ⟨last, h, rfl⟩
  · rw [word_length]; exact ⟨by unfold StrOk; simp [utf8], by simp [utf8]⟩
  · refine ⟨h, ?_⟩
    simp only [List.length_append, word_length, List.length_cons, List.length_nil]
    omega

theorem isCp1252_mapM {s : Str} {body : Bytes} (h : IsCp1252 s body) :
    s.mapM cp1252 = some body := by
  unfold IsCp1252 at h
  induction s generalizing body with
  | nil => cases body with
    | nil => rfl
    | cons b body => simp at h
  | cons c s ih =>
    cases body with
    | nil => simp at h
    | cons b body =>
      simp only [List.map_cons, List.cons.injEq] at h
      rw [List.mapM_cons, h.1, ih h.2]
      rfl

theorem utf16Char_pos (c : Char) : 1 ≤ (utf16Char c).length := by
  unfold utf16Char; split <;> simp

theorem utf16_ge (s : Str) : s.length ≤ (utf16 s).length := by
  induction s with
  | nil => simp [utf16]
  | cons c s ih =>
    have := utf16Char_pos c
    unfold utf16 at ih ⊢
    rw [List.flatMap_cons, List.length_append, List.length_cons]
    omega

theorem replaced_length {us : List (BitVec 16)} {s : Str} (h : Utf16Replaced us s) :
    (utf16 s).length ≤ us.length := by
  have e : (utf16Char '�').length = 1 := by decide +kernel
  unfold utf16
  induction h with
  | nil => simp
  | char c _ ih => rw [List.flatMap_cons, List.length_append, List.length_append]; omega
  | high _ _ _ ih => rw [List.flatMap_cons, List.length_append, List.length_cons, e]; omega
  | low _ _ ih => rw [List.flatMap_cons, List.length_append, List.length_cons, e]; omega

theorem textField_back {s : Str} {bs : Bytes} (h : TextField s bs) :
    TextOk s ∧ 4 * (encText s).length ≤ 5 * bs.length := by
  rcases h with ⟨rfl, rfl⟩ | ⟨body, last, hl, h, rfl⟩ | ⟨us, last, hl, h, rfl⟩
  · rw [word_length]; exact ⟨by simp [TextOk], by simp [encText]⟩
  · unfold TextOk encText
    have := isCp1252_length h
    rw [isCp1252_mapM h]
    simp only [List.length_append, word_length, List.length_cons, List.length_nil]
    omega
  · have h1 := replaced_length h
    have h2 := utf16_ge s
    unfold TextOk encText
    cases hm : s.mapM cp1252 with
    | some body =>
      have h3 := isCp1252_length (mapM_cp1252 hm)
      simp only [List.length_append, word_length, List.length_cons, List.length_nil, le2_length]
      omega
    | none =>
      simp only [List.length_append, word_length, List.length_cons, List.length_nil, le2_length]
      omega

theorem concat_back {α : Type} {g : α → Bytes → Prop} {ok : α → Prop} {enc : α → Bytes}
    (hg : ∀ x b, g x b → ok x ∧ 4 * (enc x).length ≤ 5 * b.length) {xs : List α} {bs : Bytes}
    (h : Concat g xs bs) : (∀ x ∈ xs, ok x) ∧ 4 * (xs.flatMap enc).length ≤ 5 * bs.length := by
  induction h with
  | nil => exact ⟨fun x hx => absurd hx List.not_mem_nil, by rw [List.flatMap_nil]; simp⟩
  | cons h1 _ ih =>
    have := hg _ _ h1
    refine ⟨fun x hx => ?_, ?_⟩
    · rcases List.mem_cons.1 hx with rfl | hx
      · exact this.1
      · exact ih.1 x hx
    · rw [List.flatMap_cons, List.length_append, List.length_append]
      omega

theorem listField_back {α : Type} {g : α → Bytes → Prop} {ok : α → Prop} {enc : α → Bytes}
    (hg : ∀ x b, g x b → ok x ∧ 4 * (enc x).length ≤ 5 * b.length) {xs : List α} {bs : Bytes}
    (h : ListField g xs bs) : ListOk ok xs ∧ 4 * (encList enc xs).length ≤ 5 * bs.length := by
  obtain ⟨body, hl, hc, rfl⟩ := h
  have := concat_back hg hc
  refine ⟨⟨hl, this.1⟩, ?_⟩
  unfold encList
  simp only [List.length_append, word_length]
  omega

theorem propVal_kind {q : Bool} {kind : Str} {v : HeaderProp} {bs : Bytes}
    (h : PropVal q kind v bs) : kind = propKind v := by
  cases h <;> rfl

theorem propList_back {q : Bool} {ps : List (Str × HeaderProp)} {bs : Bytes}
    (h : PropList q ps bs) : PropsOk q ps ∧ 4 * (encProps q ps).length ≤ 5 * bs.length := by
  refine PropList.rec
    (motive_1 := fun ps bs _ => PropsOk q ps ∧ 4 * (encProps q ps).length ≤ 5 * bs.length)
    (motive_2 := fun _ v bs _ => ValOk q v ∧ 4 * (encVal q v).length ≤ 5 * bs.length)
    (motive_3 := fun xs bs _ => ElemsOk q xs ∧ 4 * (encElems q xs).length ≤ 5 * bs.length)
    ?_ ?_ ?_ ?_ ?_ ?_ ?_ ?_ ?_ ?_ ?_ ?_ ?_ ?_ ?_ ?_ h
  · intro bs h
    unfold PropsOk encProps
    exact ⟨trivial, (strField_back h).2⟩
  · intro key kind v rest b1 b2 sz b3 b4 hk h1 h2 hs hv _ ih1 ih2
    have e := propVal_kind hv
    subst e
    have h1' := strField_back h1
    have h2' := strField_back h2
    unfold PropsOk encProps PropOk encProp
    refine ⟨⟨⟨hk, h1'.1, ih1.1⟩, ih2.1⟩, ?_⟩
    simp only [List.length_append, word_length]
    omega
  · intro key rest b1 b2 sz b3 x b4 _ _ _ _ _ _ _ ih
    refine ⟨ih.1, ?_⟩
    simp only [List.length_append]
    omega
  · intro b hq
    subst hq
    unfold ValOk encVal
    exact ⟨trivial, by simp⟩
  · intro b b1 b2 b3 hq
    subst hq
    unfold ValOk encVal
    exact ⟨trivial, by simp⟩
  · intro k v b1 b2 hq hk h1 h2
    have h1' := strField_back h1
    have h2' := strField_back h2
    unfold ValOk encVal
    refine ⟨⟨hq, hk, h1'.1, h2'.1⟩, ?_⟩
    rw [List.length_append, List.length_append]
    omega
  · intro k b hq h
    have h' := textField_back h
    unfold ValOk encVal
    exact ⟨⟨hq, h'.1⟩, h'.2⟩
  · intro xs body hl _ ih
    unfold ValOk encVal
    refine ⟨⟨hl, ih.1⟩, ?_⟩
    simp only [List.length_append, word_length]
    omega
  · intro x; unfold ValOk encVal; exact ⟨trivial, by omega⟩
  · intro x; unfold ValOk encVal; exact ⟨trivial, by omega⟩
  · intro x; unfold ValOk encVal; exact ⟨trivial, by omega⟩
  · intro s b h; unfold ValOk encVal; exact textField_back h
  · intro s b h; unfold ValOk encVal; exact textField_back h
  · intro n fs b1 b2 h1 _ ih
    have h1' := strField_back h1
    unfold ValOk encVal
    refine ⟨⟨h1'.1, ih.1⟩, ?_⟩
    rw [List.length_append, List.length_append]
    omega
  · unfold ElemsOk encElems; exact ⟨trivial, by simp⟩
  · intro x xs b bs _ _ ih1 ih2
    unfold ElemsOk encElems
    refine ⟨⟨ih1.1, ih2.1⟩, ?_⟩
    rw [List.length_append, List.length_append]
    omega

theorem headerSec_back {h : Header} {bs : Bytes} (hs : HeaderSec h bs) :
    HeaderOk h ∧ 4 * (encHeader h).length ≤ 5 * bs.length := by
  obtain ⟨b1, b2, b3, hn, ht, hp, rfl⟩ := hs
  have ht' := textField_back ht
  have hp' := propList_back hp
  have hv : (h.netVersion.isSome ↔ 865 < h.majorVersion.toInt ∧ 17 < h.minorVersion.toInt) ∧
      ((h.netVersion.map word).getD []).length = b1.length := by
    unfold NetVersionField at hn
    by_cases hc : 865 < h.majorVersion.toInt ∧ 17 < h.minorVersion.toInt
    · rw [if_pos hc] at hn
      obtain ⟨n, e, rfl⟩ := hn
      rw [e]
      exact ⟨⟨fun _ => hc, fun _ => rfl⟩, rfl⟩
    · rw [if_neg hc] at hn
      rw [hn.1, hn.2]
      exact ⟨⟨fun h => by simp at h, fun h => absurd h hc⟩, rfl⟩
  refine ⟨⟨hv.1, ht'.1, hp'.1⟩, ?_⟩
  unfold encHeader isQuirks
  simp only [List.length_append, word_length, hv.2]
  omega

theorem bodySec_back {b : ReplayBody} {bs : Bytes} (h : BodySec b bs) :
    BodyOk b ∧ 4 * (encBody b).length ≤ 5 * bs.length := by
  obtain ⟨b1, b2, b3, b4, b5, b6, b7, b8, b9, h1, h2, hl, h3, h4, h5, h6, h7, h8, h9, rfl⟩ := h
  have h1 := listField_back (ok := TextOk) (enc := encText) (fun _ _ h => textField_back h) h1
  have h2 := listField_back (ok := fun _ => True)
    (enc := fun k : KeyFrame => word k.time ++ (word k.frame ++ word k.position))
    (fun k b h => ⟨trivial, by rw [h]; omega⟩) h2
  have h3 := listField_back (ok := fun i : DebugInfo => TextOk i.user ∧ TextOk i.text)
    (enc := fun i => word i.frame ++ (encText i.user ++ encText i.text))
    (fun i b h => by
      obtain ⟨c1, c2, h1, h2, rfl⟩ := h
      have h1 := textField_back h1
      have h2 := textField_back h2
      refine ⟨⟨h1.1, h2.1⟩, ?_⟩
      simp only [List.length_append, word_length]
      omega) h3
  have h4 := listField_back (ok := fun t : TickMark => TextOk t.description)
    (enc := fun t => encText t.description ++ word t.frame)
    (fun i b h => by
      obtain ⟨c1, h1, rfl⟩ := h
      have h1 := textField_back h1
      refine ⟨h1.1, ?_⟩
      simp only [List.length_append, word_length]
      omega) h4
  have h5 := listField_back (ok := TextOk) (enc := encText) (fun _ _ h => textField_back h) h5
  have h6 := listField_back (ok := TextOk) (enc := encText) (fun _ _ h => textField_back h) h6
  have h7 := listField_back (ok := TextOk) (enc := encText) (fun _ _ h => textField_back h) h7
  have h8 := listField_back (ok := fun c : ClassIndex => StrOk c.cls)
    (enc := fun c => encStr c.cls ++ word c.index)
    (fun i b h => by
      obtain ⟨c1, h1, rfl⟩ := h
      have h1 := strField_back h1
      refine ⟨h1.1, ?_⟩
      simp only [List.length_append, word_length]
      omega) h8
  have h9 := listField_back
    (ok := fun c : ClassNetCache => ListOk (fun _ => True) c.properties)
    (enc := fun c => word c.objectInd ++ (word c.parentId ++ (word c.cacheId ++
      encList (fun p => word p.objectInd ++ word p.streamId) c.properties)))
    (fun i b h => by
      obtain ⟨c1, h1, rfl⟩ := h
      have h1 := listField_back (ok := fun _ => True)
        (enc := fun p : CacheProp => word p.objectInd ++ word p.streamId)
        (fun k b h => ⟨trivial, by rw [h]; omega⟩) h1
      refine ⟨h1.1, ?_⟩
      simp only [List.length_append, word_length]
      omega) h9
  refine ⟨⟨h1.1, h2.1, hl, h3.1, h4.1, h5.1, h6.1, h7.1, h8.1, h9.1⟩, ?_⟩
  unfold encBody
  simp only [List.length_append, word_length] at h1 h2 h3 h4 h5 h6 h7 h8 h9 ⊢
  omega

theorem fileSecs_back {c : Bool} {x : Sections} {data rest : Bytes} (h : FileSecs c x data rest) :
    HeaderOk x.header ∧ BodyOk x.body ∧
      4 * (encFile x.header x.body).length + 5 * rest.length ≤ 5 * data.length := by
  obtain ⟨bh, bb, h1, h2, rfl, _⟩ := h
  have h1 := headerSec_back h1
  have h2 := bodySec_back h2
  refine ⟨h1.1, h2.1, ?_⟩
  unfold encFile encSection
  simp only [List.length_append, word_length]
  omega

end Boxcars
