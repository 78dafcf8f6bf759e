import Verif.Proofs.History
/-!
# The value at which a frame fails, and values that are cut off
-/
namespace Boxcars
open Spec

/-! ### Where the value is -/

/-- What follows a value is the end of what it was read from. -/
def Ends (A : AttrRel) : Prop := ∀ tag v i o, A tag v i o → o <:+ i

theorem ends_accepts (c : Ctx) : Ends (AttrAccepts c) := by
  intro tag v i o h
  obtain ⟨ad, hp, rfl⟩ := ctx_surj c
  exact (decode_spec (N := i.length) ad hp tag).suffix (Nat.le_refl _) h

theorem suffix_cons' {α : Type} {a b : List α} (x : α) (h : a <:+ b) : a <:+ x :: b :=
  h.trans (List.suffix_cons _ _)

theorem suffix_append' {α : Type} {a b : List α} (p : List α) (h : a <:+ b) : a <:+ p ++ b :=
  h.trans (List.suffix_append _ _)

theorem propsRel_ends {A : AttrRel} (hA : Ends A) {c : ClassDef} {id : ActorId}
    {us : List UpdatedAttribute} {i o : Bits} (h : PropsRel A c id us i o) : o <:+ i := by
  induction h with
  | done => exact List.suffix_cons _ _
  | prop _ _ h1 _ ih => exact suffix_cons' _ (suffix_append' _ (ih.trans (hA _ _ _ _ h1)))

theorem eventRel_ends {A : AttrRel} (hA : Ends A) {n : Net} {kn : Known} {e : Event}
    {i o : Bits} (h : EventRel n A kn e i o) : o <:+ i := by
  cases h with
  | new _ h2 =>
    obtain ⟨nm, b, _, t, _, _, _, rfl⟩ := h2
    exact suffix_append' _ (suffix_cons' _ (suffix_cons' _ (suffix_append' _ (suffix_append' _
      (suffix_append' _ (List.suffix_append _ _))))))
  | delete => exact suffix_append' _ (List.suffix_cons _ _)
  | update _ _ _ h => exact suffix_append' _ (suffix_cons' _ (suffix_cons' _ (propsRel_ends hA h)))

theorem eventsRel_ends {A : AttrRel} (hA : Ends A) {n : Net} {kn : Known} {es : List Event}
    {i o : Bits} (h : EventsRel n A kn es i o) : o <:+ i := by
  induction h with
  | done => exact List.suffix_cons _ _
  | event h1 _ ih => exact suffix_cons' _ (ih.trans (eventRel_ends hA h1))

theorem framesAt_ends {A : AttrRel} (hA : Ends A) {n : Net} {kn k : Known} {fs : List Frame}
    {ess : List (List Event)} {i o : Bits} (h : FramesAt n A kn fs ess k i o) : o <:+ i := by
  induction h with
  | nil => exact List.suffix_refl _
  | cons h1 _ ih =>
    obtain ⟨_, _, _, _, _, _, j, rfl, h⟩ := h1
    exact ih.trans (suffix_append' _ (suffix_append' _ (eventsRel_ends hA h)))

/-- The updates of an actor fail at a value. -/
theorem props_value {A : AttrRel} (hA : Ends A) {X : AttrFail} {cd : ClassDef} {id : ActorId}
    {obj : ObjectId} {us : List UpdatedAttribute} {x : FrameError} {i : Bits}
    (h : PropsFail A X cd id obj us x i) :
    ∀ {id' obj' s e}, x = .attributeError id' obj' s e → obj' = obj ∧
      e ≠ .unimplemented ∧ ∃ tag ob j, cd.attr s = some (tag, ob) ∧ j <:+ i ∧ X tag e j := by
  induction h with
  | flag => intro _ _ _ _ h; cases h
  | streamId => intro _ _ _ _ h; cases h
  | undeclared => intro _ _ _ _ h; cases h
  | unimplemented => intro _ _ _ _ h; cases h
  | value h1 h2 h3 h4 =>
    intro _ _ _ _ h
    cases h
    obtain ⟨_, _, _, rfl⟩ := h1
    exact ⟨rfl, h4, _, _, _, h2, suffix_cons' _ (List.suffix_append _ _), h3⟩
  | next h1 _ h3 _ ih =>
    intro _ _ _ _ h
    obtain ⟨g2, g3, tag', ob', l, g4, g5, g6⟩ := ih h
    obtain ⟨_, _, _, rfl⟩ := h1
    exact ⟨g2, g3, tag', ob', l, g4, suffix_cons' _ (suffix_append' _ (g5.trans (hA _ _ _ _ h3))), g6⟩

theorem events_value {A : AttrRel} (hA : Ends A) {X : AttrFail} {n : Net} {known : Known}
    {es : List Event} {us : List UpdatedAttribute} {x : FrameError} {i : Bits}
    (h : EventsFail n A X known es us x i) :
    ∀ {id obj s e}, x = .attributeError id obj s e → ∃ cd tag ob j, n.cls obj = some cd ∧
      cd.attr s = some (tag, ob) ∧ j <:+ i ∧ X tag e j ∧ e ≠ .unimplemented := by
  induction h with
  | flag => intro _ _ _ _ h; cases h
  | event h =>
    intro _ _ _ _ hx
    cases h with
    | actor => cases hx
    | isNew => cases hx
    | announce _ h => cases h <;> cases hx
    | classless => cases hx
    | unknown => cases hx
    | props h1 h2 h3 h4 =>
      obtain ⟨rfl, g3, tag, ob, j, g4, g5, g6⟩ := props_value hA h4 hx
      obtain ⟨_, _, rfl⟩ := h1
      exact ⟨_, tag, ob, j, h3, g4, suffix_cons' _ (suffix_append' _ (suffix_cons' _
        (suffix_cons' _ g5))), g6, g3⟩
  | next _ h2 _ ih =>
    intro _ _ _ _ hx
    obtain ⟨cd, tag, ob, j, g1, g2, g3, g4⟩ := ih hx
    exact ⟨cd, tag, ob, j, g1, g2, suffix_cons' _ (g3.trans (eventRel_ends hA h2)), g4⟩

theorem frame_value {A : AttrRel} (hA : Ends A) {X : AttrFail} {n : Net} {known : Known}
    {es : List Event} {us : List UpdatedAttribute} {id obj s e} {i : Bits}
    (h : FrameFail n A X known es us (.attributeError id obj s e) i) :
    ∃ cd tag ob j, n.cls obj = some cd ∧
      cd.attr s = some (tag, ob) ∧ j <:+ i ∧ X tag e j ∧ e ≠ .unimplemented := by
  generalize hx : FrameError.attributeError id obj s e = x at h
  cases h with
  | time => cases hx
  | timeRange => cases hx
  | delta => cases hx
  | deltaRange => cases hx
  | records _ _ _ h =>
    obtain ⟨cd, tag, ob, j, g1, g2, g3, g4⟩ := events_value hA h hx.symm
    exact ⟨cd, tag, ob, j, g1, g2, suffix_append' _ (suffix_append' _ g3), g4⟩

/-! ### Values that are cut off -/

/-- A value that is cut off is not accepted. -/
theorem cutOff_fails (c : Ctx) (tag : AttributeTag) (ht : tag ≠ .rigidBody) (i : Bits)
    (h : CutOff (AttrEnc c tag) i) : ∃ e, AttrFails c tag e i := by
  refine ((attrErrors c).total tag i).2 ?_
  rintro v o (⟨bs, h1, rfl⟩ | ⟨h, _⟩)
  · obtain ⟨v', b, hb, h2⟩ := h
    obtain ⟨ad, hp, rfl⟩ := ctx_surj c
    have hs := decode_enc (N := (bs ++ o ++ b).length) ad hp tag ht
    have g1 : ofB (AttrEnc ad.ctx tag) v (bs ++ o ++ b) (o ++ b) := ⟨bs, h1, by simp⟩
    have g2 : ofB (AttrEnc ad.ctx tag) v' (bs ++ o ++ b) [] := ⟨_, h2, by simp⟩
    have := (hs.func (Nat.le_refl _) g1 g2).2
    exact hb (List.append_eq_nil_iff.1 this).2
  · exact ht h

theorem text_extend {e : AttributeError} {i : Bits} (h : TextFail e i) (s : Byte) :
    e ≠ .unrecognizedRemoteId s := by
  cases h <;> intro h <;> cases h

theorem id_extend {net : I32} {s : Byte} {t : Byte} {i : Bits}
    (h : IdFail net s (.unrecognizedRemoteId t) i) (b : Bits) :
    IdFail net s (.unrecognizedRemoteId t) (i ++ b) := by
  cases h with
  | remote h =>
    cases h with
    | epic h => exact absurd rfl (text_extend h t)
    | unknown h => exact .remote (.unknown h)

theorem uniqueId_extend {net : I32} {t : Byte} {i : Bits}
    (h : UniqueIdFail net (.unrecognizedRemoteId t) i) (b : Bits) :
    UniqueIdFail net (.unrecognizedRemoteId t) (i ++ b) := by
  cases h with
  | id h => rw [List.append_assoc]; exact .id (id_extend h b)

/-- An unknown platform stays unknown with more data. -/
theorem unrecognized_extend {c : Ctx} {tag : AttributeTag} {t : Byte} {i : Bits}
    (h : AttrFails c tag (.unrecognizedRemoteId t) i) (b : Bits) :
    AttrFails c tag (.unrecognizedRemoteId t) (i ++ b) := by
  cases h with
  | string h => exact absurd rfl (text_extend h t)
  | qWordString _ h => exact absurd rfl (text_extend h t)
  | uniqueId h => exact .uniqueId (uniqueId_extend h b)
  | partyLeader h =>
    cases h with
    | id h1 h2 => rw [List.append_assoc]; exact .partyLeader (.id h1 (id_extend h2 b))
  | reservation h =>
    cases h with
    | id h1 h2 => rw [List.append_assoc]; exact .reservation (.id h1 (uniqueId_extend h2 b))
    | text _ _ _ h => exact absurd rfl (text_extend h t)
  | privateMatch h =>
    cases h with
    | mutators h => exact absurd rfl (text_extend h t)
    | gameName _ _ h => exact absurd rfl (text_extend h t)
    | password _ _ _ h => exact absurd rfl (text_extend h t)
  | repStatTitle h =>
    cases h with
    | name h => exact absurd rfl (text_extend h t)

end Boxcars
