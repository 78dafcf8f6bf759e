import Verif.Proofs.AttrTable
import Verif.Props.Frames
/-!
# C75: the table of attributes
-/
namespace Boxcars.Props
open Boxcars Spec

/-- What holds for each class that has attributes. -/
def ownerFits (s : String) : Bool :=
  !s.toList.contains ':' && normalizeObject s.toList == s.toList && walkOk 11 s &&
    meets ["Engine.Actor"] (walk 11 s) && (parentClasses.lookup s).isSome

set_option maxRecDepth 100000 in
theorem owners_fit : attrOwners.all ownerFits = true := by decide +kernel

set_option maxRecDepth 100000 in
theorem parts_owner : attrParts.all (fun a => attrOwners.contains a.1 && decide (a.2.1 < 282) &&
    a.2.2 != .notImplemented) = true := by decide +kernel

/-- What holds for two attributes. -/
def partsFit (a b : String × Nat × AttributeTag) : Bool :=
  !Nat.beq a.2.1 b.2.1 ||
    (a.2.2 == b.2.2 && !(walk 11 a.1).contains b.1 && !(walk 11 b.1).contains a.1)

/-- A check of all pairs of elements of a list. -/
def allPairs {α : Type} (r : α → α → Bool) : List α → Bool
  | [] => true
  | a :: l => l.all (r a) && allPairs r l

set_option maxRecDepth 100000 in
theorem parts_fit : allPairs partsFit attrParts = true := by decide +kernel

theorem allPairs_of {α : Type} {r : α → α → Bool} (hs : ∀ a b, r a b = true → r b a = true) :
    ∀ {l : List α}, allPairs r l = true → ∀ {a b}, a ∈ l → b ∈ l → a = b ∨ r a b = true := by
  intro l
  induction l with
  | nil => intro _ _ _ h; cases h
  | cons x l ih =>
    intro h a b ha hb
    rw [allPairs, Bool.and_eq_true, List.all_eq_true] at h
    rcases List.mem_cons.1 ha with rfl | ha'
    · rcases List.mem_cons.1 hb with rfl | hb'
      · exact .inl rfl
      · exact .inr (h.1 b hb')
    · rcases List.mem_cons.1 hb with rfl | hb'
      · exact .inr (hs _ _ (h.1 a ha'))
      · exact ih h.2 ha' hb'

theorem partsFit_iff (a b : String × Nat × AttributeTag) : partsFit a b = true ↔
    (a.2.1 = b.2.1 → a.2.2 = b.2.2 ∧ b.1 ∉ walk 11 a.1 ∧ a.1 ∉ walk 11 b.1) := by
  unfold partsFit
  rw [Bool.or_eq_true, Bool.not_eq_true', Bool.and_eq_true, Bool.and_eq_true, Bool.not_eq_true',
    Bool.not_eq_true', beq_iff_eq, List.contains_eq_mem, List.contains_eq_mem, decide_eq_false_iff_not,
    decide_eq_false_iff_not]
  have : a.2.1.beq b.2.1 = false ↔ a.2.1 ≠ b.2.1 := by
    rw [← Bool.not_eq_true, Nat.beq_eq]
  rw [this, and_assoc]
  exact ⟨fun h e => h.resolve_left (fun g => g e), fun h =>
    (Classical.em (a.2.1 = b.2.1)).elim (fun e => .inr (h e)) .inl⟩

theorem attr_split {a b x y : Str} (ha : ':' ∉ a) (hb : ':' ∉ b)
    (h : a ++ ':' :: x = b ++ ':' :: y) : a = b ∧ x = y := by
  induction a generalizing b with
  | nil =>
    cases b with
    | nil => exact ⟨rfl, (List.cons.inj h).2⟩
    | cons c b => exact absurd (List.mem_cons.2 (.inl (List.cons.inj h).1)) hb
  | cons c a ih =>
    cases b with
    | nil => exact absurd (List.mem_cons.2 (.inl (List.cons.inj h).1.symm)) ha
    | cons d b =>
      obtain ⟨rfl, g⟩ := List.cons.inj h
      have k := ih (fun m => ha (List.mem_cons_of_mem _ m))
        (fun m => hb (List.mem_cons_of_mem _ m)) g
      exact ⟨by rw [k.1], k.2⟩

/-- The entry of an attribute. -/
theorem part_of {n : Str} {t : AttributeTag} (h : attributeTag n = some t) :
    ∃ a ∈ attrParts, n = a.1.toList ++ ':' :: (propName a.2.1).toList ∧ a.2.2 = t ∧
      a.2.1 < 282 ∧ ownerFits a.1 = true ∧ t ≠ .notImplemented := by
  have hm := lookup_mem h
  rw [attributesTable_eq] at hm
  obtain ⟨a, ha, e⟩ := List.mem_map.1 hm
  rw [Prod.mk.injEq] at e
  obtain ⟨e1, e2⟩ := e
  have ho := List.all_eq_true.1 parts_owner a ha
  rw [Bool.and_eq_true, Bool.and_eq_true] at ho
  refine ⟨a, ha, ?_, e2, of_decide_eq_true ho.1.2, ?_, ?_⟩
  · have := congrArg String.toList e1
    rw [String.toList_ofList, String.toList_append, String.toList_append] at this
    rw [← this, List.append_assoc]
    rfl
  · exact List.all_eq_true.1 owners_fit _ (by simpa using ho.1.1)
  · rw [← e2]
    simpa using ho.2

theorem ownerFits_iff {s : String} (h : ownerFits s = true) : ':' ∉ s.toList ∧
    normalizeObject s.toList = s.toList ∧ walkOk 11 s = true ∧
    meets ["Engine.Actor"] (walk 11 s) = true ∧ parentOf s.toList ≠ none := by
  unfold ownerFits at h
  rw [Bool.and_eq_true, Bool.and_eq_true, Bool.and_eq_true, Bool.and_eq_true] at h
  obtain ⟨⟨⟨⟨h1, h2⟩, h3⟩, h4⟩, h5⟩ := h
  have h2 := eq_of_beq h2
  refine ⟨by simpa using h1, h2, h3, h4, ?_⟩
  unfold parentOf parentClass
  rw [h2, String.ofList_toList]
  intro e
  rw [Option.map_eq_none_iff] at e
  rw [e] at h5
  cases h5

/-- C75. Each attribute belongs to a class of actors. -/
theorem attribute_owner {n : Str} {t : AttributeTag} (h : attributeTag n = some t) :
    ∃ cls prop, n = cls ++ ':' :: prop ∧ AttributeOf cls prop t ∧ parentOf cls ≠ none ∧
      Descends cls "Engine.Actor".toList := by
  obtain ⟨a, ha, rfl, _, _, hf, _⟩ := part_of h
  obtain ⟨h1, h2, h3, h4, h5⟩ := ownerFits_iff hf
  refine ⟨_, _, rfl, ⟨h1, h⟩, h5, ?_⟩
  obtain ⟨m, hm, hd⟩ := (meets_iff h2 h3 _).1 h4
  rw [List.mem_singleton.1 hm] at hd
  exact hd

theorem parts_of_two {c c' p : Str} {t t' : AttributeTag} (h : AttributeOf c p t)
    (h' : AttributeOf c' p t') : ∃ a b : String × Nat × AttributeTag, c = a.1.toList ∧ c' = b.1.toList ∧
      t = a.2.2 ∧ t' = b.2.2 ∧ ownerFits a.1 = true ∧
      (a = b ∨ (t = t' ∧ b.1 ∉ walk 11 a.1)) := by
  obtain ⟨a, ha, e, g1, g2, g3, _⟩ := part_of h.2
  obtain ⟨b, hb, e', g1', g2', g3', _⟩ := part_of h'.2
  obtain ⟨rfl, rfl⟩ := attr_split h.1 (ownerFits_iff g3).1 e
  obtain ⟨rfl, hp⟩ := attr_split h'.1 (ownerFits_iff g3').1 e'
  refine ⟨a, b, rfl, rfl, g1.symm, g1'.symm, g3, ?_⟩
  rcases allPairs_of (fun x y h => (partsFit_iff y x).2 fun e =>
    let ⟨i, j, k⟩ := (partsFit_iff x y).1 h e.symm; ⟨i.symm, k, j⟩) parts_fit ha hb with g | g
  · exact .inl g
  · have := (partsFit_iff a b).1 g (propName_inj g2 g2' (String.toList_inj.1 hp))
    exact .inr ⟨by rw [← g1, ← g1']; exact this.1, this.2.1⟩

/-- C75. Attributes of the same name are of the same type, whatever the class. -/
theorem attribute_type {c c' p : Str} {t t' : AttributeTag} (h : AttributeOf c p t)
    (h' : AttributeOf c' p t') : t = t' := by
  obtain ⟨a, b, _, _, rfl, rfl, _, rfl | h⟩ := parts_of_two h h'
  · rfl
  · exact h.1

/-- C75. No attribute is declared again in a class that inherits it. -/
theorem attribute_once {c c' p : Str} {t t' : AttributeTag} (h : AttributeOf c p t)
    (h' : AttributeOf c' p t') (hd : Descends c c') : c = c' := by
  obtain ⟨a, b, rfl, rfl, _, _, hf, rfl | h⟩ := parts_of_two h h'
  · rfl
  · obtain ⟨_, h2, h3, _⟩ := ownerFits_iff hf
    obtain ⟨s, hs, e⟩ := (walk_descends h2 h3 _).1 hd
    rw [String.toList_inj.1 e] at h
    exact absurd hs h.2

/-- All types. -/
def allTags : List AttributeTag :=
  [.boolean, .byte, .appliedDamage, .damageState, .camSettings, .clubColors, .demolish, .demolishFx,
   .demolishExtended, .enum, .explosion, .extendedExplosion, .flaggedByte, .activeActor, .float,
   .gameMode, .int, .int64, .loadout, .teamLoadout, .location, .musicStinger, .pickup, .pickupNew,
   .playerHistoryKey, .qWordString, .welded, .rigidBody, .title, .teamPaint, .string, .uniqueId,
   .reservation, .partyLeader, .privateMatchSettings, .loadoutOnline, .loadoutsOnline, .statEvent,
   .rotationTag, .repStatTitle, .pickupInfo, .impulse, .replicatedBoost, .logoData]

/-- The first attribute of a type has this type. -/
def hasTag (t : AttributeTag) : Bool :=
  match attributesTable.find? (fun p => p.2 == t) with
  | some p => attributesTable.lookup p.1 == some t
  | none => false

set_option maxRecDepth 100000 in
theorem all_tags : allTags.all hasTag = true := by decide +kernel

/-- C75. There is an attribute of each type, apart from the one for unknown attributes. -/
theorem attribute_types (t : AttributeTag) : (∃ n, attributeTag n = some t) ↔ t ≠ .notImplemented := by
  constructor
  · rintro ⟨n, h⟩
    obtain ⟨_, _, _, _, _, _, h⟩ := part_of h
    exact h
  · intro h
    have hm : t ∈ allTags := by cases t <;> first | exact absurd rfl h | decide
    have := List.all_eq_true.1 all_tags t hm
    unfold hasTag at this
    cases hf : attributesTable.find? (fun p => p.2 == t) with
    | none => rw [hf] at this; cases this
    | some p =>
      rw [hf] at this
      refine ⟨p.1.toList, ?_⟩
      unfold attributeTag
      rw [String.ofList_toList]
      exact eq_of_beq this

/-- C75 for replays. Updates of attributes that have the same name after the class have values of
the same type, in one replay or in two. -/
theorem update_same_type {env env' : Env} {data data' : List Byte} {check check' : CrcCheck}
    {np np' : NetworkParse} {r r' : Replay} {fs fs' : List Frame} (hs : data.length ≤ env.isizeMax)
    (hs' : data'.length ≤ env'.isizeMax) (h : parseWith check np env data = .ok r)
    (h' : parseWith check' np' env' data' = .ok r') (hf : r.networkFrames = some ⟨fs⟩)
    (hf' : r'.networkFrames = some ⟨fs'⟩) {f f' : Frame} (hm : f ∈ fs) (hm' : f' ∈ fs')
    {u u' : UpdatedAttribute} (hu : u ∈ f.updatedActors) (hu' : u' ∈ f'.updatedActors)
    {c c' p : Str} (hc : ':' ∉ c) (hc' : ':' ∉ c')
    (hn : r.objects[u.objectId.toNat]? = some (c ++ ':' :: p))
    (hn' : r'.objects[u'.objectId.toNat]? = some (c' ++ ':' :: p)) :
    ∃ tag, HasType tag u.attr ∧ HasType tag u'.attr := by
  obtain ⟨n, t, e1, e2, e3⟩ := update_type hs h hf f hm u hu
  obtain ⟨n', t', e1', e2', e3'⟩ := update_type hs' h' hf' f' hm' u' hu'
  rw [hn] at e1
  rw [hn'] at e1'
  cases e1
  cases e1'
  cases attribute_type ⟨hc, e2⟩ ⟨hc', e2'⟩
  exact ⟨t, e3, e3'⟩

/-- The score of a player and the score of a team. -/
example : AttributeOf "Engine.PlayerReplicationInfo".toList "Score".toList .int ∧
    AttributeOf "Engine.TeamInfo".toList "Score".toList .int ∧
    Descends "TAGame.PRI_TA".toList "Engine.PlayerReplicationInfo".toList ∧
    attributeTag "TAGame.PRI_TA:Score".toList = none := by
  refine ⟨by unfold AttributeOf; decide +kernel, by unfold AttributeOf; decide +kernel,
    .step (p := "ProjectX.PRI_X".toList) (by decide +kernel) (.step (by decide +kernel) .refl),
    by decide +kernel⟩

end Boxcars.Props
