import Verif.Spec.Unique
import Verif.Spec.Frames
import Verif.Proofs.BitLeaf
/-!
# C80: which values determine their bits
-/
namespace Boxcars.Props
open Boxcars Spec

theorem narrow_one {n w : Nat} {x : BitVec w} {b b' : Bits} (h : Narrow n x b) (h' : Narrow n x b') :
    b = b' := h.2.trans h'.2.symm

theorem when_one {α : Type} {c : Prop} {g : α → Bits → Prop} {v : Option α} {b b' : Bits}
    (hg : ∀ x b b', g x b → g x b' → b = b') (h : When c g v b) (h' : When c g v b') : b = b' := by
  rcases h with ⟨h1, x, h2, h3⟩ | ⟨h1, h2, h3⟩ <;> rcases h' with ⟨g1, y, g2, g3⟩ | ⟨g1, g2, g3⟩
  · rw [h2] at g2
    cases g2
    exact hg _ _ _ h3 g3
  · exact absurd h1 g1
  · exact absurd g1 h1
  · rw [h3, g3]

/-- C80. A value of such a type is written in one way. -/
theorem one_way {d : Ctx} {tag : AttributeTag} (ht : oneWay tag = true) {a : Attribute}
    {bs bs' : Bits} (h : AttrEnc d tag a bs) (h' : AttrEnc d tag a bs') : bs = bs' := by
  cases h <;> try cases ht
  all_goals cases h'; try rfl
  case camSettings.refl.camSettings h h' =>
    obtain ⟨t, h1, rfl⟩ := h
    obtain ⟨t', h1', rfl⟩ := h'
    rw [when_one (fun _ _ _ h h' => h.trans h'.symm) h1 h1']
  case enum.refl.enum h h' => exact narrow_one h h'
  case gameMode.refl.gameMode h h' =>
    rcases h with ⟨h1, -, h2⟩ | ⟨h1, -, -, h2⟩ <;> rcases h' with ⟨g1, -, g2⟩ | ⟨g1, -, -, g2⟩
    · rw [h2, g2]
    · exact absurd h1 g1
    · exact absurd g1 h1
    · rw [h2, g2]
  case playerHistoryKey.refl.playerHistoryKey h h' => exact narrow_one h h'

/-- C80 for the decoder: for such a type the value and what is left over determine what was
read. -/
theorem one_way_accepts {d : Ctx} {tag : AttributeTag} (ht : oneWay tag = true) {a : Attribute}
    {i i' o : Bits} (h : AttrAccepts d tag a i o) (h' : AttrAccepts d tag a i' o) : i = i' := by
  rcases h with ⟨bs, h1, rfl⟩ | ⟨rfl, -⟩
  · rcases h' with ⟨bs', h2, rfl⟩ | ⟨rfl, -⟩
    · rw [one_way ht h1 h2]
    · cases ht
  · cases ht

/-- C80 for the updates of an actor in a frame, if they are of such types. -/
theorem one_way_updates {d : Ctx} {c : ClassDef} {id : ActorId} {us : List UpdatedAttribute}
    (ht : ∀ u ∈ us, ∀ tag obj, c.attr u.streamId = some (tag, obj) → oneWay tag = true)
    {i i' o : Bits} (h : PropsRel (AttrAccepts d) c id us i o)
    (h' : PropsRel (AttrAccepts d) c id us i' o) : i = i' := by
  induction h generalizing i' with
  | done =>
    cases h' with
    | done => rfl
  | @prop s tag obj v us j k o _ h2 h3 _ ih =>
    cases h' with
    | prop _ g2 g3 g4 =>
      rw [h2] at g2
      cases g2
      have hk := ih (fun u hu => ht u (List.mem_cons_of_mem _ hu)) g4
      subst hk
      rw [one_way_accepts (ht _ List.mem_cons_self tag obj h2) h3 g3]

/-! ### The other types -/

/-- Version 868.20 with net version 10, ids of products, a recent build. -/
def waysCtx : Ctx where
  major := 868
  minor := 20
  net := 10
  color := 1
  painted := 2
  titleId := 3
  special := 4
  team := 5
  rl223 := true

/-- The vector of zeros. -/
def zeroVec : Vector3f := ⟨centi 0, centi 0, centi 0⟩

/-- The vector of zeros in size class `s`. -/
def zeroBits (s : Nat) : Bits := bounded 22 s ++ (coord s 0 ++ (coord s 0 ++ coord s 0))

theorem zeroVec_enc (s : Nat) (hs : s < 22) : Vec3f waysCtx.net zeroVec (zeroBits s) := by
  refine ⟨⟨0, 0, 0⟩, ⟨s, ?_, ?_, ?_, ?_, rfl⟩, rfl⟩
  · exact hs
  all_goals
    unfold InClass
    have : (0 : Int) < 2 ^ (s + 1) := Int.pow_pos (by decide)
    have e : BitVec.toInt (0 : I32) = 0 := rfl
    simp only [e]
    omega

/-- The empty text, without and with a terminator. -/
theorem noText_enc : NetText [] (field 32 0) := .inl ⟨rfl, rfl⟩
theorem noText_enc' : NetText [] (field 32 1 ++ bytes [0]) :=
  .inr (.inl ⟨[], 0, by decide, rfl, rfl⟩)

theorem oldLoadout_enc (junk : Bits) (hj : junk.length = 96) :
    LoadoutEnc ⟨22, 0, 0, 0, 0, 0, 0, 0, some 0, some 0, some 0, some 0, some 0, some 0⟩
      (field 8 22#8 ++ (field 32 0#32 ++ (field 32 0#32 ++ (field 32 0#32 ++
      (field 32 0#32 ++ (field 32 0#32 ++ (field 32 0#32 ++
      (field 32 0#32 ++ (field 32 0#32 ++ (field 32 0#32 ++ (field 32 0#32 ++ (field 32 0#32 ++
      (field 32 0#32 ++ (field 32 0#32 ++ junk)))))))))))))) :=
  ⟨_, _, _, _, _, _, junk, .inl ⟨by decide, _, rfl, rfl⟩, .inl ⟨by decide, _, rfl, rfl⟩,
    .inl ⟨by decide, _, rfl, rfl⟩, .inl ⟨by decide, _, rfl, rfl⟩, .inl ⟨by decide, _, rfl, rfl⟩,
    .inl ⟨by decide, _, rfl, rfl⟩, hj, rfl⟩

/-- Two ways to write a value. -/
def TwoWays (tag : AttributeTag) : Prop :=
  ∃ a bs bs', AttrEnc waysCtx tag a bs ∧ AttrEnc waysCtx tag a bs' ∧ bs ≠ bs'

/-- Two ways from a part that can be written in two ways. -/
theorem twoWays_of {α : Type} {tag : AttributeTag} {g : α → Bits → Prop} {v : α} {b b' : Bits}
    (h : g v b) (h' : g v b') (a : Attribute) (f : Bits → Bits)
    (hf : ∀ b, g v b → AttrEnc waysCtx tag a (f b)) (hne : f b ≠ f b') : TwoWays tag :=
  ⟨a, _, _, hf b h, hf b' h', hne⟩

theorem vec_twoWays {tag : AttributeTag} (a : Attribute) (f : Bits → Bits)
    (hf : ∀ b, Vec3f waysCtx.net zeroVec b → AttrEnc waysCtx tag a (f b))
    (hne : f (zeroBits 0) ≠ f (zeroBits 1)) : TwoWays tag :=
  twoWays_of (zeroVec_enc 0 (by decide)) (zeroVec_enc 1 (by decide)) a f hf hne

theorem text_twoWays {tag : AttributeTag} (a : Attribute) (f : Bits → Bits)
    (hf : ∀ b, NetText [] b → AttrEnc waysCtx tag a (f b))
    (hne : f (field 32 0) ≠ f (field 32 1 ++ bytes [0])) : TwoWays tag :=
  twoWays_of noText_enc noText_enc' a f hf hne

/-- A player id of a platform that has texts as ids. -/
theorem epic_enc {b : Bits} (h : NetText [] b) :
    UniqueIdEnc waysCtx.net ⟨11, .epic [], 0⟩ (field 8 11#8 ++ (b ++ field 8 0#8)) :=
  ⟨b, .epic h, rfl⟩

/-- A product with a title. -/
theorem titleProduct_enc {b : Bits} (h : NetText [] b) :
    OnlineLoadoutEnc waysCtx [[⟨false, 3, .title []⟩]]
      (field 8 1#8 ++ ((field 8 1#8 ++ (([false] ++ (field 32 3#32 ++ b)) ++ [])) ++ [])) :=
  ⟨_, by decide, .cons ⟨_, by decide, .cons ⟨b, .title (by decide) (by decide) rfl h, rfl⟩ .nil, rfl⟩ .nil,
    rfl⟩

theorem two_ways {tag : AttributeTag} (ht : oneWay tag = false) : TwoWays tag := by
  cases tag <;> try cases ht
  case appliedDamage =>
    exact vec_twoWays (.appliedDamage ⟨0, zeroVec, 0, 0⟩) _
      (fun b h => .appliedDamage ⟨b, h, rfl⟩) (by decide +kernel)
  case damageState =>
    exact vec_twoWays (.damageState ⟨0, false, 0, zeroVec, false, false⟩) _
      (fun b h => .damageState ⟨b, h, rfl⟩) (by decide +kernel)
  case demolish =>
    exact vec_twoWays (.demolish ⟨false, 0, false, 0, zeroVec, zeroVec⟩) _
      (fun b h => .demolish ⟨b, b, h, h, rfl⟩) (by decide +kernel)
  case demolishFx =>
    exact vec_twoWays (.demolishFx ⟨false, 0, false, 0, false, 0, zeroVec, zeroVec⟩) _
      (fun b h => .demolishFx ⟨b, b, h, h, rfl⟩) (by decide +kernel)
  case demolishExtended =>
    exact vec_twoWays (.demolishExtended ⟨⟨false, 0⟩, ⟨false, 0⟩, false, ⟨false, 0⟩, ⟨false, 0⟩,
      ⟨false, 0⟩, zeroVec, zeroVec⟩) _ (fun b h => .demolishExtended ⟨b, b, h, h, rfl⟩)
      (by decide +kernel)
  case explosion =>
    exact vec_twoWays (.explosion ⟨false, 0, zeroVec⟩) _
      (fun b h => .explosion ⟨b, h, rfl⟩) (by decide +kernel)
  case extendedExplosion =>
    exact vec_twoWays (.extendedExplosion ⟨⟨false, 0, zeroVec⟩, false, 0⟩) _
      (fun b h => .extendedExplosion ⟨_, ⟨b, h, rfl⟩, rfl⟩) (by decide +kernel)
  case loadout =>
    exact ⟨.loadout _, _, _, .loadout (oldLoadout_enc (List.replicate 96 true) (by decide)),
      .loadout (oldLoadout_enc (List.replicate 96 false) (by decide)), by decide +kernel⟩
  case teamLoadout =>
    exact ⟨.teamLoadout ⟨_, _⟩, _, _,
      .teamLoadout ⟨_, _, oldLoadout_enc (List.replicate 96 true) (by decide),
        oldLoadout_enc (List.replicate 96 true) (by decide), rfl⟩,
      .teamLoadout ⟨_, _, oldLoadout_enc (List.replicate 96 false) (by decide),
        oldLoadout_enc (List.replicate 96 true) (by decide), rfl⟩, by decide +kernel⟩
  case location =>
    exact vec_twoWays (.location zeroVec) _ (fun b h => .location h) (by decide +kernel)
  case qWordString =>
    exact text_twoWays (.string []) _ (fun b h => .qWordString rfl h) (by decide +kernel)
  case welded =>
    exact vec_twoWays (.welded ⟨false, 0, zeroVec, 0, ⟨none, none, none⟩⟩) _
      (fun b h => .welded ⟨b, h, rfl⟩) (by decide +kernel)
  case rigidBody =>
    exact vec_twoWays (.rigidBody ⟨true, zeroVec, ⟨quatComp 0, quatComp 0, quatComp 0,
        quatLargest (quatComp 0) (quatComp 0) (quatComp 0)⟩, none, none⟩)
      (fun b => [true] ++ (b ++ ((bits 2 3 ++ (bits 18 0 ++ (bits 18 0 ++ bits 18 0))) ++ ([] ++ []))))
      (fun b h => .rigidBody ⟨b, _, _, _, h, .inl ⟨by decide, 3, 0, 0, 0, by decide, by decide,
        by decide, rfl, .inr (.inr (.inr ⟨rfl, rfl⟩))⟩, .inr ⟨by decide, rfl, rfl⟩,
        .inr ⟨by decide, rfl, rfl⟩, rfl⟩) (by decide +kernel)
  case string =>
    exact text_twoWays (.string []) _ (fun b h => .string h) (by decide +kernel)
  case uniqueId =>
    exact text_twoWays (.uniqueId _) _ (fun b h => .uniqueId (epic_enc h)) (by decide +kernel)
  case reservation =>
    exact text_twoWays (.reservation ⟨0, ⟨11, .epic [], 0⟩, some [], false, false, some 0⟩)
      (fun b => bits 3 0 ++ ((field 8 11#8 ++ (b ++ field 8 0#8)) ++ (b ++ ([false] ++ ([false] ++
        bits 6 0)))))
      (fun b h => .reservation ⟨_, _, _, _, ⟨by decide, rfl⟩, epic_enc h,
        .inl ⟨by decide, _, rfl, h⟩, .inl ⟨by unfold Ctx.atLeast; decide, _, rfl, by decide, rfl⟩,
        rfl⟩) (by decide +kernel)
  case partyLeader =>
    exact text_twoWays (.partyLeader (some _)) _
      (fun b h => .partyLeader (.inr ⟨_, rfl, by decide, epic_enc h⟩)) (by decide +kernel)
  case privateMatchSettings =>
    exact text_twoWays (.privateMatch ⟨[], 0, 0, [], [], false⟩) _
      (fun b h => .privateMatch ⟨b, b, b, h, h, h, rfl⟩) (by decide +kernel)
  case loadoutOnline =>
    exact text_twoWays (.loadoutOnline _) _ (fun b h => .loadoutOnline (titleProduct_enc h))
      (by decide +kernel)
  case loadoutsOnline =>
    exact text_twoWays (.loadoutsOnline ⟨_, _, false, false⟩) _
      (fun b h => .loadoutsOnline ⟨_, _, titleProduct_enc h, titleProduct_enc h, rfl⟩)
      (by decide +kernel)
  case repStatTitle =>
    exact text_twoWays (.repStatTitle ⟨false, [], false, 0, 0⟩) _
      (fun b h => .repStatTitle ⟨b, h, rfl⟩) (by decide +kernel)

/-- C80. The types whose values determine their bits, in replays of all versions, are exactly
those of `oneWay`. -/
theorem one_way_iff (tag : AttributeTag) : oneWay tag = true ↔
    ∀ d a bs bs', AttrEnc d tag a bs → AttrEnc d tag a bs' → bs = bs' := by
  constructor
  · intro ht d a bs bs'
    exact one_way ht
  · intro h
    cases ht : oneWay tag with
    | true => rfl
    | false =>
      obtain ⟨a, bs, bs', h1, h2, h3⟩ := two_ways ht
      exact absurd (h _ _ _ _ h1 h2) h3

/-- One bit of every new actor is not kept: with the other value of the bit the same actor is
read. -/
theorem spare_bit {n : Net} {a : NewActor} {i o : Bits} (h : NewRel n a i o) :
    ∃ i', i' ≠ i ∧ i'.length = i.length ∧ NewRel n a i' o := by
  obtain ⟨nm, b, sp, t, h1, h2, h3, rfl⟩ := h
  refine ⟨nm ++ ([!b] ++ (field 32 a.objectId ++ (t ++ o))), ?_, by simp, nm, !b, sp, t, h1, h2,
    h3, rfl⟩
  intro h
  have := List.append_cancel_left h
  simp only [List.cons_append, List.nil_append, List.cons.injEq] at this
  cases b <;> cases this.1

/-- Camera settings, which are written in one way, and a location, which is written in
twenty-two. -/
example : AttrEnc waysCtx .camSettings (.camSettings ⟨0x42c80000, 0, 0, 0, 0, 0, some 0⟩)
      (field 32 0x42c80000#32 ++ (field 32 0#32 ++ (field 32 0#32 ++ (field 32 0#32 ++
        (field 32 0#32 ++ (field 32 0#32 ++ field 32 0#32)))))) ∧
    ∀ s < 22, AttrEnc waysCtx .location (.location zeroVec) (zeroBits s) :=
  ⟨.camSettings ⟨_, .inl ⟨by unfold Ctx.atLeast; decide, _, rfl, rfl⟩, rfl⟩,
    fun s hs => .location (zeroVec_enc s hs)⟩

end Boxcars.Props
