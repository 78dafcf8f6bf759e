import Verif.Spec.Possible
import Verif.Proofs.AttrLength
/-!
# How many bits suffice for a value
-/
namespace Boxcars.Spec
open Boxcars

theorem products_cost {d : Ctx} {l : List (List Product)} {bs : Bits} (h : OnlineLoadoutEnc d l bs) :
    bs.length ≤ productsCost l := by
  obtain ⟨b, hb, h, rfl⟩ := h
  clear hb
  rw [List.length_append, field_length]
  unfold productsCost
  refine Nat.add_le_add_left ?_ 8
  induction h with
  | nil => exact Nat.zero_le _
  | cons h1 _ ih =>
    obtain ⟨b', _, h1, rfl⟩ := h1
    have := items_len (fun _ _ h => product_len h) h1
    simp only [List.length_append, field_length, List.map_cons, List.sum_cons]
    omega

theorem attr_cost {d : Ctx} {tag : AttributeTag} {v : Attribute} {bs : Bits}
    (h : AttrEnc d tag v bs) : bs.length ≤ valueCost v := by
  have act : ∀ a : ActiveActor, (activeActor a).length = 33 := fun a => by
    simp [activeActor, field_length]
  cases h <;> simp only [valueCost]
  case appliedDamage h =>
    obtain ⟨p, h, rfl⟩ := h; have := vec_len h; simp only [List.length_append, field_length]; omega
  case damageState h =>
    obtain ⟨p, h, rfl⟩ := h; have := vec_len h
    simp only [List.length_append, field_length, List.length_singleton]; omega
  case camSettings h =>
    obtain ⟨p, h, rfl⟩ := h; have := word_len h; simp only [List.length_append, field_length]; omega
  case demolish h =>
    obtain ⟨a, b, h1, h2, rfl⟩ := h; have := vec_len h1; have := vec_len h2
    simp only [List.length_append, field_length, List.length_singleton]; omega
  case demolishExtended h =>
    obtain ⟨a, b, h1, h2, rfl⟩ := h; have := vec_len h1; have := vec_len h2
    simp only [List.length_append, act, List.length_singleton]; omega
  case demolishFx h =>
    obtain ⟨a, b, h1, h2, rfl⟩ := h; have := vec_len h1; have := vec_len h2
    simp only [List.length_append, field_length, List.length_singleton]; omega
  case enum h => rw [narrow_len h]; decide
  case explosion h =>
    obtain ⟨p, h, rfl⟩ := h; have := vec_len h
    simp only [List.length_append, field_length, List.length_singleton]; omega
  case extendedExplosion h =>
    obtain ⟨e, ⟨p, h, rfl⟩, rfl⟩ := h; have := vec_len h
    simp only [List.length_append, field_length, List.length_singleton]; omega
  case gameMode h =>
    rcases h with ⟨_, _, rfl⟩ | ⟨_, _, _, rfl⟩ <;> rw [bits_length] <;> decide
  case loadout h => exact Nat.le_trans (loadout_len h) (by decide)
  case teamLoadout h =>
    obtain ⟨a, b, h1, h2, rfl⟩ := h; have := loadout_len h1; have := loadout_len h2
    rw [List.length_append]; omega
  case location h => exact Nat.le_trans (vec_len h) (by decide)
  case playerHistoryKey h => rw [narrow_len h]; decide
  case qWordString h => exact Nat.le_trans (text_len h) (by decide)
  case welded vv h =>
    obtain ⟨p, h, rfl⟩ := h; have := vec_len h; have := rotation_len vv.rotation
    simp only [List.length_append, field_length, List.length_singleton]; omega
  case rigidBody h => exact Nat.le_trans (rigidBody_len h) (by decide)
  case string h => exact Nat.le_trans (text_len h) (by decide)
  case uniqueId h => exact Nat.le_trans (uniqueId_len h) (by decide)
  case reservation h => exact Nat.le_trans (reservation_len h) (by decide)
  case partyLeader h =>
    rcases h with ⟨_, rfl⟩ | ⟨u, _, _, h⟩
    · rw [field_length]; decide
    · exact Nat.le_trans (uniqueId_len h) (by decide)
  case privateMatch h =>
    obtain ⟨a, b, c, h1, h2, h3, rfl⟩ := h
    have := text_len h1; have := text_len h2; have := text_len h3
    simp only [List.length_append, field_length, List.length_singleton]; omega
  case loadoutOnline h => exact products_cost h
  case loadoutsOnline h =>
    obtain ⟨a, b, h1, h2, rfl⟩ := h; have := products_cost h1; have := products_cost h2
    simp only [List.length_append, List.length_singleton]; omega
  case repStatTitle h =>
    obtain ⟨a, h, rfl⟩ := h; have := text_len h
    simp only [List.length_append, field_length, List.length_singleton]; omega
  case rotation v => exact Nat.le_trans (rotation_len v) (by decide)
  case pickup v =>
    have := opt_len (field_length 32) v.instigator
    simp only [pickup, List.length_append, List.length_singleton]; omega
  case pickupNew v =>
    have := opt_len (field_length 32) v.instigator
    simp only [pickupNew, List.length_append, field_length]; omega
  all_goals
    simp only [List.length_append, List.length_cons, List.length_nil, field_length, act, clubColors,
      musicStinger, teamPaint, statEvent, pickupInfo, impulse, replicatedBoost, logoData]
    try decide

end Boxcars.Spec
