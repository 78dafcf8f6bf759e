import Verif.Proofs.ValueOf
import Verif.Proofs.Utf8
/-!
# How long the representation of a value can be
-/
namespace Boxcars.Spec
open Boxcars

theorem vec_len {net : I32} {v : Vector3f} {bs : Bits} (h : Vec3f net v bs) : bs.length ≤ 74 := by
  obtain ⟨w, ⟨s, hs, _, _, _, rfl⟩, _⟩ := h
  have h1 := bounded_length_le (sizeClasses net) s
  have h2 : sizeClasses net = 22 ∨ sizeClasses net = 20 := by
    unfold sizeClasses; split <;> simp
  have h3 : (sizeClasses net).log2 = 4 := by rcases h2 with e | e <;> rw [e] <;> decide
  simp only [List.length_append, coord, bits_length]
  omega

theorem text_len {s : Str} {bs : Bits} (h : NetText s bs) : bs.length ≤ 8224 := by
  rcases h with ⟨_, rfl⟩ | ⟨body, last, h1, _, rfl⟩ | ⟨units, last, h1, _, rfl⟩
  · simp [field_length]
  · rw [List.length_append, field_length, BSpec.bytes_length, List.length_append, List.length_singleton]
    omega
  · have key : ∀ l : List (BitVec 16), (l.flatMap (fun u => le 2 u.toNat)).length = 2 * l.length := by
      intro l
      induction l with
      | nil => rfl
      | cons x l ih =>
        rw [List.flatMap_cons, List.length_append, ih, List.length_cons]
        have : (le 2 x.toNat).length = 2 := by simp [le]
        omega
    rw [List.length_append, field_length, BSpec.bytes_length, key, List.length_append,
      List.length_singleton]
    omega

theorem narrow_len {n w : Nat} {x : BitVec w} {bs : Bits} (h : Narrow n x bs) : bs.length = n := by
  rw [h.2, bits_length]

theorem when_len {α : Type} {c : Prop} {g : α → Bits → Prop} {v : Option α} {bs : Bits} {n : Nat}
    (hg : ∀ x b, g x b → b.length ≤ n) (h : When c g v bs) : bs.length ≤ n := by
  rcases h with ⟨_, x, _, h⟩ | ⟨_, _, rfl⟩
  · exact hg _ _ h
  · exact Nat.zero_le _

theorem word_len {c : Prop} {v : Option (BitVec 32)} {bs : Bits} (h : When c Word v bs) :
    bs.length ≤ 32 :=
  when_len (fun x b h => by rw [h, field_length]) h

theorem items_len {α : Type} {g : α → Bits → Prop} {n : Nat} (hg : ∀ x b, g x b → b.length ≤ n)
    {xs : List α} {bs : Bits} (h : Items g xs bs) : bs.length ≤ xs.length * n := by
  induction h with
  | nil => simp
  | cons h1 _ ih =>
    have := hg _ _ h1
    rw [List.length_append, List.length_cons, Nat.succ_mul]
    omega

theorem byteList_len {α : Type} {g : α → Bits → Prop} {n : Nat} (hg : ∀ x b, g x b → b.length ≤ n)
    {xs : List α} {bs : Bits} (h : ByteList g xs bs) : bs.length ≤ 255 * n + 8 := by
  obtain ⟨b, h1, h2, rfl⟩ := h
  have h3 := items_len hg h2
  have h4 : xs.length * n ≤ 255 * n := Nat.mul_le_mul_right _ (by omega)
  rw [List.length_append, field_length]
  omega

theorem product_len {d : Ctx} {v : Product} {bs : Bits} (h : ProductAttrEnc d v bs) :
    bs.length ≤ 8257 := by
  obtain ⟨p, h, rfl⟩ := h
  have : p.length ≤ 8224 := by
    generalize v.value = val at h
    cases h
    case title h => exact text_len h
    case oldPaint h => rw [h.2]; exact Nat.le_trans (bounded_length_le _ _) (by decide)
    case oldTeam h => rw [h.2]; exact Nat.le_trans (bounded_length_le _ _) (by decide)
    case newColor => rw [field_length]; decide
    case noColor => decide
    case absent => decide
    case oldColor h => rw [List.length_cons, narrow_len h]; decide
    all_goals (rename_i h; rw [narrow_len h]; decide)
  simp only [List.length_append, field_length, List.length_singleton]
  omega

theorem products_len {d : Ctx} {l : List (List Product)} {bs : Bits} (h : OnlineLoadoutEnc d l bs) :
    bs.length ≤ 536913473 :=
  byteList_len (fun _ _ h => byteList_len (fun _ _ h => product_len h) h) h

theorem uniqueId_len {net : I32} {v : UniqueId} {bs : Bits} (h : UniqueIdEnc net v bs) :
    bs.length ≤ 8240 := by
  obtain ⟨r, h, rfl⟩ := h
  have : r.length ≤ 8224 := by
    generalize v.systemId = sys, v.remoteId = rem at h
    cases h
    case splitScreen h => rw [narrow_len h]; decide
    case epic h => exact text_len h
    case playStation h1 _ h2 =>
      simp only [List.length_append, field_length, BSpec.bytes_length, h1, h2]
      split <;> decide
    case switch h => simp only [List.length_append, field_length, BSpec.bytes_length, h]; decide
    case psyNet h => simp only [List.length_append, field_length, BSpec.bytes_length, h]; split <;> decide
    all_goals (rw [field_length]; decide)
  simp only [List.length_append, field_length]
  omega

theorem utf8_len (s : Str) : s.length ≤ (utf8 s).length := by
  induction s with
  | nil => exact Nat.zero_le _
  | cons c s ih =>
    unfold utf8 at ih ⊢
    rw [List.flatMap_cons, List.length_append, List.length_cons]
    have : 1 ≤ (utf8Char c).length := utf8Char_ne_nil c
    omega

theorem loadout_len {v : Loadout} {bs : Bits} (h : LoadoutEnc v bs) : bs.length ≤ 520 := by
  obtain ⟨u2, ea, tr, ge, ba, pr, junk, h1, h2, h3, h4, h5, h6, h7, rfl⟩ := h
  have h1 := word_len h1
  have h2 := word_len h2
  have h3 := word_len h3
  have h4 := word_len h4
  have h5 := word_len h5
  have h6 := word_len h6
  have h7 : junk.length ≤ 96 := by rw [h7]; split <;> decide
  simp only [List.length_append, field_length]
  omega

theorem latin1_len {s : Str} {bs : Bits} (h : Latin1Name s bs) : bs.length ≤ 2048 := by
  obtain ⟨raw, _, rfl, h1, rfl⟩ := h
  have h2 : raw.length ≤ 255 := by
    by_cases hr : raw = []
    · rw [hr]; decide
    · have h3 := h1 (by rw [ne_eq, List.map_eq_nil_iff]; exact hr)
      have h4 := utf8_len (raw.map fun b => Char.ofNat b.toNat).dropLast
      rw [List.length_dropLast, List.length_map] at h4
      omega
  rw [List.length_append, BSpec.bytes_length]
  split
  · rw [field_length]; omega
  · rw [List.length_nil]; omega

theorem reservation_len {d : Ctx} {v : Reservation} {bs : Bits} (h : ReservationEnc d v bs) :
    bs.length ≤ 20000 := by
  obtain ⟨n, u, s, k, h1, h2, h3, h4, rfl⟩ := h
  have h1 := narrow_len h1
  have h2 := uniqueId_len h2
  have h4 := when_len (n := 6) (fun x b h => Nat.le_of_eq (narrow_len h)) h4
  have h3 : s.length ≤ 8224 := by
    rcases h3 with ⟨_, t, _, h⟩ | ⟨_, _, t, _, h⟩ | ⟨_, _, _, rfl⟩
    · exact text_len h
    · exact Nat.le_trans (latin1_len h) (by decide)
    · exact Nat.zero_le _
  simp only [List.length_append, List.length_singleton]
  omega

theorem opt_len {α : Type} {g : α → Bits} {n : Nat} (hg : ∀ x, (g x).length = n) (v : Option α) :
    (opt g v).length ≤ n + 1 := by
  cases v with
  | none => simp [opt]
  | some x => simp [opt, hg]

theorem rotation_len (v : Rotation) : (rotation v).length ≤ 27 := by
  have h1 := opt_len (field_length 8) v.yaw
  have h2 := opt_len (field_length 8) v.pitch
  have h3 := opt_len (field_length 8) v.roll
  unfold rotation
  simp only [List.length_append]
  omega

theorem rigidBody_len {d : Ctx} {v : RigidBody} {bs : Bits} (h : RigidBodyEnc d v bs) :
    bs.length ≤ 300 := by
  obtain ⟨l, r, a, b, h1, h2, h3, h4, rfl⟩ := h
  have h1 := vec_len h1
  have h3 := when_len (fun x b h => vec_len h) h3
  have h4 := when_len (fun x b h => vec_len h) h4
  have h2 : r.length ≤ 56 := by
    rcases h2 with ⟨_, _, _, _, _, _, _, _, rfl, _⟩ | ⟨_, _, _, _, _, _, _, rfl, _⟩ <;>
      simp only [List.length_append, bits_length] <;> decide
  simp only [List.length_append, List.length_singleton]
  omega

/-- No value takes more than some 134 million bytes. -/
theorem attr_len {d : Ctx} {tag : AttributeTag} {v : Attribute} {bs : Bits}
    (h : AttrEnc d tag v bs) : bs.length ≤ 1073826948 := by
  have act : ∀ a : ActiveActor, (activeActor a).length = 33 := fun a => by
    simp [activeActor, field_length]
  cases h
  case appliedDamage h =>
    obtain ⟨p, h, rfl⟩ := h; have := vec_len h; simp only [List.length_append, field_length]; omega
  case damageState h =>
    obtain ⟨p, h, rfl⟩ := h; have := vec_len h
    simp only [List.length_append, field_length, List.length_singleton]; omega
  case camSettings h =>
    obtain ⟨p, h, rfl⟩ := h; have := word_len h; simp only [List.length_append, field_length]; omega
  case demolish h =>
    obtain ⟨a, b, h1, h2, rfl⟩ := h; have := vec_len h1; have := vec_len h2
    simp only [List.length_append, field_length, List.length_singleton]; omega
  case demolishExtended h =>
    obtain ⟨a, b, h1, h2, rfl⟩ := h; have := vec_len h1; have := vec_len h2
    simp only [List.length_append, act, List.length_singleton]; omega
  case demolishFx h =>
    obtain ⟨a, b, h1, h2, rfl⟩ := h; have := vec_len h1; have := vec_len h2
    simp only [List.length_append, field_length, List.length_singleton]; omega
  case enum h => rw [narrow_len h]; decide
  case explosion h =>
    obtain ⟨p, h, rfl⟩ := h; have := vec_len h
    simp only [List.length_append, field_length, List.length_singleton]; omega
  case extendedExplosion h =>
    obtain ⟨e, ⟨p, h, rfl⟩, rfl⟩ := h; have := vec_len h
    simp only [List.length_append, field_length, List.length_singleton]; omega
  case gameMode h =>
    rcases h with ⟨_, _, rfl⟩ | ⟨_, _, _, rfl⟩ <;> rw [bits_length] <;> decide
  case loadout h => exact Nat.le_trans (loadout_len h) (by decide)
  case teamLoadout h =>
    obtain ⟨a, b, h1, h2, rfl⟩ := h; have := loadout_len h1; have := loadout_len h2
    rw [List.length_append]; omega
  case location h => exact Nat.le_trans (vec_len h) (by decide)
  case playerHistoryKey h => rw [narrow_len h]; decide
  case qWordString h => exact Nat.le_trans (text_len h) (by decide)
  case welded vv h =>
    obtain ⟨p, h, rfl⟩ := h; have := vec_len h; have := rotation_len vv.rotation
    simp only [List.length_append, field_length, List.length_singleton]; omega
  case rigidBody h => exact Nat.le_trans (rigidBody_len h) (by decide)
  case string h => exact Nat.le_trans (text_len h) (by decide)
  case uniqueId h => exact Nat.le_trans (uniqueId_len h) (by decide)
  case reservation h => exact Nat.le_trans (reservation_len h) (by decide)
  case partyLeader h =>
    rcases h with ⟨_, rfl⟩ | ⟨u, _, _, h⟩
    · rw [field_length]; decide
    · exact Nat.le_trans (uniqueId_len h) (by decide)
  case privateMatch h =>
    obtain ⟨a, b, c, h1, h2, h3, rfl⟩ := h
    have := text_len h1; have := text_len h2; have := text_len h3
    simp only [List.length_append, field_length, List.length_singleton]; omega
  case loadoutOnline h => exact Nat.le_trans (products_len h) (by decide)
  case loadoutsOnline h =>
    obtain ⟨a, b, h1, h2, rfl⟩ := h; have := products_len h1; have := products_len h2
    simp only [List.length_append, List.length_singleton]; omega
  case repStatTitle h =>
    obtain ⟨a, h, rfl⟩ := h; have := text_len h
    simp only [List.length_append, field_length, List.length_singleton]; omega
  case rotation v => exact Nat.le_trans (rotation_len v) (by decide)
  case pickup v =>
    have := opt_len (field_length 32) v.instigator
    simp only [pickup, List.length_append, List.length_singleton]; omega
  case pickupNew v =>
    have := opt_len (field_length 32) v.instigator
    simp only [pickupNew, List.length_append, field_length]; omega
  all_goals
    simp only [List.length_append, List.length_cons, List.length_nil, field_length, act, clubColors,
      musicStinger, teamPaint, statEvent, pickupInfo, impulse, replicatedBoost, logoData]
    try decide

end Boxcars.Spec
