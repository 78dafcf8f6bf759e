import Verif.Spec.Values
import Verif.Proofs.Rewrite
import Verif.Proofs.Encode
/-!
# Values that can be written
-/
namespace Boxcars.Spec
open Boxcars

theorem vec_iff (net : I32) (v : Vector3f) : (∃ bs, Vec3f net v bs) ↔ Hundredths net v := by
  unfold Vec3f Vec3i Hundredths
  constructor
  · rintro ⟨bs, w, ⟨s, hs, hx, hy, hz, _⟩, rfl⟩
    have key : ∀ x, InClass s x → Coord net x := by
      intro x hx
      unfold InClass at hx
      unfold sizeClasses at hs
      unfold Coord
      have : (2 : Int) ^ (s + 1) ≤ 2 ^ (if 7 ≤ net.toInt then 22 else 20) := by
        have := Nat.pow_le_pow_right (n := 2) (by decide) hs
        split at this <;> split <;> first | exact_mod_cast this | contradiction
      exact ⟨by omega, by omega⟩
    exact ⟨w.x, w.y, w.z, key _ hx, key _ hy, key _ hz, rfl⟩
  · rintro ⟨x, y, z, hx, hy, hz, rfl⟩
    have key : ∀ x, Coord net x → InClass (sizeClasses net - 1) x := by
      intro x hx
      unfold Coord at hx
      unfold InClass sizeClasses
      split at hx <;> rename_i h
      · rw [if_pos h]; exact hx
      · rw [if_neg h]; exact hx
    refine ⟨_, ⟨x, y, z⟩, ⟨sizeClasses net - 1, ?_, key _ hx, key _ hy, key _ hz, rfl⟩, rfl⟩
    unfold sizeClasses
    split <;> decide

theorem cp1252_all {s : Str} (h : ∀ c ∈ s, (cp1252 c).isSome = true) :
    ∃ body : List Byte, IsCp1252 s body ∧ body.length = s.length := by
  induction s with
  | nil => exact ⟨[], rfl, rfl⟩
  | cons c s ih =>
    obtain ⟨b, hb⟩ := Option.isSome_iff_exists.1 (h c (.head _))
    obtain ⟨body, h1, h2⟩ := ih fun c hc => h c (.tail _ hc)
    refine ⟨b :: body, ?_, by rw [List.length_cons, List.length_cons, h2]⟩
    unfold IsCp1252 at h1 ⊢
    rw [List.map_cons, List.map_cons, hb, h1]

theorem all_cp1252 {s : Str} {body : List Byte} (h : IsCp1252 s body) :
    ∀ c ∈ s, ∃ b ∈ body, cp1252 c = some b := by
  intro c hc
  have : cp1252 c ∈ body.map some := by
    rw [← (show s.map cp1252 = body.map some from h)]
    exact List.mem_map_of_mem hc
  obtain ⟨b, hb, e⟩ := List.mem_map.1 this
  exact ⟨b, hb, e.symm⟩

theorem text_iff (s : Str) : (∃ bs, NetText s bs) ↔ ShortText s := by
  unfold NetText ShortText
  constructor
  · rintro ⟨bs, ⟨rfl, _⟩ | ⟨body, last, hl, hb, _⟩ | ⟨us, last, hl, hu, _⟩⟩
    · exact .inl ⟨by decide, fun c hc => by cases hc⟩
    · refine .inl ⟨?_, fun c hc => ?_⟩
      · rw [isCp1252_length hb]; omega
      · obtain ⟨b, _, e⟩ := all_cp1252 hb c hc
        rw [e]; rfl
    · have := replaced_length hu
      exact .inr (by omega)
  · rintro (⟨hl, hc⟩ | hu)
    · obtain ⟨body, h1, h2⟩ := cp1252_all hc
      exact ⟨_, .inr (.inl ⟨body, 0, by omega, h1, rfl⟩)⟩
    · exact ⟨_, .inr (.inr ⟨utf16 s, 0, by omega, utf16Replaced_utf16 s, rfl⟩)⟩

theorem narrow_iff (n : Nat) {w : Nat} (x : BitVec w) : (∃ bs, Narrow n x bs) ↔ x.toNat < 2 ^ n :=
  ⟨fun ⟨_, h, _⟩ => h, fun h => ⟨_, h, rfl⟩⟩

theorem word_iff (x : BitVec 32) : (∃ bs, Word x bs) ↔ True := ⟨fun _ => trivial, fun _ => ⟨_, rfl⟩⟩

theorem when_iff {α : Type} (c : Prop) (g : α → Bits → Prop) (v : Option α) :
    (∃ bs, When c g v bs) ↔ Since c v ∧ ∀ x, v = some x → ∃ bs, g x bs := by
  unfold When Since
  constructor
  · rintro ⟨bs, ⟨hc, x, rfl, hx⟩ | ⟨hc, rfl, _⟩⟩
    · refine ⟨⟨fun _ => hc, fun _ => rfl⟩, ?_⟩
      rintro y ⟨⟩
      exact ⟨bs, hx⟩
    · exact ⟨⟨fun h => (by cases h), fun h => absurd h hc⟩, fun x h => (by cases h)⟩
  · rintro ⟨h1, h2⟩
    cases v with
    | none => exact ⟨[], .inr ⟨fun h => (by cases h1.2 h), rfl, rfl⟩⟩
    | some x =>
      obtain ⟨bs, hb⟩ := h2 x rfl
      exact ⟨bs, .inl ⟨h1.1 rfl, x, rfl, hb⟩⟩

theorem whenWord_iff (c : Prop) (v : Option (BitVec 32)) : (∃ bs, When c Word v bs) ↔ Since c v := by
  rw [when_iff]
  exact ⟨fun h => h.1, fun h => ⟨h, fun x _ => ⟨_, rfl⟩⟩⟩

theorem items_iff {α : Type} (g : α → Bits → Prop) (xs : List α) :
    (∃ bs, Items g xs bs) ↔ ∀ x ∈ xs, ∃ bs, g x bs := by
  induction xs with
  | nil => exact ⟨fun _ x hx => (by cases hx), fun _ => ⟨[], .nil⟩⟩
  | cons x xs ih =>
    rw [List.forall_mem_cons, ← ih]
    constructor
    · rintro ⟨_, h⟩
      cases h with
      | cons h1 h2 => exact ⟨⟨_, h1⟩, ⟨_, h2⟩⟩
    · rintro ⟨⟨_, h1⟩, ⟨_, h2⟩⟩
      exact ⟨_, .cons h1 h2⟩

theorem byteList_iff {α : Type} (g : α → Bits → Prop) (xs : List α) :
    (∃ bs, ByteList g xs bs) ↔ xs.length ≤ 255 ∧ ∀ x ∈ xs, ∃ bs, g x bs := by
  rw [← items_iff]
  unfold ByteList
  constructor
  · rintro ⟨_, b, h1, h2, _⟩
    exact ⟨by omega, b, h2⟩
  · rintro ⟨h1, b, h2⟩
    exact ⟨_, b, by omega, h2, rfl⟩

theorem quat_iff (q : Quaternion) : (∃ bs, QuatEnc q bs) ↔ BodyRotation q := by
  unfold QuatEnc BodyRotation
  constructor
  · rintro ⟨bs, l, a, b, c, h1, h2, h3, _, h⟩
    refine ⟨a, b, c, h1, h2, h3, ?_⟩
    rcases h with h | h | h | h
    · exact .inl h.2
    · exact .inr (.inl h.2)
    · exact .inr (.inr (.inl h.2))
    · exact .inr (.inr (.inr h.2))
  · rintro ⟨a, b, c, h1, h2, h3, h⟩
    rcases h with h | h | h | h
    · exact ⟨_, 0, a, b, c, h1, h2, h3, rfl, .inl ⟨rfl, h⟩⟩
    · exact ⟨_, 1, a, b, c, h1, h2, h3, rfl, .inr (.inl ⟨rfl, h⟩)⟩
    · exact ⟨_, 2, a, b, c, h1, h2, h3, rfl, .inr (.inr (.inl ⟨rfl, h⟩))⟩
    · exact ⟨_, 3, a, b, c, h1, h2, h3, rfl, .inr (.inr (.inr ⟨rfl, h⟩))⟩

theorem oldQuat_iff (q : Quaternion) : (∃ bs, OldQuatEnc q bs) ↔ OldRotation q := by
  unfold OldQuatEnc OldRotation
  constructor
  · rintro ⟨bs, a, b, c, h1, h2, h3, _, h⟩
    exact ⟨a, b, c, h1, h2, h3, h⟩
  · rintro ⟨a, b, c, h1, h2, h3, h⟩
    exact ⟨_, a, b, c, h1, h2, h3, rfl, h⟩

theorem rotation_iff (d : Ctx) (q : Quaternion) :
    (∃ r, (7 ≤ d.net.toInt ∧ QuatEnc q r) ∨ (d.net.toInt < 7 ∧ OldQuatEnc q r)) ↔
      if 7 ≤ d.net.toInt then BodyRotation q else OldRotation q := by
  rw [exists_or, exists_and_left, exists_and_left, quat_iff, oldQuat_iff]
  split
  · exact ⟨fun h => h.elim (·.2) fun h => (by omega), fun h => .inl ⟨by assumption, h⟩⟩
  · exact ⟨fun h => h.elim (fun h => (by omega)) (·.2), fun h => .inr ⟨by omega, h⟩⟩

theorem loadout_iff (v : Loadout) : (∃ bs, LoadoutEnc v bs) ↔ LoadoutOf v := by
  unfold LoadoutEnc LoadoutOf
  simp only [← whenWord_iff]
  constructor
  · rintro ⟨_, u, ea, tr, ge, ba, pr, junk, h1, h2, h3, h4, h5, h6, _, _⟩
    exact ⟨⟨_, h1⟩, ⟨_, h2⟩, ⟨_, h3⟩, ⟨_, h4⟩, ⟨_, h5⟩, ⟨_, h6⟩⟩
  · rintro ⟨⟨_, h1⟩, ⟨_, h2⟩, ⟨_, h3⟩, ⟨_, h4⟩, ⟨_, h5⟩, ⟨_, h6⟩⟩
    exact ⟨_, _, _, _, _, _, _, List.replicate _ false, h1, h2, h3, h4, h5, h6,
      List.length_replicate, rfl⟩

theorem zero_iff (c : Char) : cp1252 c = some 0 ↔ c = Char.ofNat 0 := by
  rw [cp1252_iff]
  have : cp1252Char 0 = Char.ofNat 0 := by decide
  rw [this]

theorem takeWhile_ne (l : List Byte) : (l.takeWhile (· != 0)).length ≤ l.length ∧
    ∀ b ∈ l.takeWhile (· != 0), b ≠ 0 := by
  induction l with
  | nil => exact ⟨by simp, by simp⟩
  | cons a l ih =>
    rw [List.takeWhile_cons]
    split
    · rename_i ha
      refine ⟨by rw [List.length_cons, List.length_cons]; omega, ?_⟩
      rintro b hb
      rcases List.mem_cons.1 hb with rfl | hb
      · simpa using ha
      · exact ih.2 b hb
    · exact ⟨by simp, by simp⟩

theorem remote_iff (net : I32) (s : Byte) (v : RemoteId) :
    (∃ bs, RemoteEnc net s v bs) ↔ RemoteOf net s v := by
  constructor
  · rintro ⟨bs, h⟩
    cases h with
    | splitScreen h => exact ⟨rfl, h.1⟩
    | steam => exact rfl
    | playStation x h1 h2 h3 =>
      have ht := takeWhile_ne ‹List Byte›
      refine ⟨rfl, ?_, fun c hc => ?_, h3⟩
      · rw [isCp1252_length h2]
        exact Nat.le_trans (takeWhile_ne _).1 (Nat.le_of_eq h1)
      · obtain ⟨b, hb, e⟩ := all_cp1252 h2 c hc
        refine ⟨?_, by rw [e]; rfl⟩
        rintro rfl
        rw [(zero_iff _).2 rfl] at e
        cases e
        exact (takeWhile_ne _).2 _ hb rfl
    | xbox => exact rfl
    | qq => exact rfl
    | switch _ h => exact ⟨rfl, h⟩
    | psyNet _ h => exact ⟨rfl, h⟩
    | epic h => exact ⟨rfl, (text_iff _).1 ⟨_, h⟩⟩
  · intro h
    cases v with
    | splitScreen x => obtain ⟨rfl, h⟩ := h; exact ⟨_, .splitScreen ⟨h, rfl⟩⟩
    | steam x => cases h; exact ⟨_, .steam x⟩
    | playStation x name unk =>
      obtain ⟨rfl, h1, h2, h3⟩ := h
      obtain ⟨body, h4, h5⟩ := cp1252_all fun c hc => (h2 c hc).2
      have h6 : ∀ b ∈ body, b ≠ 0 := by
        intro b hb
        have : some b ∈ name.map cp1252 := by
          rw [show name.map cp1252 = body.map some from h4]
          exact List.mem_map_of_mem hb
        obtain ⟨c, hc, e⟩ := List.mem_map.1 this
        rintro rfl
        exact (h2 c hc).1 ((zero_iff c).1 e)
      refine ⟨_, .playStation x (raw := body ++ List.replicate (16 - body.length) 0) ?_ ?_ h3⟩
      · rw [List.length_append, List.length_replicate]; omega
      · have : (body ++ List.replicate (16 - body.length) 0).takeWhile (· != 0) = body := by
          rw [List.takeWhile_append_of_pos (by simpa using h6)]
          cases 16 - body.length with
          | zero => simp
          | succ n => rw [List.replicate_succ, List.takeWhile_cons]; simp
        rw [this]
        exact h4
    | xbox x => cases h; exact ⟨_, .xbox x⟩
    | qq x => cases h; exact ⟨_, .qq x⟩
    | switch x unk => obtain ⟨rfl, h⟩ := h; exact ⟨_, .switch x h⟩
    | psyNet x unk => obtain ⟨rfl, h⟩ := h; exact ⟨_, .psyNet x h⟩
    | epic s =>
      obtain ⟨rfl, h⟩ := h
      obtain ⟨bs, h⟩ := (text_iff _).2 h
      exact ⟨_, .epic h⟩

theorem uniqueId_iff (net : I32) (v : UniqueId) : (∃ bs, UniqueIdEnc net v bs) ↔ UniqueIdOf net v := by
  unfold UniqueIdEnc UniqueIdOf
  rw [← remote_iff]
  exact ⟨fun ⟨_, r, h, _⟩ => ⟨r, h⟩, fun ⟨r, h⟩ => ⟨_, r, h, rfl⟩⟩

theorem splitName_iff (s : Str) : (∃ bs, Latin1Name s bs) ↔ SplitName s := by
  unfold Latin1Name SplitName
  have ofNat : ∀ n < 256, (Char.ofNat n).toNat = n := by decide +kernel
  constructor
  · rintro ⟨_, raw, h1, rfl, h2, _⟩
    constructor
    · intro c hc
      obtain ⟨b, hb, rfl⟩ := List.mem_map.1 hc
      have h0 : b.toNat ≠ 0 := fun h => h1 b hb (BitVec.eq_of_toNat_eq h)
      rw [ofNat _ b.isLt]
      have := b.isLt
      exact ⟨by omega, by omega⟩
    · by_cases he : raw.map (fun b : Byte => Char.ofNat b.toNat) = []
      · rw [he]; decide
      · have := h2 he; omega
  · rintro ⟨h1, h2⟩
    refine ⟨_, s.map (fun c => BitVec.ofNat 8 c.toNat), ?_, ?_, fun _ => by omega, rfl⟩
    · intro b hb
      obtain ⟨c, hc, rfl⟩ := List.mem_map.1 hb
      have := h1 c hc
      intro e
      have := congrArg BitVec.toNat e
      rw [BitVec.toNat_ofNat, Nat.mod_eq_of_lt (by omega)] at this
      have h0 : (0 : Byte).toNat = 0 := rfl
      omega
    · rw [List.map_map]
      conv_lhs => rw [← List.map_id s]
      refine List.map_congr_left fun c hc => ?_
      have := h1 c hc
      show c = Char.ofNat (BitVec.ofNat 8 c.toNat).toNat
      rw [BitVec.toNat_ofNat, Nat.mod_eq_of_lt (by omega), Char.ofNat_toNat]

theorem reservation_iff (d : Ctx) (v : Reservation) :
    (∃ bs, ReservationEnc d v bs) ↔ ReservationOf d v := by
  unfold ReservationEnc ReservationOf
  constructor
  · rintro ⟨_, n, u, s, k, h1, h2, h3, h4, _⟩
    have h4 := (when_iff _ _ _).1 ⟨k, h4⟩
    refine ⟨(narrow_iff 3 _).1 ⟨_, h1⟩, (uniqueId_iff _ _).1 ⟨_, h2⟩, ?_, h4.1,
      fun x hx => (narrow_iff 6 x).1 (h4.2 x hx)⟩
    rcases h3 with ⟨hs, t, ht, hw⟩ | ⟨hs, hr, t, ht, hw⟩ | ⟨hs, hr, ht, _⟩ <;> rw [ht] <;> dsimp only
    · rw [if_neg hs]; exact (text_iff t).1 ⟨_, hw⟩
    · rw [if_pos hs]; exact ⟨hr, (splitName_iff t).1 ⟨_, hw⟩⟩
    · exact ⟨hs, hr⟩
  · rintro ⟨h1, h2, h3, h4, h5⟩
    obtain ⟨n, h1⟩ := (narrow_iff 3 _).2 h1
    obtain ⟨u, h2⟩ := (uniqueId_iff _ _).2 h2
    obtain ⟨k, h4⟩ := (when_iff (d.atLeast 868 12 0) (Narrow 6) v.unknown3).2
      ⟨h4, fun x hx => (narrow_iff 6 x).2 (h5 x hx)⟩
    cases hn : v.name with
    | none =>
      rw [hn] at h3
      exact ⟨_, n, u, [], k, h1, h2, .inr (.inr ⟨h3.1, h3.2, rfl, rfl⟩), h4, rfl⟩
    | some t =>
      rw [hn] at h3
      dsimp only at h3
      split at h3
      · rename_i hs
        obtain ⟨s, h6⟩ := (splitName_iff t).2 h3.2
        exact ⟨_, n, u, s, k, h1, h2, .inr (.inl ⟨hs, h3.1, t, rfl, h6⟩), h4, rfl⟩
      · rename_i hs
        obtain ⟨s, h6⟩ := (text_iff t).2 h3
        exact ⟨_, n, u, s, k, h1, h2, .inl ⟨hs, t, rfl, h6⟩, h4, rfl⟩

theorem product_iff (d : Ctx) (v : Product) : (∃ bs, ProductAttrEnc d v bs) ↔ ProductOf d v := by
  have e : (∃ bs, ProductAttrEnc d v bs) ↔ ∃ p, ProductEnc d v.objectInd v.value p :=
    ⟨fun ⟨_, p, h, _⟩ => ⟨p, h⟩, fun ⟨p, h⟩ => ⟨_, p, h, rfl⟩⟩
  rw [e]
  unfold ProductOf
  constructor
  · rintro ⟨p, h⟩
    generalize v.value = x at h ⊢
    cases h with
    | newColor x h1 h2 => rw [if_pos h1]; exact .inl ⟨h2, x, rfl⟩
    | noColor h1 h2 => rw [if_pos h1]; exact .inr ⟨h2, .inl rfl⟩
    | oldColor h1 h2 h3 => rw [if_pos h1]; exact .inr ⟨h2, .inr ⟨_, rfl, h3.1⟩⟩
    | newPaint h1 h2 h3 h4 => rw [if_neg h1, if_pos h2]; exact .inl ⟨h3, _, rfl, h4.1⟩
    | oldPaint h1 h2 h3 h4 => rw [if_neg h1, if_pos h2]; exact .inr ⟨h3, _, rfl, h4.1⟩
    | title h1 h2 h3 h4 =>
      rw [if_neg h1, if_neg h2, if_pos h3]; exact ⟨_, rfl, (text_iff _).1 ⟨_, h4⟩⟩
    | special h1 h2 h3 h4 h5 => rw [if_neg h1, if_neg h2, if_neg h3, if_pos h4]; exact ⟨_, rfl, h5.1⟩
    | newTeam h1 h2 h3 h4 h5 h6 h7 =>
      rw [if_neg h1, if_neg h2, if_neg h3, if_neg h4, if_pos h5]; exact .inl ⟨h6, _, rfl, h7.1⟩
    | oldTeam h1 h2 h3 h4 h5 h6 h7 =>
      rw [if_neg h1, if_neg h2, if_neg h3, if_neg h4, if_pos h5]; exact .inr ⟨h6, _, rfl, h7.1⟩
    | absent h1 h2 h3 h4 h5 => rw [if_neg h1, if_neg h2, if_neg h3, if_neg h4, if_neg h5]
  · intro h
    split at h <;> rename_i h1
    · rcases h with ⟨h2, x, e⟩ | ⟨h2, e | ⟨x, e, h3⟩⟩ <;> rw [e]
      · exact ⟨_, .newColor x h1 h2⟩
      · exact ⟨_, .noColor h1 h2⟩
      · exact ⟨_, .oldColor h1 h2 ⟨h3, rfl⟩⟩
    split at h <;> rename_i h2
    · rcases h with ⟨h3, x, e, h4⟩ | ⟨h3, x, e, h4⟩ <;> rw [e]
      · exact ⟨_, .newPaint h1 h2 h3 ⟨h4, rfl⟩⟩
      · exact ⟨_, .oldPaint h1 h2 h3 ⟨h4, rfl⟩⟩
    split at h <;> rename_i h3
    · obtain ⟨s, e, h4⟩ := h
      obtain ⟨bs, h4⟩ := (text_iff s).2 h4
      rw [e]
      exact ⟨_, .title h1 h2 h3 h4⟩
    split at h <;> rename_i h4
    · obtain ⟨x, e, h5⟩ := h
      rw [e]
      exact ⟨_, .special h1 h2 h3 h4 ⟨h5, rfl⟩⟩
    split at h <;> rename_i h5
    · rcases h with ⟨h6, x, e, h7⟩ | ⟨h6, x, e, h7⟩ <;> rw [e]
      · exact ⟨_, .newTeam h1 h2 h3 h4 h5 h6 ⟨h7, rfl⟩⟩
      · exact ⟨_, .oldTeam h1 h2 h3 h4 h5 h6 ⟨h7, rfl⟩⟩
    · rw [h]
      exact ⟨_, .absent h1 h2 h3 h4 h5⟩

theorem products_iff (d : Ctx) (l : List (List Product)) :
    (∃ bs, OnlineLoadoutEnc d l bs) ↔ ProductsOf d l := by
  unfold OnlineLoadoutEnc ProductsOf
  rw [byteList_iff]
  simp only [byteList_iff, product_iff]

theorem gameMode_iff (d : Ctx) (w v : Byte) : (∃ bs, GameModeEnc d w v bs) ↔
    (d.atLeast 868 12 0 ∧ w = 8) ∨ (¬d.atLeast 868 12 0 ∧ w = 2 ∧ v.toNat < 4) := by
  unfold GameModeEnc
  constructor
  · rintro ⟨_, ⟨h1, h2, _⟩ | ⟨h1, h2, h3, _⟩⟩
    · exact .inl ⟨h1, h2⟩
    · exact .inr ⟨h1, h2, h3⟩
  · rintro (⟨h1, h2⟩ | ⟨h1, h2, h3⟩)
    · exact ⟨_, .inl ⟨h1, h2, rfl⟩⟩
    · exact ⟨_, .inr ⟨h1, h2, h3, rfl⟩⟩

theorem whenVec_iff (net : I32) (c : Prop) (v : Option Vector3f) :
    (∃ bs, When c (Vec3f net) v bs) ↔ Given net v ∧ Since c v := by
  rw [when_iff, and_comm]
  unfold Given
  simp only [vec_iff]

theorem value_of_enc {d : Ctx} {tag : AttributeTag} {v : Attribute} {bs : Bits}
    (h : AttrEnc d tag v bs) : ValueOf d tag v := by
  cases h <;> first | exact trivial | skip
  case appliedDamage h => obtain ⟨p, h, _⟩ := h; exact (vec_iff _ _).1 ⟨_, h⟩
  case damageState h => obtain ⟨p, h, _⟩ := h; exact (vec_iff _ _).1 ⟨_, h⟩
  case camSettings h => obtain ⟨p, h, _⟩ := h; exact (whenWord_iff _ _).1 ⟨_, h⟩
  case demolish h =>
    obtain ⟨a, b, h1, h2, _⟩ := h; exact ⟨(vec_iff _ _).1 ⟨_, h1⟩, (vec_iff _ _).1 ⟨_, h2⟩⟩
  case demolishExtended h =>
    obtain ⟨a, b, h1, h2, _⟩ := h; exact ⟨(vec_iff _ _).1 ⟨_, h1⟩, (vec_iff _ _).1 ⟨_, h2⟩⟩
  case demolishFx h =>
    obtain ⟨a, b, h1, h2, _⟩ := h; exact ⟨(vec_iff _ _).1 ⟨_, h1⟩, (vec_iff _ _).1 ⟨_, h2⟩⟩
  case enum h => exact h.1
  case explosion h => obtain ⟨p, h, _⟩ := h; exact (vec_iff _ _).1 ⟨_, h⟩
  case extendedExplosion h => obtain ⟨e, ⟨p, h, _⟩, _⟩ := h; exact (vec_iff _ _).1 ⟨_, h⟩
  case gameMode h => exact (gameMode_iff _ _ _).1 ⟨_, h⟩
  case loadout h => exact (loadout_iff _).1 ⟨_, h⟩
  case teamLoadout h =>
    obtain ⟨a, b, h1, h2, _⟩ := h; exact ⟨(loadout_iff _).1 ⟨_, h1⟩, (loadout_iff _).1 ⟨_, h2⟩⟩
  case location h => exact (vec_iff _ _).1 ⟨_, h⟩
  case playerHistoryKey h => exact h.1
  case qWord h => exact h
  case qWordString h1 h2 => exact ⟨h1, (text_iff _).1 ⟨_, h2⟩⟩
  case welded h => obtain ⟨p, h, _⟩ := h; exact (vec_iff _ _).1 ⟨_, h⟩
  case rigidBody h =>
    obtain ⟨l, r, a, b, h1, h2, h3, h4, _⟩ := h
    have h3 := (whenVec_iff _ _ _).1 ⟨_, h3⟩
    have h4 := (whenVec_iff _ _ _).1 ⟨_, h4⟩
    exact ⟨⟨(vec_iff _ _).1 ⟨_, h1⟩, (rotation_iff _ _).1 ⟨_, h2⟩⟩, h3.1, h4.1, h3.2, h4.2⟩
  case string h => exact (text_iff _).1 ⟨_, h⟩
  case uniqueId h => exact (uniqueId_iff _ _).1 ⟨_, h⟩
  case reservation h => exact (reservation_iff _ _).1 ⟨_, h⟩
  case partyLeader h =>
    rcases h with ⟨rfl, _⟩ | ⟨u, rfl, h1, h2⟩
    · exact fun u h => (by cases h)
    · rintro _ ⟨⟩
      exact ⟨h1, (uniqueId_iff _ _).1 ⟨_, h2⟩⟩
  case privateMatch h =>
    obtain ⟨a, b, c, h1, h2, h3, _⟩ := h
    exact ⟨(text_iff _).1 ⟨_, h1⟩, (text_iff _).1 ⟨_, h2⟩, (text_iff _).1 ⟨_, h3⟩⟩
  case loadoutOnline h => exact (products_iff _ _).1 ⟨_, h⟩
  case loadoutsOnline h =>
    obtain ⟨a, b, h1, h2, _⟩ := h; exact ⟨(products_iff _ _).1 ⟨_, h1⟩, (products_iff _ _).1 ⟨_, h2⟩⟩
  case repStatTitle h => obtain ⟨a, h, _⟩ := h; exact (text_iff _).1 ⟨_, h⟩

theorem enc_of_value {d : Ctx} {tag : AttributeTag} {v : Attribute} (h : ValueOf d tag v) :
    ∃ bs, AttrEnc d tag v bs := by
  unfold ValueOf at h
  split at h
  · exact ⟨_, .boolean _⟩
  · exact ⟨_, .byte _⟩
  · obtain ⟨_, h⟩ := (vec_iff _ _).2 h; exact ⟨_, .appliedDamage ⟨_, h, rfl⟩⟩
  · obtain ⟨_, h⟩ := (vec_iff _ _).2 h; exact ⟨_, .damageState ⟨_, h, rfl⟩⟩
  · obtain ⟨_, h⟩ := (whenWord_iff _ _).2 h; exact ⟨_, .camSettings ⟨_, h, rfl⟩⟩
  · exact ⟨_, .clubColors _⟩
  · obtain ⟨_, h1⟩ := (vec_iff _ _).2 h.1; obtain ⟨_, h2⟩ := (vec_iff _ _).2 h.2
    exact ⟨_, .demolish ⟨_, _, h1, h2, rfl⟩⟩
  · obtain ⟨_, h1⟩ := (vec_iff _ _).2 h.1; obtain ⟨_, h2⟩ := (vec_iff _ _).2 h.2
    exact ⟨_, .demolishExtended ⟨_, _, h1, h2, rfl⟩⟩
  · obtain ⟨_, h1⟩ := (vec_iff _ _).2 h.1; obtain ⟨_, h2⟩ := (vec_iff _ _).2 h.2
    exact ⟨_, .demolishFx ⟨_, _, h1, h2, rfl⟩⟩
  · exact ⟨_, .enum ⟨h, rfl⟩⟩
  · obtain ⟨_, h⟩ := (vec_iff _ _).2 h; exact ⟨_, .explosion ⟨_, h, rfl⟩⟩
  · obtain ⟨_, h⟩ := (vec_iff _ _).2 h; exact ⟨_, .extendedExplosion ⟨_, ⟨_, h, rfl⟩, rfl⟩⟩
  · exact ⟨_, .flaggedByte _ _⟩
  · exact ⟨_, .activeActor _⟩
  · exact ⟨_, .float _⟩
  · obtain ⟨_, h⟩ := (gameMode_iff _ _ _).2 h; exact ⟨_, .gameMode h⟩
  · exact ⟨_, .int _⟩
  · exact ⟨_, .int64 _⟩
  · obtain ⟨_, h⟩ := (loadout_iff _).2 h; exact ⟨_, .loadout h⟩
  · obtain ⟨_, h1⟩ := (loadout_iff _).2 h.1; obtain ⟨_, h2⟩ := (loadout_iff _).2 h.2
    exact ⟨_, .teamLoadout ⟨_, _, h1, h2, rfl⟩⟩
  · obtain ⟨_, h⟩ := (vec_iff _ _).2 h; exact ⟨_, .location h⟩
  · exact ⟨_, .musicStinger _⟩
  · exact ⟨_, .playerHistoryKey ⟨h, rfl⟩⟩
  · exact ⟨_, .pickup _⟩
  · exact ⟨_, .pickupNew _⟩
  · exact ⟨_, .qWord _ h⟩
  · obtain ⟨_, h2⟩ := (text_iff _).2 h.2; exact ⟨_, .qWordString h.1 h2⟩
  · obtain ⟨_, h⟩ := (vec_iff _ _).2 h; exact ⟨_, .welded ⟨_, h, rfl⟩⟩
  · exact ⟨_, .title ..⟩
  · exact ⟨_, .teamPaint _⟩
  · obtain ⟨⟨h1, h2⟩, h3, h4, h5, h6⟩ := h
    obtain ⟨_, h1⟩ := (vec_iff _ _).2 h1
    obtain ⟨_, h2⟩ := (rotation_iff _ _).2 h2
    obtain ⟨_, h3⟩ := (whenVec_iff _ _ _).2 ⟨h3, h5⟩
    obtain ⟨_, h4⟩ := (whenVec_iff _ _ _).2 ⟨h4, h6⟩
    exact ⟨_, .rigidBody ⟨_, _, _, _, h1, h2, h3, h4, rfl⟩⟩
  · obtain ⟨_, h⟩ := (text_iff _).2 h; exact ⟨_, .string h⟩
  · obtain ⟨_, h⟩ := (uniqueId_iff _ _).2 h; exact ⟨_, .uniqueId h⟩
  · obtain ⟨_, h⟩ := (reservation_iff _ _).2 h; exact ⟨_, .reservation h⟩
  · rename_i v
    cases v with
    | none => exact ⟨_, .partyLeader (.inl ⟨rfl, rfl⟩)⟩
    | some u =>
      obtain ⟨_, h2⟩ := (uniqueId_iff _ _).2 (h u rfl).2
      exact ⟨_, .partyLeader (.inr ⟨u, rfl, (h u rfl).1, h2⟩)⟩
  · obtain ⟨_, h1⟩ := (text_iff _).2 h.1
    obtain ⟨_, h2⟩ := (text_iff _).2 h.2.1
    obtain ⟨_, h3⟩ := (text_iff _).2 h.2.2
    exact ⟨_, .privateMatch ⟨_, _, _, h1, h2, h3, rfl⟩⟩
  · obtain ⟨_, h⟩ := (products_iff _ _).2 h; exact ⟨_, .loadoutOnline h⟩
  · obtain ⟨_, h1⟩ := (products_iff _ _).2 h.1; obtain ⟨_, h2⟩ := (products_iff _ _).2 h.2
    exact ⟨_, .loadoutsOnline ⟨_, _, h1, h2, rfl⟩⟩
  · exact ⟨_, .statEvent _⟩
  · exact ⟨_, .rotation _⟩
  · obtain ⟨_, h⟩ := (text_iff _).2 h; exact ⟨_, .repStatTitle ⟨_, h, rfl⟩⟩
  · exact ⟨_, .pickupInfo _⟩
  · exact ⟨_, .impulse _⟩
  · exact ⟨_, .replicatedBoost _⟩
  · exact ⟨_, .logoData _⟩
  · exact h.elim

/-- What is accepted is a value of its type, or a rigid body that is cut. -/
theorem value_of_accepts {d : Ctx} {tag : AttributeTag} {v : Attribute} {i o : Bits}
    (h : AttrAccepts d tag v i o) :
    ValueOf d tag v ∨ (tag = .rigidBody ∧ ∃ b, v = .rigidBody b ∧ CutBody d b) := by
  rcases h with ⟨bs, h, _⟩ | ⟨ht, b, hb, h1, h2, l, r, j, k, h3, h4, _, h5, h6⟩
  · exact .inl (value_of_enc h)
  · have key : ∀ {w i o}, Velocity d.net w i o → Given d.net w := by
      rintro w i o h x rfl
      obtain ⟨bs, h, _⟩ := h
      exact (vec_iff _ _).1 ⟨_, h⟩
    exact .inr ⟨ht, b, hb, ⟨(vec_iff _ _).1 ⟨_, h3⟩, (rotation_iff _ _).1 ⟨_, h4⟩⟩, key h5, key h6,
      h1, h2⟩

end Boxcars.Spec
