import Verif.Spec.Size
import Verif.Spec.Network
import Verif.Proofs.AttrSpec2
import Verif.Proofs.Rdict
/-!
# A replay is no larger than its file
-/
namespace Boxcars
open Spec BSpec

/-! ## texts -/

theorem utf8Char_length (c : Char) : (utf8Char c).length = c.utf8Size := by simp [utf8Char]

theorem utf8Size_small {c : Char} (h : c.toNat < 0x10000) : c.utf8Size ≤ 3 := by
  unfold Char.utf8Size
  dsimp only
  have hv : c.val.toNat = c.toNat := rfl
  split
  · omega
  · split
    · omega
    · split
      · omega
      · rename_i h1
        exact absurd (UInt32.le_iff_toNat_le.2 (by rw [hv]; show c.toNat ≤ 0xFFFF; omega)) h1

theorem utf8Size_latin {c : Char} (h : c.toNat < 0x800) : c.utf8Size ≤ 2 := by
  unfold Char.utf8Size
  dsimp only
  have hv : c.val.toNat = c.toNat := rfl
  split
  · omega
  · split
    · omega
    · rename_i h1
      exact absurd (UInt32.le_iff_toNat_le.2 (by rw [hv]; show c.toNat ≤ 0x7FF; omega)) h1

theorem utf8_cons (c : Char) (s : Str) : (utf8 (c :: s)).length = c.utf8Size + (utf8 s).length := by
  unfold utf8
  rw [List.flatMap_cons, List.length_append, utf8Char_length]

theorem cp1252Table_small : ∀ p ∈ cp1252Table, p.1 < 0x10000 := by decide

theorem mem_of_lookup {α β : Type} [BEq α] [LawfulBEq α] {k : α} {v : β} :
    ∀ {l : List (α × β)}, l.lookup k = some v → (k, v) ∈ l
  | [], h => by cases h
  | (a, b) :: l, h => by
    rw [List.lookup_cons] at h
    by_cases hk : k == a
    · rw [hk] at h
      cases h
      rw [eq_of_beq hk]
      exact List.mem_cons_self
    · rw [Bool.not_eq_true] at hk
      rw [hk] at h
      exact List.mem_cons_of_mem _ (mem_of_lookup h)

theorem cp1252_small {c : Char} {b : Byte} (h : cp1252 c = some b) : c.utf8Size ≤ 3 := by
  apply utf8Size_small
  unfold cp1252 at h
  cases hl : cp1252Table.lookup c.toNat with
  | some x => exact cp1252Table_small _ (mem_of_lookup hl)
  | none =>
    rw [hl] at h
    simp only at h
    split at h
    · rename_i hc
      simp only [List.mem_cons, List.not_mem_nil, or_false] at hc
      omega
    · cases h

theorem cp1252_length : ∀ {s : Str} {body : List Byte}, IsCp1252 s body →
    (utf8 s).length ≤ 3 * body.length
  | [], [], _ => by simp [utf8]
  | [], _ :: _, h => by simp [IsCp1252] at h
  | _ :: _, [], h => by simp [IsCp1252] at h
  | c :: s, b :: body, h => by
    simp only [IsCp1252, List.map_cons, List.cons.injEq] at h
    have h1 := cp1252_small h.1
    have h2 : (utf8 s).length ≤ 3 * body.length := cp1252_length h.2
    rw [utf8_cons, List.length_cons]
    omega

theorem utf16Char_length (c : Char) : c.utf8Size ≤ 3 * (utf16Char c).length := by
  unfold utf16Char
  split
  · rename_i h
    have := utf8Size_small h
    simpa using this
  · have := Char.utf8Size_le_four c
    simp only [List.length_cons, List.length_nil]
    omega

theorem utf16_length {us : List (BitVec 16)} {s : Str} (h : Utf16Replaced us s) :
    (utf8 s).length ≤ 3 * us.length := by
  have hr : ('�' : Char).utf8Size = 3 := by decide
  induction h with
  | nil => simp [utf8]
  | char c _ ih =>
    have := utf16Char_length c
    rw [utf8_cons, List.length_append]
    omega
  | high _ _ _ ih => rw [utf8_cons, hr, List.length_cons]; omega
  | low _ _ ih => rw [utf8_cons, hr, List.length_cons]; omega

theorem le2_length (us : List (BitVec 16)) :
    (us.flatMap fun u => le 2 u.toNat).length = 2 * us.length := by
  induction us with
  | nil => rfl
  | cons u us ih => rw [List.flatMap_cons, List.length_append, le_length, ih, List.length_cons]; omega

theorem strField_size {s : Str} {bs : Bytes} (h : StrField s bs) : textSize s ≤ bs.length := by
  unfold textSize
  rcases h with ⟨rfl, rfl⟩ | ⟨last, _, rfl⟩
  · simp [utf8]
  · simp only [List.length_append, word_length, List.length_cons, List.length_nil]; omega

theorem textField_size {s : Str} {bs : Bytes} (h : TextField s bs) : textSize s ≤ 3 * bs.length := by
  unfold textSize
  rcases h with ⟨rfl, rfl⟩ | ⟨body, last, _, h, rfl⟩ | ⟨us, last, _, h, rfl⟩
  · simp [utf8]
  · have := cp1252_length h
    simp only [List.length_append, word_length, List.length_cons, List.length_nil]
    omega
  · have := utf16_length h
    rw [List.length_append, word_length, le2_length, List.length_append, List.length_cons]
    omega

theorem netText_size {s : Str} {bs : Bits} (h : NetText s bs) : textSize s ≤ bs.length := by
  unfold textSize
  rcases h with ⟨rfl, rfl⟩ | ⟨body, last, _, h, rfl⟩ | ⟨us, last, _, h, rfl⟩
  · rw [field_length]; simp [utf8]
  · have := cp1252_length h
    rw [List.length_append, field_length, bytes_length]
    simp only [List.length_append, List.length_cons, List.length_nil]
    omega
  · have := utf16_length h
    rw [List.length_append, field_length, bytes_length, le2_length, List.length_append,
      List.length_cons]
    omega

theorem latin1_length (raw : List Byte) :
    (utf8 (raw.map fun b => Char.ofNat b.toNat)).length ≤ 2 * raw.length := by
  induction raw with
  | nil => simp [utf8]
  | cons b raw ih =>
    have hb : b.toNat < 256 := b.isLt
    have : (Char.ofNat b.toNat).toNat < 0x800 := by
      rw [ofNat_toNat_of_valid (.inl (by omega))]; omega
    have := utf8Size_latin this
    rw [List.map_cons, utf8_cons, List.length_cons]
    omega

theorem latin1Name_size {s : Str} {bs : Bits} (h : Latin1Name s bs) : textSize s ≤ bs.length := by
  obtain ⟨raw, _, rfl, _, rfl⟩ := h
  have := latin1_length raw
  unfold textSize
  cases raw with
  | nil => simp [utf8, field_length]
  | cons b raw =>
    rw [List.length_append, bytes_length]
    simp only [List.length_cons] at this ⊢
    omega

/-! ## lists -/

theorem concat_size {α : Type} {g : α → Bytes → Prop} {f : α → Nat}
    (hf : ∀ x b, g x b → f x ≤ 3 * b.length) {xs : List α} {bs : Bytes} (h : Concat g xs bs) :
    sizes f xs ≤ 3 * bs.length := by
  induction h with
  | nil => simp [sizes]
  | cons h1 _ ih =>
    have := hf _ _ h1
    unfold sizes at ih ⊢
    rw [List.map_cons, List.sum_cons, List.length_append]
    omega

theorem listField_size {α : Type} {g : α → Bytes → Prop} {f : α → Nat}
    (hf : ∀ x b, g x b → f x ≤ 3 * b.length) {xs : List α} {bs : Bytes} (h : ListField g xs bs) :
    sizes f xs + 12 ≤ 3 * bs.length := by
  obtain ⟨body, _, hc, rfl⟩ := h
  have := concat_size hf hc
  rw [List.length_append, word_length]
  omega

theorem items_size {α : Type} {g : α → Bits → Prop} {f : α → Nat}
    (hf : ∀ x b, g x b → f x ≤ b.length) {xs : List α} {bs : Bits} (h : Items g xs bs) :
    sizes f xs ≤ bs.length := by
  induction h with
  | nil => simp [sizes]
  | cons h1 _ ih =>
    have := hf _ _ h1
    unfold sizes at ih ⊢
    rw [List.map_cons, List.sum_cons, List.length_append]
    omega

theorem byteList_size {α : Type} {g : α → Bits → Prop} {f : α → Nat}
    (hf : ∀ x b, g x b → f x ≤ b.length) {xs : List α} {bs : Bits} (h : ByteList g xs bs) :
    8 + sizes f xs ≤ bs.length := by
  obtain ⟨b, _, hc, rfl⟩ := h
  have := items_size hf hc
  rw [List.length_append, field_length]
  omega

theorem sizes_length {α : Type} (xs : List α) : sizes (fun _ => 1) xs = xs.length := by
  unfold sizes
  induction xs with
  | nil => rfl
  | cons x xs ih => rw [List.map_cons, List.sum_cons, ih, List.length_cons]; omega

theorem sizes_append {α : Type} (f : α → Nat) (xs ys : List α) :
    sizes f (xs ++ ys) = sizes f xs + sizes f ys := by
  simp [sizes]

/-! ## header -/

theorem propList_size {q : Bool} {ps : List (Str × HeaderProp)} {bs : Bytes}
    (h : PropList q ps bs) : 1 + propsSize ps ≤ 3 * bs.length := by
  refine PropList.rec (motive_1 := fun ps bs _ => 1 + propsSize ps ≤ 3 * bs.length)
    (motive_2 := fun _ v bs _ => valSize v ≤ 3 * bs.length)
    (motive_3 := fun xs bs _ => elemsSize xs ≤ 3 * bs.length)
    ?_ ?_ ?_ ?_ ?_ ?_ ?_ ?_ ?_ ?_ ?_ ?_ ?_ ?_ ?_ ?_ h
  · intro bs h; have := strField_size h; unfold textSize at this; unfold propsSize; omega
  · intro key kind v rest b1 b2 sz b3 b4 _ h1 h2 hs _ h4 ih1 ih2
    have := strField_size h1
    unfold propsSize
    simp only [List.length_append]
    omega
  · intro key rest b1 b2 sz b3 x b4 _ _ h1 h2 _ _ _ ih
    simp only [List.length_append]
    omega
  · intros; simp [valSize]
  · intros; simp [valSize]
  · intro k v b1 b2 _ _ h1 h2
    have := strField_size h1
    have := strField_size h2
    unfold valSize
    rw [List.length_append]
    omega
  · intro k b _ h
    unfold valSize
    exact textField_size h
  · intro xs body _ _ ih
    unfold valSize
    rw [List.length_append]
    omega
  · intros; simp [valSize]
  · intros; simp [valSize]
  · intros; simp [valSize]
  · intro s b h; unfold valSize; exact textField_size h
  · intro s b h; unfold valSize; exact textField_size h
  · intro n fs b1 b2 h1 _ ih
    have := strField_size h1
    unfold valSize
    rw [List.length_append]
    omega
  · unfold elemsSize; omega
  · intro x xs b bs _ _ ih1 ih2
    unfold elemsSize
    simp only [List.length_append]
    omega

/-! ## attributes -/

theorem attrSize_pos (a : Attribute) : 1 ≤ attrSize a := by
  unfold attrSize
  split <;> (try simp only [textSize, uniqueIdSize]) <;> omega

theorem opt_pos {α : Type} (enc : α → Bits) (v : Option α) : 1 ≤ (opt enc v).length := by
  cases v <;> simp [opt]

theorem vec3f_pos {net : I32} {v : Vector3f} {bs : Bits} (h : Vec3f net v bs) : 1 ≤ bs.length := by
  obtain ⟨w, ⟨s, _, _, _, _, rfl⟩, _⟩ := h
  simp only [List.length_append, coord, bits_length]
  omega

theorem remote_size {net : I32} {p : Byte} {r : RemoteId} {bs : Bits} (h : RemoteEnc net p r bs) :
    remoteSize r ≤ bs.length := by
  cases h with
  | playStation x h1 h2 h3 =>
    rename_i name raw unk
    have h4 := cp1252_length h2
    have h5 : (raw.takeWhile (· != 0)).length ≤ raw.length :=
      (List.takeWhile_sublist _).length_le
    simp only [remoteSize, textSize]
    rw [List.length_append, List.length_append, bytes_length, bytes_length]
    omega
  | switch x h1 =>
    simp only [remoteSize]
    rw [List.length_append, bytes_length]
    omega
  | psyNet x h1 =>
    simp only [remoteSize]
    rw [List.length_append, bytes_length]
    omega
  | epic h => exact netText_size h
  | _ => exact Nat.zero_le _

theorem uniqueId_size {net : I32} {u : UniqueId} {bs : Bits} (h : UniqueIdEnc net u bs) :
    uniqueIdSize u ≤ bs.length := by
  obtain ⟨r, hr, rfl⟩ := h
  have := remote_size hr
  unfold uniqueIdSize
  rw [List.length_append, field_length, List.length_append]
  omega

theorem product_size {d : Ctx} {p : Product} {bs : Bits} (h : ProductAttrEnc d p bs) :
    productSize p ≤ bs.length := by
  obtain ⟨b, hp, rfl⟩ := h
  obtain ⟨u, o, v⟩ := p
  unfold productSize
  rw [List.length_append, List.length_append, field_length]
  simp only at hp ⊢
  cases hp with
  | title _ _ _ h => have := netText_size h; simp only [List.length_cons, List.length_nil]; omega
  | _ => simp only [List.length_cons, List.length_nil]; omega

theorem products_size {d : Ctx} {l : List (List Product)} {bs : Bits} (h : OnlineLoadoutEnc d l bs) :
    8 + productsSize l ≤ bs.length := by
  refine byteList_size (f := fun l => 1 + sizes productSize l) (fun x b hb => ?_) h
  have := byteList_size (f := productSize) (fun x b (h : ProductAttrEnc d x b) => product_size h) hb
  omega

theorem attr_size {d : Ctx} {tag : AttributeTag} {a : Attribute} {bs : Bits}
    (h : AttrEnc d tag a bs) : attrSize a ≤ bs.length := by
  cases h with
  | string h => exact netText_size h
  | qWordString _ h => exact netText_size h
  | uniqueId h => exact uniqueId_size h
  | reservation h =>
    rename_i v
    obtain ⟨number, u, name, u1, u2, u3⟩ := v
    obtain ⟨n, b, s, k, _, hu, hs, _, rfl⟩ := h
    have := uniqueId_size hu
    simp only [attrSize, List.length_append]
    rcases hs with ⟨_, t, rfl, ht⟩ | ⟨_, _, t, rfl, ht⟩ | ⟨_, _, rfl, rfl⟩
    · have := netText_size ht; simp only at *; omega
    · have := latin1Name_size ht; simp only at *; omega
    · simp only at *; omega
  | partyLeader h =>
    rcases h with ⟨rfl, rfl⟩ | ⟨u, rfl, _, hu⟩
    · simp [attrSize, field_length]
    · exact uniqueId_size hu
  | privateMatch h =>
    obtain ⟨m, g, p, hm, hg, hp, rfl⟩ := h
    have := netText_size hm
    have := netText_size hg
    have := netText_size hp
    simp only [attrSize, List.length_append]
    omega
  | loadoutOnline h => have := products_size h; simp only [attrSize]; omega
  | loadoutsOnline h =>
    obtain ⟨a, b, ha, hb, rfl⟩ := h
    have := products_size ha
    have := products_size hb
    simp only [attrSize, List.length_append]
    omega
  | repStatTitle h =>
    obtain ⟨n, hn, rfl⟩ := h
    have := netText_size hn
    simp only [attrSize, List.length_append]
    omega
  | location h => exact vec3f_pos h
  | appliedDamage h =>
    obtain ⟨p, _, rfl⟩ := h
    simp only [attrSize, List.length_append, field_length]; omega
  | damageState h =>
    obtain ⟨p, _, rfl⟩ := h
    simp only [attrSize, List.length_append, field_length]; omega
  | camSettings h =>
    obtain ⟨p, _, rfl⟩ := h
    simp only [attrSize, List.length_append, field_length]; omega
  | demolish h =>
    obtain ⟨_, _, _, _, rfl⟩ := h
    simp only [attrSize, List.length_append, field_length]; omega
  | demolishExtended h =>
    obtain ⟨_, _, _, _, rfl⟩ := h
    simp only [attrSize, List.length_append, activeActor, List.length_cons]; omega
  | demolishFx h =>
    obtain ⟨_, _, _, _, rfl⟩ := h
    simp only [attrSize, List.length_append, field_length]; omega
  | enum h => obtain ⟨_, rfl⟩ := h; simp [attrSize]
  | explosion h =>
    obtain ⟨p, _, rfl⟩ := h
    simp only [attrSize, List.length_append, field_length]; omega
  | extendedExplosion h =>
    obtain ⟨p, _, rfl⟩ := h
    simp only [attrSize, List.length_append, field_length]; omega
  | gameMode h => rcases h with ⟨_, _, rfl⟩ | ⟨_, _, _, rfl⟩ <;> simp [attrSize]
  | loadout h =>
    obtain ⟨_, _, _, _, _, _, _, _, _, _, _, _, _, _, rfl⟩ := h
    simp only [attrSize, List.length_append, field_length]; omega
  | teamLoadout h =>
    obtain ⟨a, b, ha, _, rfl⟩ := h
    obtain ⟨_, _, _, _, _, _, _, _, _, _, _, _, _, _, rfl⟩ := ha
    simp only [attrSize, List.length_append, field_length]; omega
  | playerHistoryKey h => obtain ⟨_, rfl⟩ := h; simp [attrSize]
  | welded h =>
    obtain ⟨p, _, rfl⟩ := h
    simp only [attrSize, List.length_append, field_length]; omega
  | rigidBody h =>
    obtain ⟨_, _, _, _, _, _, _, _, rfl⟩ := h
    simp only [attrSize, List.length_append, List.length_cons]; omega
  | pickup v =>
    have := opt_pos (field 32) v.instigator
    simp only [attrSize, pickup, List.length_append]; omega
  | pickupNew v =>
    have := opt_pos (field 32) v.instigator
    simp only [attrSize, pickupNew, List.length_append]; omega
  | rotation v =>
    have := opt_pos (field 8) v.yaw
    simp only [attrSize, Spec.rotation, List.length_append]; omega
  | boolean | byte | float | int | int64 | qWord | clubColors | flaggedByte | activeActor |
    musicStinger | title | teamPaint | statEvent | pickupInfo | impulse | replicatedBoost |
    logoData =>
    simp only [attrSize, clubColors, activeActor, musicStinger, teamPaint, statEvent, pickupInfo,
      impulse, replicatedBoost, logoData, List.length_append, List.length_cons, field_length]
    omega

theorem accepts_size {d : Ctx} {tag : AttributeTag} {a : Attribute} {i o : Bits}
    (h : AttrAccepts d tag a i o) : attrSize a + o.length ≤ i.length := by
  rcases h with ⟨bs, h, rfl⟩ | ⟨_, v, rfl, _, _, l, r, j, k, _, _, rfl, h1, h2⟩
  · have := attr_size h
    rw [List.length_append]
    omega
  · have vel : ∀ {w : Option Vector3f} {i o : Bits}, Velocity d.net w i o → o.length ≤ i.length := by
      intro w i o h
      cases w with
      | some w => obtain ⟨b, _, rfl⟩ := h; rw [List.length_append]; omega
      | none =>
        rcases h with ⟨_, rfl⟩ | ⟨_, s, _, rfl, _⟩
        · exact Nat.le_refl _
        · rw [List.length_append]; omega
    have := vel h1
    have := vel h2
    simp only [attrSize, List.length_append, List.length_cons]
    omega

/-! ## frames -/

theorem props_size {d : Ctx} {c : ClassDef} {id : ActorId} {us : List UpdatedAttribute}
    {i o : Bits} (h : PropsRel (AttrAccepts d) c id us i o) :
    sizes (fun u => attrSize u.attr) us + o.length ≤ i.length := by
  induction h with
  | done => simp [sizes]
  | prop _ _ ha _ ih =>
    have := accepts_size ha
    unfold sizes at ih ⊢
    simp only [List.map_cons, List.sum_cons, List.length_cons, List.length_append]
    omega

theorem events_size {d : Ctx} {n : Net} {known : Known} {es : List Event} {i o : Bits}
    (h : EventsRel n (AttrAccepts d) known es i o) :
    (news es).length + (deletes es).length + sizes (fun u => attrSize u.attr) (updates es) +
      o.length ≤ i.length := by
  induction h with
  | done => simp [news, deletes, updates, sizes]
  | event he _ ih =>
    cases he with
    | new _ hn _ =>
      obtain ⟨_, _, _, _, _, _, _, rfl⟩ := hn
      simp only [news, deletes, updates, List.length_cons, List.length_append, field_length] at ih ⊢
      omega
    | delete _ =>
      simp only [news, deletes, updates, List.length_cons, List.length_append] at ih ⊢
      omega
    | update _ _ _ hp =>
      have := props_size hp
      simp only [news, deletes, updates, List.length_cons, List.length_append, sizes_append] at ih ⊢
      omega

theorem frames_size {d : Ctx} {n : Net} {limit : Nat} {known : Known} {fs : List Frame}
    {i o : Bits} (h : FramesRel n (AttrAccepts d) limit known fs i o) :
    sizes frameSize fs + o.length ≤ i.length := by
  induction h with
  | full => simp [sizes]
  | empty => simp [sizes]
  | stop _ _ =>
    simp only [sizes, List.map_nil, List.sum_nil, List.length_append]
    omega
  | frame hf _ ih =>
    obtain ⟨_, _, _, h1, h2, h3, j, rfl, hj⟩ := hf
    have := events_size hj
    unfold sizes at ih ⊢
    simp only [List.map_cons, List.sum_cons, List.length_append, field_length, frameSize, h1, h2, h3]
    omega

end Boxcars
