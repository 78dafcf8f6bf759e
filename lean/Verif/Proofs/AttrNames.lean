import Verif.Model.Data
/-!
# The table of attributes

No name is listed twice, so that the table can be read entry by entry; the names are short and
every type but `NotImplemented` is that of a listed name.  `nameKey` tells the names apart
without comparing them with each other.
-/
namespace Boxcars

/-- A number for each name of the table. -/
def nameKey (s : String) : Nat :=
  s.toByteArray.data.toList.foldl (fun a c => (a * 256 + c.toNat) % 10166) 1

def attributeKeys : List Nat :=
  [3743, 8151, 3172, 3662, 3382, 3022, 7041, 8027, 5605, 3756, 8744, 8297, 35, 7893, 134, 3505,
   8036, 4751, 4514, 5952, 3648, 2180, 547, 4914, 908, 8925, 4308, 2359, 335, 365, 707, 2106, 746,
   4531, 8074, 320, 7876, 6862, 3538, 3068, 8098, 2869, 3321, 3190, 7178, 3438, 500, 4900, 2474,
   4614, 8825, 2345, 8105, 9766, 7383, 5868, 115, 8571, 7976, 8350, 1564, 3388, 3161, 6896, 4911,
   6061, 5693, 1171, 9327, 9974, 4515, 8529, 6988, 3377, 967, 7343, 1946, 10157, 5309, 8944, 3598,
   6017, 9323, 2821, 1644, 1526, 4295, 1236, 2503, 8652, 1602, 1042, 8182, 1341, 563, 1915, 348,
   7021, 6103, 8780, 9286, 5496, 8594, 3099, 5436, 9492, 138, 1584, 3456, 711, 1568, 4657, 1583,
   5428, 9524, 372, 7854, 4237, 8239, 1935, 9550, 3057, 411, 8871, 1921, 5110, 7789, 7340, 5583,
   4782, 5940, 2820, 3420, 2494, 3303, 7162, 7238, 990, 6162, 9300, 4004, 7822, 2636, 2384, 9665,
   1291, 2007, 5733, 2933, 9703, 7874, 2498, 7977, 7350, 176, 4267, 1519, 758, 3137, 7405, 9526,
   5563, 8393, 3145, 5608, 9212, 7242, 7303, 1786, 8454, 6819, 1480, 6071, 6327, 9666, 5574, 4163,
   703, 3727, 3920, 9888, 9453, 4462, 5320, 9446, 66, 1079, 8809, 9371, 9655, 1617, 1878, 7542,
   6723, 30, 8858, 4895, 9211, 4011, 2437, 697, 417, 8489, 5728, 592, 4548, 8728, 7644, 5328, 3696,
   6623, 3189, 517, 8861, 1425, 2721, 4206, 2817, 2103, 3279, 4656, 6799, 2629, 5877, 622, 2119,
   7922, 8857, 8045, 3025, 6041, 1001, 7881, 6379, 3153, 6263, 4370, 1493, 7087, 5129, 6348, 5171,
   615, 4951, 4813, 8770, 5401, 1393, 5077, 1151, 9472, 5028, 5757, 5221, 809, 1192, 11, 3444, 3460,
   6930, 3055, 2838, 4401, 1514, 5701, 7316, 6806, 1049, 10138, 907, 9968, 1628, 1543, 5128, 9756,
   834, 2158, 4525, 7147, 7129, 4619, 277, 10162, 2763, 3925, 3842, 3151, 2571, 9122, 3539, 8559,
   8042, 4646, 10017, 1764, 5231, 2485, 2031, 4603]

set_option maxRecDepth 100000 in
theorem attributeKeys_eq : attributesTable.map (fun p => nameKey p.1) = attributeKeys := by
  decide +kernel

set_option maxRecDepth 100000 in
theorem attributeKeys_nodup : attributeKeys.Nodup := by decide +kernel

theorem attributesTable_nodup : (attributesTable.map Prod.fst).Nodup := by
  have h := attributeKeys_nodup
  rw [← attributeKeys_eq, show (fun p : String × AttributeTag => nameKey p.1) = nameKey ∘ Prod.fst
    from rfl, ← List.map_map] at h
  exact h.of_map _ (fun a b hab he => hab (by rw [he]))

theorem lookup_of_mem {α β : Type} [BEq α] [LawfulBEq α] {l : List (α × β)}
    (hn : (l.map Prod.fst).Nodup) {k : α} {v : β} (h : (k, v) ∈ l) : l.lookup k = some v := by
  induction l with
  | nil => cases h
  | cons p l ih =>
    obtain ⟨a, b⟩ := p
    rw [List.map_cons, List.nodup_cons] at hn
    rcases List.mem_cons.1 h with hm | hm
    · cases hm
      simp [List.lookup]
    · have : (k == a) = false := by
        rw [beq_eq_false_iff_ne]
        rintro rfl
        exact hn.1 (List.mem_map.2 ⟨_, hm, rfl⟩)
      rw [List.lookup_cons, this]
      exact ih hn.2 hm

/-- The type of a listed attribute. -/
theorem attributeTag_of_mem {name : String} {tag : AttributeTag} (h : (name, tag) ∈ attributesTable) :
    attributeTag name.toList = some tag := by
  unfold attributeTag
  rw [String.ofList_toList]
  exact lookup_of_mem attributesTable_nodup h

set_option maxRecDepth 100000 in
theorem attributesTable_short : attributesTable.all (fun p => p.1.toByteArray.size ≤ 59) = true := by
  decide +kernel

theorem utf8_size_le (l : List Char) : l.length ≤ l.utf8Encode.size := by
  unfold List.utf8Encode
  rw [List.size_toByteArray]
  induction l with
  | nil => exact Nat.le_refl _
  | cons c l ih =>
    have := c.utf8Size_pos
    rw [List.flatMap_cons, List.length_append, List.length_cons, String.length_utf8EncodeChar]
    omega

theorem attribute_short {name : String} {tag : AttributeTag} (h : (name, tag) ∈ attributesTable) :
    name.toList.length ≤ 59 := by
  have h1 := of_decide_eq_true (List.all_eq_true.1 attributesTable_short _ h)
  have h2 := utf8_size_le name.toList
  rw [← String.toByteArray_ofList, String.ofList_toList] at h2
  exact Nat.le_trans h2 h1

set_option maxRecDepth 100000 in
theorem tag_listed {tag : AttributeTag} (h : tag ≠ .notImplemented) :
    ∃ name, (name, tag) ∈ attributesTable := by
  have : tag ∈ attributesTable.map Prod.snd := by
    revert h; cases tag <;> decide +kernel
  obtain ⟨⟨name, t⟩, h1, rfl⟩ := List.mem_map.1 this
  exact ⟨name, h1⟩

end Boxcars
