import Verif.Proofs.Decimal
/-!
# Serialization round trips

The lemmas from "Generated" on follow the generated codecs of `Model/Serde.lean` one by one.
-/
namespace Boxcars

mutual
/-- What `serde_json` makes of a value: floats that are not finite become `null`. -/
def toJson : SVal → SVal
  | .f32 x => if x.toNat / 2 ^ 23 % 256 = 255 then .null else .f32 x
  | .seq xs => .seq (toJsons xs)
  | .map kvs => .map (toJsonFields kvs)
  | .variant n x => .variant n (toJson x)
  | .null => .null
  | .bool b => .bool b
  | .int i => .int i
  | .str s => .str s
  | .unitVariant n => .unitVariant n

/-- Elements of a sequence. -/
def toJsons : List SVal → List SVal
  | [] => []
  | x :: xs => toJson x :: toJsons xs

/-- Fields of a map. -/
def toJsonFields : List (String × SVal) → List (String × SVal)
  | [] => []
  | (k, x) :: xs => (k, toJson x) :: toJsonFields xs
end

/-- All floats in a value are finite. -/
def JsonSafe (s : SVal) : Prop := toJson s = s

/-- A codec without loss: what is written is read, `null` is never written, and the detour
through JSON makes no difference exactly if all floats are finite. -/
structure Lossless {α : Type} (c : Codec α) : Prop where
  rt : ∀ v, c.de (c.ser v) = some v
  nonnull : ∀ v, c.ser v ≠ .null
  json : ∀ v, c.de (toJson (c.ser v)) = some v ↔ JsonSafe (c.ser v)

/-- The same for types written as `null`. -/
structure LosslessOpt {α : Type} (c : Codec α) : Prop where
  rt : ∀ v, c.de (c.ser v) = some v
  json : ∀ v, c.de (toJson (c.ser v)) = some v ↔ JsonSafe (c.ser v)

theorem Lossless.opt {α : Type} {c : Codec α} (h : Lossless c) : LosslessOpt c := ⟨h.rt, h.json⟩

theorem plain_of_rt {α : Type} {c : Codec α} (h : ∀ v, c.de (c.ser v) = some v)
    (hp : ∀ v, toJson (c.ser v) = c.ser v) (v : α) :
    c.de (toJson (c.ser v)) = some v ↔ JsonSafe (c.ser v) := by
  rw [hp, h]; exact ⟨fun _ => hp v, fun _ => rfl⟩

theorem bool_ll : Lossless cBool :=
  ⟨fun _ => rfl, fun _ h => (by cases h), plain_of_rt (fun _ => rfl) (fun _ => (by simp only [cBool, toJson]))⟩

theorem str_ll : Lossless cStr :=
  ⟨fun _ => rfl, fun _ h => (by cases h), plain_of_rt (fun _ => rfl) (fun _ => (by simp only [cStr, toJson]))⟩

theorem unsigned_ll (w : Nat) : Lossless (cUnsigned w) := by
  have h : ∀ v, (cUnsigned w).de ((cUnsigned w).ser v) = some v := by
    intro v
    have := v.isLt
    show (if 0 ≤ (v.toNat : Int) ∧ (v.toNat : Int) < 2 ^ w then some (BitVec.ofInt w v.toNat) else none) = _
    rw [if_pos ⟨by omega, by exact_mod_cast this⟩]
    congr 1
    apply BitVec.eq_of_toNat_eq
    simp
  exact ⟨h, fun _ h => (by cases h), plain_of_rt h (fun _ => (by simp only [cUnsigned, toJson]))⟩

theorem signed_ll (w : Nat) : Lossless (cSigned w) := by
  have h : ∀ v, (cSigned w).de ((cSigned w).ser v) = some v := by
    intro v
    have h1 := BitVec.le_toInt v
    have h2 := BitVec.toInt_lt (x := v)
    show (if -(2 ^ (w - 1) : Int) ≤ v.toInt ∧ v.toInt < 2 ^ (w - 1) then some (BitVec.ofInt w v.toInt) else none) = _
    rw [if_pos ⟨h1, h2⟩, BitVec.ofInt_toInt]
  exact ⟨h, fun _ h => (by cases h), plain_of_rt h (fun _ => (by simp only [cSigned, toJson]))⟩

theorem u8_ll : Lossless cU8 := unsigned_ll 8
theorem i8_ll : Lossless cI8 := signed_ll 8
theorem u16_ll : Lossless cU16 := unsigned_ll 16
theorem u32_ll : Lossless cU32 := unsigned_ll 32
theorem i32_ll : Lossless cI32 := signed_ll 32

theorem f32_ll : Lossless cF32 := by
  refine ⟨fun _ => rfl, fun _ h => (by cases h), fun v => ?_⟩
  unfold JsonSafe
  by_cases hf : v.toNat / 2 ^ 23 % 256 = 255
  · have e : toJson (cF32.ser v) = .null := by
      simp only [cF32, toJson]; rw [if_pos hf]
    rw [e]
    constructor <;> intro h <;> cases h
  · have e : toJson (cF32.ser v) = cF32.ser v := by
      simp only [cF32, toJson]; rw [if_neg hf]
    rw [e]
    exact ⟨fun _ => rfl, fun _ => rfl⟩

theorem u64_rt (v : BitVec 64) : parseU64 (displayNat v.toNat) = some v := by
  have hd := decimal_display v.toNat
  obtain ⟨d, t, h1, h2⟩ := decimal_head hd
  have hp := (parseDigits_iff _ _).2 hd
  unfold parseU64
  rw [h2] at hp ⊢
  have hne := (digitOf_ne h1).1
  have hm : (match digitOf d :: t with
    | '+' :: rest => rest
    | _ => digitOf d :: t) = digitOf d :: t := by
    split
    · rename_i he; exact absurd (List.cons.inj he).1 hne
    · rfl
  show ((parseDigits (match digitOf d :: t with
    | '+' :: rest => rest
    | _ => digitOf d :: t)).bind _) = _
  rw [hm, hp]
  have := v.isLt
  simp [this]

theorem u64_ll : Lossless cU64Str :=
  ⟨u64_rt, fun _ h => (by cases h), plain_of_rt u64_rt (fun _ => (by simp only [cU64Str, toJson]))⟩

theorem i64_rt (v : BitVec 64) : parseI64 (displayInt v.toInt) = some v := by
  have h1 := BitVec.le_toInt v
  have h2 := BitVec.toInt_lt (x := v)
  simp only [Nat.reduceSub] at h1 h2
  unfold displayInt
  split
  · rename_i hneg
    have hp := (parseDigits_iff _ _).2 (decimal_display v.toInt.natAbs)
    show ((parseDigits (displayNat v.toInt.natAbs)).bind _) = _
    rw [hp]
    simp only [Option.bind_some]
    rw [if_pos (by omega)]
    congr 1
    rw [show (-(v.toInt.natAbs : Int)) = v.toInt by omega, BitVec.ofInt_toInt]
  · have hd := decimal_display v.toInt.natAbs
    obtain ⟨d, t, h3, h4⟩ := decimal_head hd
    have hp := (parseDigits_iff _ _).2 hd
    have hne := digitOf_ne h3
    unfold parseI64
    rw [h4] at hp ⊢
    split
    · rename_i he; exact absurd (List.cons.inj he).1 hne.2
    · rename_i he; exact absurd (List.cons.inj he).1 hne.1
    · rw [hp]
      simp only [Option.bind_some]
      rw [if_pos (by omega)]
      congr 1
      apply BitVec.eq_of_toInt_eq
      rw [BitVec.toInt_ofNat', Int.bmod_eq_of_le (by omega) (by omega)]
      omega

theorem i64_ll : Lossless cI64Str :=
  ⟨i64_rt, fun _ h => (by cases h), plain_of_rt i64_rt (fun _ => (by simp only [cI64Str, toJson]))⟩

theorem deAll_iff {α : Type} {c : Codec α} (hc : LosslessOpt c) (xs : List α) :
    deAll c.de (toJsons (xs.map c.ser)) = some xs ↔ toJsons (xs.map c.ser) = xs.map c.ser := by
  induction xs with
  | nil => simp [deAll, toJsons]
  | cons x xs ih =>
    simp only [List.map_cons, toJsons, deAll, List.cons.injEq]
    rw [← ih, ← show c.de (toJson (c.ser x)) = some x ↔ toJson (c.ser x) = c.ser x from hc.json x]
    simp only [Option.bind_eq_bind, Option.bind_eq_some_iff, Option.some.injEq, List.cons.injEq]
    constructor
    · rintro ⟨a, h1, b, h2, rfl, rfl⟩; exact ⟨h1, h2⟩
    · rintro ⟨h1, h2⟩; exact ⟨x, h1, xs, h2, rfl, rfl⟩

theorem deAll_rt {α : Type} {c : Codec α} (hc : LosslessOpt c) (xs : List α) :
    deAll c.de (xs.map c.ser) = some xs := by
  induction xs with
  | nil => rfl
  | cons x xs ih => simp [deAll, hc.rt, ih]

theorem list_ll {α : Type} {c : Codec α} (hc : LosslessOpt c) : Lossless (cList c) := by
  refine ⟨deAll_rt hc, fun _ h => (by cases h), fun v => ?_⟩
  unfold JsonSafe cList
  simp only [toJson, SVal.seq.injEq]
  exact deAll_iff hc v

theorem option_ll {α : Type} {c : Codec α} (hc : Lossless c) : LosslessOpt (cOption c) := by
  have hs : ∀ j, j ≠ SVal.null → (cOption c).de j = (c.de j).map some := by
    intro j hj
    unfold cOption
    cases j <;> first | exact absurd rfl hj | rfl
  constructor
  · intro v
    cases v with
    | none => rfl
    | some x =>
      show (cOption c).de (c.ser x) = _
      rw [hs _ (hc.nonnull x), hc.rt]; rfl
  · intro v
    cases v with
    | none =>
      show (cOption c).de (toJson .null) = _ ↔ toJson .null = .null
      simp only [toJson]
      exact ⟨fun _ => trivial, fun _ => rfl⟩
    | some x =>
      show (cOption c).de (toJson (c.ser x)) = _ ↔ JsonSafe (c.ser x)
      by_cases hn : toJson (c.ser x) = .null
      · rw [hn]
        constructor
        · intro h
          have h : some none = some (some x) := h
          cases h
        · intro h
          unfold JsonSafe at h
          rw [hn] at h
          exact absurd h.symm (hc.nonnull x)
      · rw [hs _ hn, ← hc.json]
        simp

theorem array3_ll {α : Type} {c : Codec α} (hc : LosslessOpt c) : Lossless (cArray3 c) := by
  refine ⟨fun v => ?_, fun _ h => (by cases h), fun v => ?_⟩
  · simp [cArray3, hc.rt]
  · obtain ⟨a, b, d⟩ := v
    unfold JsonSafe cArray3
    simp only [toJson, toJsons, SVal.seq.injEq, List.cons.injEq, and_true]
    have ha := hc.json a
    have hb := hc.json b
    have hd := hc.json d
    unfold JsonSafe at ha hb hd
    rw [← ha, ← hb, ← hd]
    simp only [Option.bind_eq_bind, Option.bind_eq_some_iff, Option.some.injEq, Prod.mk.injEq]
    constructor
    · rintro ⟨x, h1, y, h2, z, h3, rfl, rfl, rfl⟩; exact ⟨h1, h2, h3⟩
    · rintro ⟨h1, h2, h3⟩; exact ⟨_, h1, _, h2, _, h3, rfl, rfl, rfl⟩

theorem field_cons {α : Type} (name k : String) (c : Codec α) (x : SVal)
    (kvs : List (String × SVal)) :
    field name c (.map ((k, x) :: kvs)) = if name = k then c.de x else field name c (.map kvs) := by
  unfold field
  simp only [List.lookup_cons]
  by_cases h : name = k
  · subst h; simp
  · have : (name == k) = false := by simpa using h
    rw [if_neg h]; simp only [this]

theorem element_get {α : Type} {c : Codec α} {i n : Nat} {xs : List SVal} {x : SVal}
    (h : xs[i]? = some x) (hn : xs.length = n) : element i n c (.seq xs) = c.de x := by
  unfold element
  simp only [hn, if_true, h, Option.bind_some]

/-! ### Generated -/

set_option linter.unusedSimpArgs false
set_option maxRecDepth 100000

theorem Vector3f_ll : Lossless cVector3f := by
  refine ⟨fun v => ?_, fun _ h => (by cases h), fun v => ?_⟩
  · simp only [cVector3f, field_cons, String.reduceEq, if_true, if_false, Option.bind_eq_bind, Option.bind_some, f32_ll.rt]
  · unfold JsonSafe cVector3f
    simp only [toJson, toJsonFields, SVal.map.injEq, List.cons.injEq, Prod.mk.injEq, true_and, and_true]
    have h0 := f32_ll.json v.x
    have h1 := f32_ll.json v.y
    have h2 := f32_ll.json v.z
    unfold JsonSafe at h0 h1 h2
    rw [← h0, ← h1, ← h2]
    simp only [field_cons, String.reduceEq, if_true, if_false, Option.bind_eq_bind, Option.bind_eq_some_iff, Option.bind_some, Option.some.injEq]
    constructor
    · rintro ⟨a0, g0, a1, g1, a2, g2, rfl⟩; exact ⟨g0, g1, g2⟩
    · rintro ⟨g0, g1, g2⟩; exact ⟨_, g0, _, g1, _, g2, rfl⟩

theorem Vector3i_ll : Lossless cVector3i := by
  refine ⟨fun v => ?_, fun _ h => (by cases h), fun v => ?_⟩
  · simp only [cVector3i, field_cons, String.reduceEq, if_true, if_false, Option.bind_eq_bind, Option.bind_some, i32_ll.rt]
  · unfold JsonSafe cVector3i
    simp only [toJson, toJsonFields, SVal.map.injEq, List.cons.injEq, Prod.mk.injEq, true_and, and_true]
    have h0 := i32_ll.json v.x
    have h1 := i32_ll.json v.y
    have h2 := i32_ll.json v.z
    unfold JsonSafe at h0 h1 h2
    rw [← h0, ← h1, ← h2]
    simp only [field_cons, String.reduceEq, if_true, if_false, Option.bind_eq_bind, Option.bind_eq_some_iff, Option.bind_some, Option.some.injEq]
    constructor
    · rintro ⟨a0, g0, a1, g1, a2, g2, rfl⟩; exact ⟨g0, g1, g2⟩
    · rintro ⟨g0, g1, g2⟩; exact ⟨_, g0, _, g1, _, g2, rfl⟩

theorem Quaternion_ll : Lossless cQuaternion := by
  refine ⟨fun v => ?_, fun _ h => (by cases h), fun v => ?_⟩
  · simp only [cQuaternion, field_cons, String.reduceEq, if_true, if_false, Option.bind_eq_bind, Option.bind_some, f32_ll.rt]
  · unfold JsonSafe cQuaternion
    simp only [toJson, toJsonFields, SVal.map.injEq, List.cons.injEq, Prod.mk.injEq, true_and, and_true]
    have h0 := f32_ll.json v.x
    have h1 := f32_ll.json v.y
    have h2 := f32_ll.json v.z
    have h3 := f32_ll.json v.w
    unfold JsonSafe at h0 h1 h2 h3
    rw [← h0, ← h1, ← h2, ← h3]
    simp only [field_cons, String.reduceEq, if_true, if_false, Option.bind_eq_bind, Option.bind_eq_some_iff, Option.bind_some, Option.some.injEq]
    constructor
    · rintro ⟨a0, g0, a1, g1, a2, g2, a3, g3, rfl⟩; exact ⟨g0, g1, g2, g3⟩
    · rintro ⟨g0, g1, g2, g3⟩; exact ⟨_, g0, _, g1, _, g2, _, g3, rfl⟩

theorem Rotation_ll : Lossless cRotation := by
  refine ⟨fun v => ?_, fun _ h => (by cases h), fun v => ?_⟩
  · simp only [cRotation, field_cons, String.reduceEq, if_true, if_false, Option.bind_eq_bind, Option.bind_some, (option_ll i8_ll).rt]
  · unfold JsonSafe cRotation
    simp only [toJson, toJsonFields, SVal.map.injEq, List.cons.injEq, Prod.mk.injEq, true_and, and_true]
    have h0 := (option_ll i8_ll).json v.yaw
    have h1 := (option_ll i8_ll).json v.pitch
    have h2 := (option_ll i8_ll).json v.roll
    unfold JsonSafe at h0 h1 h2
    rw [← h0, ← h1, ← h2]
    simp only [field_cons, String.reduceEq, if_true, if_false, Option.bind_eq_bind, Option.bind_eq_some_iff, Option.bind_some, Option.some.injEq]
    constructor
    · rintro ⟨a0, g0, a1, g1, a2, g2, rfl⟩; exact ⟨g0, g1, g2⟩
    · rintro ⟨g0, g1, g2⟩; exact ⟨_, g0, _, g1, _, g2, rfl⟩

theorem Trajectory_ll : Lossless cTrajectory := by
  refine ⟨fun v => ?_, fun _ h => (by cases h), fun v => ?_⟩
  · simp only [cTrajectory, field_cons, String.reduceEq, if_true, if_false, Option.bind_eq_bind, Option.bind_some, (option_ll Rotation_ll).rt, (option_ll Vector3i_ll).rt]
  · unfold JsonSafe cTrajectory
    simp only [toJson, toJsonFields, SVal.map.injEq, List.cons.injEq, Prod.mk.injEq, true_and, and_true]
    have h0 := (option_ll Vector3i_ll).json v.location
    have h1 := (option_ll Rotation_ll).json v.rotation
    unfold JsonSafe at h0 h1
    rw [← h0, ← h1]
    simp only [field_cons, String.reduceEq, if_true, if_false, Option.bind_eq_bind, Option.bind_eq_some_iff, Option.bind_some, Option.some.injEq]
    constructor
    · rintro ⟨a0, g0, a1, g1, rfl⟩; exact ⟨g0, g1⟩
    · rintro ⟨g0, g1⟩; exact ⟨_, g0, _, g1, rfl⟩

theorem NewActor_ll : Lossless cNewActor := by
  refine ⟨fun v => ?_, fun _ h => (by cases h), fun v => ?_⟩
  · simp only [cNewActor, field_cons, String.reduceEq, if_true, if_false, Option.bind_eq_bind, Option.bind_some, (option_ll i32_ll).rt, Trajectory_ll.rt, i32_ll.rt]
  · unfold JsonSafe cNewActor
    simp only [toJson, toJsonFields, SVal.map.injEq, List.cons.injEq, Prod.mk.injEq, true_and, and_true]
    have h0 := i32_ll.json v.actorId
    have h1 := (option_ll i32_ll).json v.nameId
    have h2 := i32_ll.json v.objectId
    have h3 := Trajectory_ll.json v.initialTrajectory
    unfold JsonSafe at h0 h1 h2 h3
    rw [← h0, ← h1, ← h2, ← h3]
    simp only [field_cons, String.reduceEq, if_true, if_false, Option.bind_eq_bind, Option.bind_eq_some_iff, Option.bind_some, Option.some.injEq]
    constructor
    · rintro ⟨a0, g0, a1, g1, a2, g2, a3, g3, rfl⟩; exact ⟨g0, g1, g2, g3⟩
    · rintro ⟨g0, g1, g2, g3⟩; exact ⟨_, g0, _, g1, _, g2, _, g3, rfl⟩

theorem ActiveActor_ll : Lossless cActiveActor := by
  refine ⟨fun v => ?_, fun _ h => (by cases h), fun v => ?_⟩
  · simp only [cActiveActor, field_cons, String.reduceEq, if_true, if_false, Option.bind_eq_bind, Option.bind_some, bool_ll.rt, i32_ll.rt]
  · unfold JsonSafe cActiveActor
    simp only [toJson, toJsonFields, SVal.map.injEq, List.cons.injEq, Prod.mk.injEq, true_and, and_true]
    have h0 := bool_ll.json v.active
    have h1 := i32_ll.json v.actor
    unfold JsonSafe at h0 h1
    rw [← h0, ← h1]
    simp only [field_cons, String.reduceEq, if_true, if_false, Option.bind_eq_bind, Option.bind_eq_some_iff, Option.bind_some, Option.some.injEq]
    constructor
    · rintro ⟨a0, g0, a1, g1, rfl⟩; exact ⟨g0, g1⟩
    · rintro ⟨g0, g1⟩; exact ⟨_, g0, _, g1, rfl⟩

theorem CamSettings_ll : Lossless cCamSettings := by
  refine ⟨fun v => ?_, fun _ h => (by cases h), fun v => ?_⟩
  · simp only [cCamSettings, field_cons, String.reduceEq, if_true, if_false, Option.bind_eq_bind, Option.bind_some, (option_ll f32_ll).rt, f32_ll.rt]
  · unfold JsonSafe cCamSettings
    simp only [toJson, toJsonFields, SVal.map.injEq, List.cons.injEq, Prod.mk.injEq, true_and, and_true]
    have h0 := f32_ll.json v.fov
    have h1 := f32_ll.json v.height
    have h2 := f32_ll.json v.angle
    have h3 := f32_ll.json v.distance
    have h4 := f32_ll.json v.stiffness
    have h5 := f32_ll.json v.swivel
    have h6 := (option_ll f32_ll).json v.transition
    unfold JsonSafe at h0 h1 h2 h3 h4 h5 h6
    rw [← h0, ← h1, ← h2, ← h3, ← h4, ← h5, ← h6]
    simp only [field_cons, String.reduceEq, if_true, if_false, Option.bind_eq_bind, Option.bind_eq_some_iff, Option.bind_some, Option.some.injEq]
    constructor
    · rintro ⟨a0, g0, a1, g1, a2, g2, a3, g3, a4, g4, a5, g5, a6, g6, rfl⟩; exact ⟨g0, g1, g2, g3, g4, g5, g6⟩
    · rintro ⟨g0, g1, g2, g3, g4, g5, g6⟩; exact ⟨_, g0, _, g1, _, g2, _, g3, _, g4, _, g5, _, g6, rfl⟩

theorem ClubColors_ll : Lossless cClubColors := by
  refine ⟨fun v => ?_, fun _ h => (by cases h), fun v => ?_⟩
  · simp only [cClubColors, field_cons, String.reduceEq, if_true, if_false, Option.bind_eq_bind, Option.bind_some, bool_ll.rt, u8_ll.rt]
  · unfold JsonSafe cClubColors
    simp only [toJson, toJsonFields, SVal.map.injEq, List.cons.injEq, Prod.mk.injEq, true_and, and_true]
    have h0 := bool_ll.json v.blueFlag
    have h1 := u8_ll.json v.blueColor
    have h2 := bool_ll.json v.orangeFlag
    have h3 := u8_ll.json v.orangeColor
    unfold JsonSafe at h0 h1 h2 h3
    rw [← h0, ← h1, ← h2, ← h3]
    simp only [field_cons, String.reduceEq, if_true, if_false, Option.bind_eq_bind, Option.bind_eq_some_iff, Option.bind_some, Option.some.injEq]
    constructor
    · rintro ⟨a0, g0, a1, g1, a2, g2, a3, g3, rfl⟩; exact ⟨g0, g1, g2, g3⟩
    · rintro ⟨g0, g1, g2, g3⟩; exact ⟨_, g0, _, g1, _, g2, _, g3, rfl⟩

theorem AppliedDamage_ll : Lossless cAppliedDamage := by
  refine ⟨fun v => ?_, fun _ h => (by cases h), fun v => ?_⟩
  · simp only [cAppliedDamage, field_cons, String.reduceEq, if_true, if_false, Option.bind_eq_bind, Option.bind_some, Vector3f_ll.rt, i32_ll.rt, u8_ll.rt]
  · unfold JsonSafe cAppliedDamage
    simp only [toJson, toJsonFields, SVal.map.injEq, List.cons.injEq, Prod.mk.injEq, true_and, and_true]
    have h0 := u8_ll.json v.id
    have h1 := Vector3f_ll.json v.position
    have h2 := i32_ll.json v.damageIndex
    have h3 := i32_ll.json v.totalDamage
    unfold JsonSafe at h0 h1 h2 h3
    rw [← h0, ← h1, ← h2, ← h3]
    simp only [field_cons, String.reduceEq, if_true, if_false, Option.bind_eq_bind, Option.bind_eq_some_iff, Option.bind_some, Option.some.injEq]
    constructor
    · rintro ⟨a0, g0, a1, g1, a2, g2, a3, g3, rfl⟩; exact ⟨g0, g1, g2, g3⟩
    · rintro ⟨g0, g1, g2, g3⟩; exact ⟨_, g0, _, g1, _, g2, _, g3, rfl⟩

theorem DamageState_ll : Lossless cDamageState := by
  refine ⟨fun v => ?_, fun _ h => (by cases h), fun v => ?_⟩
  · simp only [cDamageState, field_cons, String.reduceEq, if_true, if_false, Option.bind_eq_bind, Option.bind_some, Vector3f_ll.rt, bool_ll.rt, i32_ll.rt, u8_ll.rt]
  · unfold JsonSafe cDamageState
    simp only [toJson, toJsonFields, SVal.map.injEq, List.cons.injEq, Prod.mk.injEq, true_and, and_true]
    have h0 := u8_ll.json v.tileState
    have h1 := bool_ll.json v.damaged
    have h2 := i32_ll.json v.offender
    have h3 := Vector3f_ll.json v.ballPosition
    have h4 := bool_ll.json v.directHit
    have h5 := bool_ll.json v.unknown1
    unfold JsonSafe at h0 h1 h2 h3 h4 h5
    rw [← h0, ← h1, ← h2, ← h3, ← h4, ← h5]
    simp only [field_cons, String.reduceEq, if_true, if_false, Option.bind_eq_bind, Option.bind_eq_some_iff, Option.bind_some, Option.some.injEq]
    constructor
    · rintro ⟨a0, g0, a1, g1, a2, g2, a3, g3, a4, g4, a5, g5, rfl⟩; exact ⟨g0, g1, g2, g3, g4, g5⟩
    · rintro ⟨g0, g1, g2, g3, g4, g5⟩; exact ⟨_, g0, _, g1, _, g2, _, g3, _, g4, _, g5, rfl⟩

theorem Demolish_ll : Lossless cDemolish := by
  refine ⟨fun v => ?_, fun _ h => (by cases h), fun v => ?_⟩
  · simp only [cDemolish, field_cons, String.reduceEq, if_true, if_false, Option.bind_eq_bind, Option.bind_some, Vector3f_ll.rt, bool_ll.rt, i32_ll.rt]
  · unfold JsonSafe cDemolish
    simp only [toJson, toJsonFields, SVal.map.injEq, List.cons.injEq, Prod.mk.injEq, true_and, and_true]
    have h0 := bool_ll.json v.attackerFlag
    have h1 := i32_ll.json v.attacker
    have h2 := bool_ll.json v.victimFlag
    have h3 := i32_ll.json v.victim
    have h4 := Vector3f_ll.json v.attackVelocity
    have h5 := Vector3f_ll.json v.victimVelocity
    unfold JsonSafe at h0 h1 h2 h3 h4 h5
    rw [← h0, ← h1, ← h2, ← h3, ← h4, ← h5]
    simp only [field_cons, String.reduceEq, if_true, if_false, Option.bind_eq_bind, Option.bind_eq_some_iff, Option.bind_some, Option.some.injEq]
    constructor
    · rintro ⟨a0, g0, a1, g1, a2, g2, a3, g3, a4, g4, a5, g5, rfl⟩; exact ⟨g0, g1, g2, g3, g4, g5⟩
    · rintro ⟨g0, g1, g2, g3, g4, g5⟩; exact ⟨_, g0, _, g1, _, g2, _, g3, _, g4, _, g5, rfl⟩

theorem DemolishExtended_ll : Lossless cDemolishExtended := by
  refine ⟨fun v => ?_, fun _ h => (by cases h), fun v => ?_⟩
  · simp only [cDemolishExtended, field_cons, String.reduceEq, if_true, if_false, Option.bind_eq_bind, Option.bind_some, ActiveActor_ll.rt, Vector3f_ll.rt, bool_ll.rt]
  · unfold JsonSafe cDemolishExtended
    simp only [toJson, toJsonFields, SVal.map.injEq, List.cons.injEq, Prod.mk.injEq, true_and, and_true]
    have h0 := ActiveActor_ll.json v.attackerPri
    have h1 := ActiveActor_ll.json v.selfDemo
    have h2 := bool_ll.json v.selfDemolish
    have h3 := ActiveActor_ll.json v.goalExplosionOwner
    have h4 := ActiveActor_ll.json v.attacker
    have h5 := ActiveActor_ll.json v.victim
    have h6 := Vector3f_ll.json v.attackerVelocity
    have h7 := Vector3f_ll.json v.victimVelocity
    unfold JsonSafe at h0 h1 h2 h3 h4 h5 h6 h7
    rw [← h0, ← h1, ← h2, ← h3, ← h4, ← h5, ← h6, ← h7]
    simp only [field_cons, String.reduceEq, if_true, if_false, Option.bind_eq_bind, Option.bind_eq_some_iff, Option.bind_some, Option.some.injEq]
    constructor
    · rintro ⟨a0, g0, a1, g1, a2, g2, a3, g3, a4, g4, a5, g5, a6, g6, a7, g7, rfl⟩; exact ⟨g0, g1, g2, g3, g4, g5, g6, g7⟩
    · rintro ⟨g0, g1, g2, g3, g4, g5, g6, g7⟩; exact ⟨_, g0, _, g1, _, g2, _, g3, _, g4, _, g5, _, g6, _, g7, rfl⟩

theorem DemolishFx_ll : Lossless cDemolishFx := by
  refine ⟨fun v => ?_, fun _ h => (by cases h), fun v => ?_⟩
  · simp only [cDemolishFx, field_cons, String.reduceEq, if_true, if_false, Option.bind_eq_bind, Option.bind_some, Vector3f_ll.rt, bool_ll.rt, i32_ll.rt]
  · unfold JsonSafe cDemolishFx
    simp only [toJson, toJsonFields, SVal.map.injEq, List.cons.injEq, Prod.mk.injEq, true_and, and_true]
    have h0 := bool_ll.json v.customDemoFlag
    have h1 := i32_ll.json v.customDemoId
    have h2 := bool_ll.json v.attackerFlag
    have h3 := i32_ll.json v.attacker
    have h4 := bool_ll.json v.victimFlag
    have h5 := i32_ll.json v.victim
    have h6 := Vector3f_ll.json v.attackVelocity
    have h7 := Vector3f_ll.json v.victimVelocity
    unfold JsonSafe at h0 h1 h2 h3 h4 h5 h6 h7
    rw [← h0, ← h1, ← h2, ← h3, ← h4, ← h5, ← h6, ← h7]
    simp only [field_cons, String.reduceEq, if_true, if_false, Option.bind_eq_bind, Option.bind_eq_some_iff, Option.bind_some, Option.some.injEq]
    constructor
    · rintro ⟨a0, g0, a1, g1, a2, g2, a3, g3, a4, g4, a5, g5, a6, g6, a7, g7, rfl⟩; exact ⟨g0, g1, g2, g3, g4, g5, g6, g7⟩
    · rintro ⟨g0, g1, g2, g3, g4, g5, g6, g7⟩; exact ⟨_, g0, _, g1, _, g2, _, g3, _, g4, _, g5, _, g6, _, g7, rfl⟩

theorem Explosion_ll : Lossless cExplosion := by
  refine ⟨fun v => ?_, fun _ h => (by cases h), fun v => ?_⟩
  · simp only [cExplosion, field_cons, String.reduceEq, if_true, if_false, Option.bind_eq_bind, Option.bind_some, Vector3f_ll.rt, bool_ll.rt, i32_ll.rt]
  · unfold JsonSafe cExplosion
    simp only [toJson, toJsonFields, SVal.map.injEq, List.cons.injEq, Prod.mk.injEq, true_and, and_true]
    have h0 := bool_ll.json v.flag
    have h1 := i32_ll.json v.actor
    have h2 := Vector3f_ll.json v.location
    unfold JsonSafe at h0 h1 h2
    rw [← h0, ← h1, ← h2]
    simp only [field_cons, String.reduceEq, if_true, if_false, Option.bind_eq_bind, Option.bind_eq_some_iff, Option.bind_some, Option.some.injEq]
    constructor
    · rintro ⟨a0, g0, a1, g1, a2, g2, rfl⟩; exact ⟨g0, g1, g2⟩
    · rintro ⟨g0, g1, g2⟩; exact ⟨_, g0, _, g1, _, g2, rfl⟩

theorem ExtendedExplosion_ll : Lossless cExtendedExplosion := by
  refine ⟨fun v => ?_, fun _ h => (by cases h), fun v => ?_⟩
  · simp only [cExtendedExplosion, field_cons, String.reduceEq, if_true, if_false, Option.bind_eq_bind, Option.bind_some, Explosion_ll.rt, bool_ll.rt, i32_ll.rt]
  · unfold JsonSafe cExtendedExplosion
    simp only [toJson, toJsonFields, SVal.map.injEq, List.cons.injEq, Prod.mk.injEq, true_and, and_true]
    have h0 := Explosion_ll.json v.explosion
    have h1 := bool_ll.json v.unknown1
    have h2 := i32_ll.json v.secondaryActor
    unfold JsonSafe at h0 h1 h2
    rw [← h0, ← h1, ← h2]
    simp only [field_cons, String.reduceEq, if_true, if_false, Option.bind_eq_bind, Option.bind_eq_some_iff, Option.bind_some, Option.some.injEq]
    constructor
    · rintro ⟨a0, g0, a1, g1, a2, g2, rfl⟩; exact ⟨g0, g1, g2⟩
    · rintro ⟨g0, g1, g2⟩; exact ⟨_, g0, _, g1, _, g2, rfl⟩

theorem Loadout_ll : Lossless cLoadout := by
  refine ⟨fun v => ?_, fun _ h => (by cases h), fun v => ?_⟩
  · simp only [cLoadout, field_cons, String.reduceEq, if_true, if_false, Option.bind_eq_bind, Option.bind_some, (option_ll u32_ll).rt, u32_ll.rt, u8_ll.rt]
  · unfold JsonSafe cLoadout
    simp only [toJson, toJsonFields, SVal.map.injEq, List.cons.injEq, Prod.mk.injEq, true_and, and_true]
    have h0 := u8_ll.json v.version
    have h1 := u32_ll.json v.body
    have h2 := u32_ll.json v.decal
    have h3 := u32_ll.json v.wheels
    have h4 := u32_ll.json v.rocketTrail
    have h5 := u32_ll.json v.antenna
    have h6 := u32_ll.json v.topper
    have h7 := u32_ll.json v.unknown1
    have h8 := (option_ll u32_ll).json v.unknown2
    have h9 := (option_ll u32_ll).json v.engineAudio
    have h10 := (option_ll u32_ll).json v.trail
    have h11 := (option_ll u32_ll).json v.goalExplosion
    have h12 := (option_ll u32_ll).json v.banner
    have h13 := (option_ll u32_ll).json v.productId
    unfold JsonSafe at h0 h1 h2 h3 h4 h5 h6 h7 h8 h9 h10 h11 h12 h13
    rw [← h0, ← h1, ← h2, ← h3, ← h4, ← h5, ← h6, ← h7, ← h8, ← h9, ← h10, ← h11, ← h12, ← h13]
    simp only [field_cons, String.reduceEq, if_true, if_false, Option.bind_eq_bind, Option.bind_eq_some_iff, Option.bind_some, Option.some.injEq]
    constructor
    · rintro ⟨a0, g0, a1, g1, a2, g2, a3, g3, a4, g4, a5, g5, a6, g6, a7, g7, a8, g8, a9, g9, a10, g10, a11, g11, a12, g12, a13, g13, rfl⟩; exact ⟨g0, g1, g2, g3, g4, g5, g6, g7, g8, g9, g10, g11, g12, g13⟩
    · rintro ⟨g0, g1, g2, g3, g4, g5, g6, g7, g8, g9, g10, g11, g12, g13⟩; exact ⟨_, g0, _, g1, _, g2, _, g3, _, g4, _, g5, _, g6, _, g7, _, g8, _, g9, _, g10, _, g11, _, g12, _, g13, rfl⟩

theorem TeamLoadout_ll : Lossless cTeamLoadout := by
  refine ⟨fun v => ?_, fun _ h => (by cases h), fun v => ?_⟩
  · simp only [cTeamLoadout, field_cons, String.reduceEq, if_true, if_false, Option.bind_eq_bind, Option.bind_some, Loadout_ll.rt]
  · unfold JsonSafe cTeamLoadout
    simp only [toJson, toJsonFields, SVal.map.injEq, List.cons.injEq, Prod.mk.injEq, true_and, and_true]
    have h0 := Loadout_ll.json v.blue
    have h1 := Loadout_ll.json v.orange
    unfold JsonSafe at h0 h1
    rw [← h0, ← h1]
    simp only [field_cons, String.reduceEq, if_true, if_false, Option.bind_eq_bind, Option.bind_eq_some_iff, Option.bind_some, Option.some.injEq]
    constructor
    · rintro ⟨a0, g0, a1, g1, rfl⟩; exact ⟨g0, g1⟩
    · rintro ⟨g0, g1⟩; exact ⟨_, g0, _, g1, rfl⟩

theorem StatEvent_ll : Lossless cStatEvent := by
  refine ⟨fun v => ?_, fun _ h => (by cases h), fun v => ?_⟩
  · simp only [cStatEvent, field_cons, String.reduceEq, if_true, if_false, Option.bind_eq_bind, Option.bind_some, bool_ll.rt, i32_ll.rt]
  · unfold JsonSafe cStatEvent
    simp only [toJson, toJsonFields, SVal.map.injEq, List.cons.injEq, Prod.mk.injEq, true_and, and_true]
    have h0 := bool_ll.json v.unknown1
    have h1 := i32_ll.json v.objectId
    unfold JsonSafe at h0 h1
    rw [← h0, ← h1]
    simp only [field_cons, String.reduceEq, if_true, if_false, Option.bind_eq_bind, Option.bind_eq_some_iff, Option.bind_some, Option.some.injEq]
    constructor
    · rintro ⟨a0, g0, a1, g1, rfl⟩; exact ⟨g0, g1⟩
    · rintro ⟨g0, g1⟩; exact ⟨_, g0, _, g1, rfl⟩

theorem MusicStinger_ll : Lossless cMusicStinger := by
  refine ⟨fun v => ?_, fun _ h => (by cases h), fun v => ?_⟩
  · simp only [cMusicStinger, field_cons, String.reduceEq, if_true, if_false, Option.bind_eq_bind, Option.bind_some, bool_ll.rt, u32_ll.rt, u8_ll.rt]
  · unfold JsonSafe cMusicStinger
    simp only [toJson, toJsonFields, SVal.map.injEq, List.cons.injEq, Prod.mk.injEq, true_and, and_true]
    have h0 := bool_ll.json v.flag
    have h1 := u32_ll.json v.cue
    have h2 := u8_ll.json v.trigger
    unfold JsonSafe at h0 h1 h2
    rw [← h0, ← h1, ← h2]
    simp only [field_cons, String.reduceEq, if_true, if_false, Option.bind_eq_bind, Option.bind_eq_some_iff, Option.bind_some, Option.some.injEq]
    constructor
    · rintro ⟨a0, g0, a1, g1, a2, g2, rfl⟩; exact ⟨g0, g1, g2⟩
    · rintro ⟨g0, g1, g2⟩; exact ⟨_, g0, _, g1, _, g2, rfl⟩

theorem Pickup_ll : Lossless cPickup := by
  refine ⟨fun v => ?_, fun _ h => (by cases h), fun v => ?_⟩
  · simp only [cPickup, field_cons, String.reduceEq, if_true, if_false, Option.bind_eq_bind, Option.bind_some, (option_ll i32_ll).rt, bool_ll.rt]
  · unfold JsonSafe cPickup
    simp only [toJson, toJsonFields, SVal.map.injEq, List.cons.injEq, Prod.mk.injEq, true_and, and_true]
    have h0 := (option_ll i32_ll).json v.instigator
    have h1 := bool_ll.json v.pickedUp
    unfold JsonSafe at h0 h1
    rw [← h0, ← h1]
    simp only [field_cons, String.reduceEq, if_true, if_false, Option.bind_eq_bind, Option.bind_eq_some_iff, Option.bind_some, Option.some.injEq]
    constructor
    · rintro ⟨a0, g0, a1, g1, rfl⟩; exact ⟨g0, g1⟩
    · rintro ⟨g0, g1⟩; exact ⟨_, g0, _, g1, rfl⟩

theorem PickupNew_ll : Lossless cPickupNew := by
  refine ⟨fun v => ?_, fun _ h => (by cases h), fun v => ?_⟩
  · simp only [cPickupNew, field_cons, String.reduceEq, if_true, if_false, Option.bind_eq_bind, Option.bind_some, (option_ll i32_ll).rt, u8_ll.rt]
  · unfold JsonSafe cPickupNew
    simp only [toJson, toJsonFields, SVal.map.injEq, List.cons.injEq, Prod.mk.injEq, true_and, and_true]
    have h0 := (option_ll i32_ll).json v.instigator
    have h1 := u8_ll.json v.pickedUp
    unfold JsonSafe at h0 h1
    rw [← h0, ← h1]
    simp only [field_cons, String.reduceEq, if_true, if_false, Option.bind_eq_bind, Option.bind_eq_some_iff, Option.bind_some, Option.some.injEq]
    constructor
    · rintro ⟨a0, g0, a1, g1, rfl⟩; exact ⟨g0, g1⟩
    · rintro ⟨g0, g1⟩; exact ⟨_, g0, _, g1, rfl⟩

theorem Welded_ll : Lossless cWelded := by
  refine ⟨fun v => ?_, fun _ h => (by cases h), fun v => ?_⟩
  · simp only [cWelded, field_cons, String.reduceEq, if_true, if_false, Option.bind_eq_bind, Option.bind_some, Rotation_ll.rt, Vector3f_ll.rt, bool_ll.rt, f32_ll.rt, i32_ll.rt]
  · unfold JsonSafe cWelded
    simp only [toJson, toJsonFields, SVal.map.injEq, List.cons.injEq, Prod.mk.injEq, true_and, and_true]
    have h0 := bool_ll.json v.active
    have h1 := i32_ll.json v.actor
    have h2 := Vector3f_ll.json v.offset
    have h3 := f32_ll.json v.mass
    have h4 := Rotation_ll.json v.rotation
    unfold JsonSafe at h0 h1 h2 h3 h4
    rw [← h0, ← h1, ← h2, ← h3, ← h4]
    simp only [field_cons, String.reduceEq, if_true, if_false, Option.bind_eq_bind, Option.bind_eq_some_iff, Option.bind_some, Option.some.injEq]
    constructor
    · rintro ⟨a0, g0, a1, g1, a2, g2, a3, g3, a4, g4, rfl⟩; exact ⟨g0, g1, g2, g3, g4⟩
    · rintro ⟨g0, g1, g2, g3, g4⟩; exact ⟨_, g0, _, g1, _, g2, _, g3, _, g4, rfl⟩

theorem TeamPaint_ll : Lossless cTeamPaint := by
  refine ⟨fun v => ?_, fun _ h => (by cases h), fun v => ?_⟩
  · simp only [cTeamPaint, field_cons, String.reduceEq, if_true, if_false, Option.bind_eq_bind, Option.bind_some, u32_ll.rt, u8_ll.rt]
  · unfold JsonSafe cTeamPaint
    simp only [toJson, toJsonFields, SVal.map.injEq, List.cons.injEq, Prod.mk.injEq, true_and, and_true]
    have h0 := u8_ll.json v.team
    have h1 := u8_ll.json v.primaryColor
    have h2 := u8_ll.json v.accentColor
    have h3 := u32_ll.json v.primaryFinish
    have h4 := u32_ll.json v.accentFinish
    unfold JsonSafe at h0 h1 h2 h3 h4
    rw [← h0, ← h1, ← h2, ← h3, ← h4]
    simp only [field_cons, String.reduceEq, if_true, if_false, Option.bind_eq_bind, Option.bind_eq_some_iff, Option.bind_some, Option.some.injEq]
    constructor
    · rintro ⟨a0, g0, a1, g1, a2, g2, a3, g3, a4, g4, rfl⟩; exact ⟨g0, g1, g2, g3, g4⟩
    · rintro ⟨g0, g1, g2, g3, g4⟩; exact ⟨_, g0, _, g1, _, g2, _, g3, _, g4, rfl⟩

theorem RigidBody_ll : Lossless cRigidBody := by
  refine ⟨fun v => ?_, fun _ h => (by cases h), fun v => ?_⟩
  · simp only [cRigidBody, field_cons, String.reduceEq, if_true, if_false, Option.bind_eq_bind, Option.bind_some, (option_ll Vector3f_ll).rt, Quaternion_ll.rt, Vector3f_ll.rt, bool_ll.rt]
  · unfold JsonSafe cRigidBody
    simp only [toJson, toJsonFields, SVal.map.injEq, List.cons.injEq, Prod.mk.injEq, true_and, and_true]
    have h0 := bool_ll.json v.sleeping
    have h1 := Vector3f_ll.json v.location
    have h2 := Quaternion_ll.json v.rotation
    have h3 := (option_ll Vector3f_ll).json v.linearVelocity
    have h4 := (option_ll Vector3f_ll).json v.angularVelocity
    unfold JsonSafe at h0 h1 h2 h3 h4
    rw [← h0, ← h1, ← h2, ← h3, ← h4]
    simp only [field_cons, String.reduceEq, if_true, if_false, Option.bind_eq_bind, Option.bind_eq_some_iff, Option.bind_some, Option.some.injEq]
    constructor
    · rintro ⟨a0, g0, a1, g1, a2, g2, a3, g3, a4, g4, rfl⟩; exact ⟨g0, g1, g2, g3, g4⟩
    · rintro ⟨g0, g1, g2, g3, g4⟩; exact ⟨_, g0, _, g1, _, g2, _, g3, _, g4, rfl⟩

theorem RemoteId_de_playStation (j : SVal) : cRemoteId.de (.variant "PlayStation" j) = (do
    let x0 ← field "online_id" cU64Str j
    let x1 ← field "name" cStr j
    let x2 ← field "unknown1" (cList cU8) j
    some (.playStation x0 x1 x2)) := by
  simp only [cRemoteId, String.reduceEq, if_true, if_false]

theorem RemoteId_de_psyNet (j : SVal) : cRemoteId.de (.variant "PsyNet" j) = (do
    let x0 ← field "online_id" cU64Str j
    let x1 ← field "unknown1" (cList cU8) j
    some (.psyNet x0 x1)) := by
  simp only [cRemoteId, String.reduceEq, if_true, if_false]

theorem RemoteId_de_splitScreen (j : SVal) : cRemoteId.de (.variant "SplitScreen" j) = (cU32.de j).map .splitScreen := by
  simp only [cRemoteId, String.reduceEq, if_true, if_false]

theorem RemoteId_de_steam (j : SVal) : cRemoteId.de (.variant "Steam" j) = (cU64Str.de j).map .steam := by
  simp only [cRemoteId, String.reduceEq, if_true, if_false]

theorem RemoteId_de_switch (j : SVal) : cRemoteId.de (.variant "Switch" j) = (do
    let x0 ← field "online_id" cU64Str j
    let x1 ← field "unknown1" (cList cU8) j
    some (.switch x0 x1)) := by
  simp only [cRemoteId, String.reduceEq, if_true, if_false]

theorem RemoteId_de_xbox (j : SVal) : cRemoteId.de (.variant "Xbox" j) = (cU64Str.de j).map .xbox := by
  simp only [cRemoteId, String.reduceEq, if_true, if_false]

theorem RemoteId_de_qq (j : SVal) : cRemoteId.de (.variant "QQ" j) = (cU64Str.de j).map .qq := by
  simp only [cRemoteId, String.reduceEq, if_true, if_false]

theorem RemoteId_de_epic (j : SVal) : cRemoteId.de (.variant "Epic" j) = (cStr.de j).map .epic := by
  simp only [cRemoteId, String.reduceEq, if_true, if_false]

theorem RemoteId_rt (v : RemoteId) : cRemoteId.de (cRemoteId.ser v) = some v := by
  · cases v with
    | playStation x0 x1 x2 =>
      rw [show cRemoteId.ser (.playStation x0 x1 x2) = .variant "PlayStation" (.map [("online_id", cU64Str.ser x0), ("name", cStr.ser x1), ("unknown1", (cList cU8).ser x2)]) from rfl, RemoteId_de_playStation]
      simp only [field_cons, element, String.reduceEq, if_true, if_false, Option.bind_eq_bind, Option.bind_some, List.length_cons, List.length_nil, Nat.reduceAdd, List.getElem?_cons_zero, List.getElem?_cons_succ, (list_ll u8_ll.opt).rt, str_ll.rt, u64_ll.rt]
    | psyNet x0 x1 =>
      rw [show cRemoteId.ser (.psyNet x0 x1) = .variant "PsyNet" (.map [("online_id", cU64Str.ser x0), ("unknown1", (cList cU8).ser x1)]) from rfl, RemoteId_de_psyNet]
      simp only [field_cons, element, String.reduceEq, if_true, if_false, Option.bind_eq_bind, Option.bind_some, List.length_cons, List.length_nil, Nat.reduceAdd, List.getElem?_cons_zero, List.getElem?_cons_succ, (list_ll u8_ll.opt).rt, u64_ll.rt]
    | splitScreen x =>
      rw [show cRemoteId.ser (.splitScreen x) = .variant "SplitScreen" (cU32.ser x) from rfl, RemoteId_de_splitScreen, u32_ll.rt]
      rfl
    | steam x =>
      rw [show cRemoteId.ser (.steam x) = .variant "Steam" (cU64Str.ser x) from rfl, RemoteId_de_steam, u64_ll.rt]
      rfl
    | switch x0 x1 =>
      rw [show cRemoteId.ser (.switch x0 x1) = .variant "Switch" (.map [("online_id", cU64Str.ser x0), ("unknown1", (cList cU8).ser x1)]) from rfl, RemoteId_de_switch]
      simp only [field_cons, element, String.reduceEq, if_true, if_false, Option.bind_eq_bind, Option.bind_some, List.length_cons, List.length_nil, Nat.reduceAdd, List.getElem?_cons_zero, List.getElem?_cons_succ, (list_ll u8_ll.opt).rt, u64_ll.rt]
    | xbox x =>
      rw [show cRemoteId.ser (.xbox x) = .variant "Xbox" (cU64Str.ser x) from rfl, RemoteId_de_xbox, u64_ll.rt]
      rfl
    | qq x =>
      rw [show cRemoteId.ser (.qq x) = .variant "QQ" (cU64Str.ser x) from rfl, RemoteId_de_qq, u64_ll.rt]
      rfl
    | epic x =>
      rw [show cRemoteId.ser (.epic x) = .variant "Epic" (cStr.ser x) from rfl, RemoteId_de_epic, str_ll.rt]
      rfl

theorem RemoteId_nonnull (v : RemoteId) : cRemoteId.ser v ≠ .null := by
  cases v <;> exact SVal.noConfusion

theorem RemoteId_json (v : RemoteId) : cRemoteId.de (toJson (cRemoteId.ser v)) = some v ↔ toJson (cRemoteId.ser v) = cRemoteId.ser v := by
  · cases v with
    | playStation x0 x1 x2 =>
      have h0 := u64_ll.json x0
      have h1 := str_ll.json x1
      have h2 := (list_ll u8_ll.opt).json x2
      unfold JsonSafe at h0 h1 h2
      rw [show cRemoteId.ser (.playStation x0 x1 x2) = .variant "PlayStation" (.map [("online_id", cU64Str.ser x0), ("name", cStr.ser x1), ("unknown1", (cList cU8).ser x2)]) from rfl]
      simp only [toJson, toJsons, toJsonFields, SVal.variant.injEq, SVal.map.injEq, SVal.seq.injEq, List.cons.injEq, Prod.mk.injEq, true_and, and_true]
      rw [← h0, ← h1, ← h2, RemoteId_de_playStation]
      simp only [field_cons, element, String.reduceEq, List.length_cons, List.length_nil, Nat.reduceAdd, List.getElem?_cons_zero, List.getElem?_cons_succ, if_true, if_false, Option.bind_eq_bind, Option.bind_eq_some_iff, Option.bind_some, Option.some.injEq]
      constructor
      · rintro ⟨a0, g0, a1, g1, a2, g2, e⟩; cases e; exact ⟨g0, g1, g2⟩
      · rintro ⟨g0, g1, g2⟩; exact ⟨_, g0, _, g1, _, g2, rfl⟩
    | psyNet x0 x1 =>
      have h0 := u64_ll.json x0
      have h1 := (list_ll u8_ll.opt).json x1
      unfold JsonSafe at h0 h1
      rw [show cRemoteId.ser (.psyNet x0 x1) = .variant "PsyNet" (.map [("online_id", cU64Str.ser x0), ("unknown1", (cList cU8).ser x1)]) from rfl]
      simp only [toJson, toJsons, toJsonFields, SVal.variant.injEq, SVal.map.injEq, SVal.seq.injEq, List.cons.injEq, Prod.mk.injEq, true_and, and_true]
      rw [← h0, ← h1, RemoteId_de_psyNet]
      simp only [field_cons, element, String.reduceEq, List.length_cons, List.length_nil, Nat.reduceAdd, List.getElem?_cons_zero, List.getElem?_cons_succ, if_true, if_false, Option.bind_eq_bind, Option.bind_eq_some_iff, Option.bind_some, Option.some.injEq]
      constructor
      · rintro ⟨a0, g0, a1, g1, e⟩; cases e; exact ⟨g0, g1⟩
      · rintro ⟨g0, g1⟩; exact ⟨_, g0, _, g1, rfl⟩
    | splitScreen x =>
      have h := u32_ll.json x
      unfold JsonSafe at h
      rw [show cRemoteId.ser (.splitScreen x) = .variant "SplitScreen" (cU32.ser x) from rfl]
      simp only [toJson, SVal.variant.injEq, true_and]
      rw [← h, RemoteId_de_splitScreen]
      simp only [Option.map_eq_some_iff, RemoteId.splitScreen.injEq, exists_eq_right]
    | steam x =>
      have h := u64_ll.json x
      unfold JsonSafe at h
      rw [show cRemoteId.ser (.steam x) = .variant "Steam" (cU64Str.ser x) from rfl]
      simp only [toJson, SVal.variant.injEq, true_and]
      rw [← h, RemoteId_de_steam]
      simp only [Option.map_eq_some_iff, RemoteId.steam.injEq, exists_eq_right]
    | switch x0 x1 =>
      have h0 := u64_ll.json x0
      have h1 := (list_ll u8_ll.opt).json x1
      unfold JsonSafe at h0 h1
      rw [show cRemoteId.ser (.switch x0 x1) = .variant "Switch" (.map [("online_id", cU64Str.ser x0), ("unknown1", (cList cU8).ser x1)]) from rfl]
      simp only [toJson, toJsons, toJsonFields, SVal.variant.injEq, SVal.map.injEq, SVal.seq.injEq, List.cons.injEq, Prod.mk.injEq, true_and, and_true]
      rw [← h0, ← h1, RemoteId_de_switch]
      simp only [field_cons, element, String.reduceEq, List.length_cons, List.length_nil, Nat.reduceAdd, List.getElem?_cons_zero, List.getElem?_cons_succ, if_true, if_false, Option.bind_eq_bind, Option.bind_eq_some_iff, Option.bind_some, Option.some.injEq]
      constructor
      · rintro ⟨a0, g0, a1, g1, e⟩; cases e; exact ⟨g0, g1⟩
      · rintro ⟨g0, g1⟩; exact ⟨_, g0, _, g1, rfl⟩
    | xbox x =>
      have h := u64_ll.json x
      unfold JsonSafe at h
      rw [show cRemoteId.ser (.xbox x) = .variant "Xbox" (cU64Str.ser x) from rfl]
      simp only [toJson, SVal.variant.injEq, true_and]
      rw [← h, RemoteId_de_xbox]
      simp only [Option.map_eq_some_iff, RemoteId.xbox.injEq, exists_eq_right]
    | qq x =>
      have h := u64_ll.json x
      unfold JsonSafe at h
      rw [show cRemoteId.ser (.qq x) = .variant "QQ" (cU64Str.ser x) from rfl]
      simp only [toJson, SVal.variant.injEq, true_and]
      rw [← h, RemoteId_de_qq]
      simp only [Option.map_eq_some_iff, RemoteId.qq.injEq, exists_eq_right]
    | epic x =>
      have h := str_ll.json x
      unfold JsonSafe at h
      rw [show cRemoteId.ser (.epic x) = .variant "Epic" (cStr.ser x) from rfl]
      simp only [toJson, SVal.variant.injEq, true_and]
      rw [← h, RemoteId_de_epic]
      simp only [Option.map_eq_some_iff, RemoteId.epic.injEq, exists_eq_right]

theorem RemoteId_ll : Lossless cRemoteId := ⟨RemoteId_rt, RemoteId_nonnull, RemoteId_json⟩

theorem UniqueId_ll : Lossless cUniqueId := by
  refine ⟨fun v => ?_, fun _ h => (by cases h), fun v => ?_⟩
  · simp only [cUniqueId, field_cons, String.reduceEq, if_true, if_false, Option.bind_eq_bind, Option.bind_some, RemoteId_ll.rt, u8_ll.rt]
  · unfold JsonSafe cUniqueId
    simp only [toJson, toJsonFields, SVal.map.injEq, List.cons.injEq, Prod.mk.injEq, true_and, and_true]
    have h0 := u8_ll.json v.systemId
    have h1 := RemoteId_ll.json v.remoteId
    have h2 := u8_ll.json v.localId
    unfold JsonSafe at h0 h1 h2
    rw [← h0, ← h1, ← h2]
    simp only [field_cons, String.reduceEq, if_true, if_false, Option.bind_eq_bind, Option.bind_eq_some_iff, Option.bind_some, Option.some.injEq]
    constructor
    · rintro ⟨a0, g0, a1, g1, a2, g2, rfl⟩; exact ⟨g0, g1, g2⟩
    · rintro ⟨g0, g1, g2⟩; exact ⟨_, g0, _, g1, _, g2, rfl⟩

theorem Reservation_ll : Lossless cReservation := by
  refine ⟨fun v => ?_, fun _ h => (by cases h), fun v => ?_⟩
  · simp only [cReservation, field_cons, String.reduceEq, if_true, if_false, Option.bind_eq_bind, Option.bind_some, (option_ll str_ll).rt, (option_ll u8_ll).rt, UniqueId_ll.rt, bool_ll.rt, u32_ll.rt]
  · unfold JsonSafe cReservation
    simp only [toJson, toJsonFields, SVal.map.injEq, List.cons.injEq, Prod.mk.injEq, true_and, and_true]
    have h0 := u32_ll.json v.number
    have h1 := UniqueId_ll.json v.uniqueId
    have h2 := (option_ll str_ll).json v.name
    have h3 := bool_ll.json v.unknown1
    have h4 := bool_ll.json v.unknown2
    have h5 := (option_ll u8_ll).json v.unknown3
    unfold JsonSafe at h0 h1 h2 h3 h4 h5
    rw [← h0, ← h1, ← h2, ← h3, ← h4, ← h5]
    simp only [field_cons, String.reduceEq, if_true, if_false, Option.bind_eq_bind, Option.bind_eq_some_iff, Option.bind_some, Option.some.injEq]
    constructor
    · rintro ⟨a0, g0, a1, g1, a2, g2, a3, g3, a4, g4, a5, g5, rfl⟩; exact ⟨g0, g1, g2, g3, g4, g5⟩
    · rintro ⟨g0, g1, g2, g3, g4, g5⟩; exact ⟨_, g0, _, g1, _, g2, _, g3, _, g4, _, g5, rfl⟩

theorem PrivateMatchSettings_ll : Lossless cPrivateMatchSettings := by
  refine ⟨fun v => ?_, fun _ h => (by cases h), fun v => ?_⟩
  · simp only [cPrivateMatchSettings, field_cons, String.reduceEq, if_true, if_false, Option.bind_eq_bind, Option.bind_some, bool_ll.rt, str_ll.rt, u32_ll.rt]
  · unfold JsonSafe cPrivateMatchSettings
    simp only [toJson, toJsonFields, SVal.map.injEq, List.cons.injEq, Prod.mk.injEq, true_and, and_true]
    have h0 := str_ll.json v.mutators
    have h1 := u32_ll.json v.joinableBy
    have h2 := u32_ll.json v.maxPlayers
    have h3 := str_ll.json v.gameName
    have h4 := str_ll.json v.password
    have h5 := bool_ll.json v.flag
    unfold JsonSafe at h0 h1 h2 h3 h4 h5
    rw [← h0, ← h1, ← h2, ← h3, ← h4, ← h5]
    simp only [field_cons, String.reduceEq, if_true, if_false, Option.bind_eq_bind, Option.bind_eq_some_iff, Option.bind_some, Option.some.injEq]
    constructor
    · rintro ⟨a0, g0, a1, g1, a2, g2, a3, g3, a4, g4, a5, g5, rfl⟩; exact ⟨g0, g1, g2, g3, g4, g5⟩
    · rintro ⟨g0, g1, g2, g3, g4, g5⟩; exact ⟨_, g0, _, g1, _, g2, _, g3, _, g4, _, g5, rfl⟩

theorem ProductValue_de_noColor : cProductValue.de (.unitVariant "NoColor") = some .noColor := by
  simp only [cProductValue, String.reduceEq, if_true, if_false]

theorem ProductValue_de_absent : cProductValue.de (.unitVariant "Absent") = some .absent := by
  simp only [cProductValue, String.reduceEq, if_true, if_false]

theorem ProductValue_de_oldColor (j : SVal) : cProductValue.de (.variant "OldColor" j) = (cU32.de j).map .oldColor := by
  simp only [cProductValue, String.reduceEq, if_true, if_false]

theorem ProductValue_de_newColor (j : SVal) : cProductValue.de (.variant "NewColor" j) = (cU32.de j).map .newColor := by
  simp only [cProductValue, String.reduceEq, if_true, if_false]

theorem ProductValue_de_oldPaint (j : SVal) : cProductValue.de (.variant "OldPaint" j) = (cU32.de j).map .oldPaint := by
  simp only [cProductValue, String.reduceEq, if_true, if_false]

theorem ProductValue_de_newPaint (j : SVal) : cProductValue.de (.variant "NewPaint" j) = (cU32.de j).map .newPaint := by
  simp only [cProductValue, String.reduceEq, if_true, if_false]

theorem ProductValue_de_title (j : SVal) : cProductValue.de (.variant "Title" j) = (cStr.de j).map .title := by
  simp only [cProductValue, String.reduceEq, if_true, if_false]

theorem ProductValue_de_specialEdition (j : SVal) : cProductValue.de (.variant "SpecialEdition" j) = (cU32.de j).map .specialEdition := by
  simp only [cProductValue, String.reduceEq, if_true, if_false]

theorem ProductValue_de_oldTeamEdition (j : SVal) : cProductValue.de (.variant "OldTeamEdition" j) = (cU32.de j).map .oldTeamEdition := by
  simp only [cProductValue, String.reduceEq, if_true, if_false]

theorem ProductValue_de_newTeamEdition (j : SVal) : cProductValue.de (.variant "NewTeamEdition" j) = (cU32.de j).map .newTeamEdition := by
  simp only [cProductValue, String.reduceEq, if_true, if_false]

theorem ProductValue_rt (v : ProductValue) : cProductValue.de (cProductValue.ser v) = some v := by
  · cases v with
    | noColor => rw [show cProductValue.ser .noColor = .unitVariant "NoColor" from rfl, ProductValue_de_noColor]
    | absent => rw [show cProductValue.ser .absent = .unitVariant "Absent" from rfl, ProductValue_de_absent]
    | oldColor x =>
      rw [show cProductValue.ser (.oldColor x) = .variant "OldColor" (cU32.ser x) from rfl, ProductValue_de_oldColor, u32_ll.rt]
      rfl
    | newColor x =>
      rw [show cProductValue.ser (.newColor x) = .variant "NewColor" (cU32.ser x) from rfl, ProductValue_de_newColor, u32_ll.rt]
      rfl
    | oldPaint x =>
      rw [show cProductValue.ser (.oldPaint x) = .variant "OldPaint" (cU32.ser x) from rfl, ProductValue_de_oldPaint, u32_ll.rt]
      rfl
    | newPaint x =>
      rw [show cProductValue.ser (.newPaint x) = .variant "NewPaint" (cU32.ser x) from rfl, ProductValue_de_newPaint, u32_ll.rt]
      rfl
    | title x =>
      rw [show cProductValue.ser (.title x) = .variant "Title" (cStr.ser x) from rfl, ProductValue_de_title, str_ll.rt]
      rfl
    | specialEdition x =>
      rw [show cProductValue.ser (.specialEdition x) = .variant "SpecialEdition" (cU32.ser x) from rfl, ProductValue_de_specialEdition, u32_ll.rt]
      rfl
    | oldTeamEdition x =>
      rw [show cProductValue.ser (.oldTeamEdition x) = .variant "OldTeamEdition" (cU32.ser x) from rfl, ProductValue_de_oldTeamEdition, u32_ll.rt]
      rfl
    | newTeamEdition x =>
      rw [show cProductValue.ser (.newTeamEdition x) = .variant "NewTeamEdition" (cU32.ser x) from rfl, ProductValue_de_newTeamEdition, u32_ll.rt]
      rfl

theorem ProductValue_nonnull (v : ProductValue) : cProductValue.ser v ≠ .null := by
  cases v <;> exact SVal.noConfusion

theorem ProductValue_json (v : ProductValue) : cProductValue.de (toJson (cProductValue.ser v)) = some v ↔ toJson (cProductValue.ser v) = cProductValue.ser v := by
  · cases v with
    | noColor =>
      have e : toJson (cProductValue.ser .noColor) = .unitVariant "NoColor" := by
        simp only [show cProductValue.ser .noColor = .unitVariant "NoColor" from rfl, toJson]
      rw [e, ProductValue_de_noColor]
      exact ⟨fun _ => rfl, fun _ => rfl⟩
    | absent =>
      have e : toJson (cProductValue.ser .absent) = .unitVariant "Absent" := by
        simp only [show cProductValue.ser .absent = .unitVariant "Absent" from rfl, toJson]
      rw [e, ProductValue_de_absent]
      exact ⟨fun _ => rfl, fun _ => rfl⟩
    | oldColor x =>
      have h := u32_ll.json x
      unfold JsonSafe at h
      rw [show cProductValue.ser (.oldColor x) = .variant "OldColor" (cU32.ser x) from rfl]
      simp only [toJson, SVal.variant.injEq, true_and]
      rw [← h, ProductValue_de_oldColor]
      simp only [Option.map_eq_some_iff, ProductValue.oldColor.injEq, exists_eq_right]
    | newColor x =>
      have h := u32_ll.json x
      unfold JsonSafe at h
      rw [show cProductValue.ser (.newColor x) = .variant "NewColor" (cU32.ser x) from rfl]
      simp only [toJson, SVal.variant.injEq, true_and]
      rw [← h, ProductValue_de_newColor]
      simp only [Option.map_eq_some_iff, ProductValue.newColor.injEq, exists_eq_right]
    | oldPaint x =>
      have h := u32_ll.json x
      unfold JsonSafe at h
      rw [show cProductValue.ser (.oldPaint x) = .variant "OldPaint" (cU32.ser x) from rfl]
      simp only [toJson, SVal.variant.injEq, true_and]
      rw [← h, ProductValue_de_oldPaint]
      simp only [Option.map_eq_some_iff, ProductValue.oldPaint.injEq, exists_eq_right]
    | newPaint x =>
      have h := u32_ll.json x
      unfold JsonSafe at h
      rw [show cProductValue.ser (.newPaint x) = .variant "NewPaint" (cU32.ser x) from rfl]
      simp only [toJson, SVal.variant.injEq, true_and]
      rw [← h, ProductValue_de_newPaint]
      simp only [Option.map_eq_some_iff, ProductValue.newPaint.injEq, exists_eq_right]
    | title x =>
      have h := str_ll.json x
      unfold JsonSafe at h
      rw [show cProductValue.ser (.title x) = .variant "Title" (cStr.ser x) from rfl]
      simp only [toJson, SVal.variant.injEq, true_and]
      rw [← h, ProductValue_de_title]
      simp only [Option.map_eq_some_iff, ProductValue.title.injEq, exists_eq_right]
    | specialEdition x =>
      have h := u32_ll.json x
      unfold JsonSafe at h
      rw [show cProductValue.ser (.specialEdition x) = .variant "SpecialEdition" (cU32.ser x) from rfl]
      simp only [toJson, SVal.variant.injEq, true_and]
      rw [← h, ProductValue_de_specialEdition]
      simp only [Option.map_eq_some_iff, ProductValue.specialEdition.injEq, exists_eq_right]
    | oldTeamEdition x =>
      have h := u32_ll.json x
      unfold JsonSafe at h
      rw [show cProductValue.ser (.oldTeamEdition x) = .variant "OldTeamEdition" (cU32.ser x) from rfl]
      simp only [toJson, SVal.variant.injEq, true_and]
      rw [← h, ProductValue_de_oldTeamEdition]
      simp only [Option.map_eq_some_iff, ProductValue.oldTeamEdition.injEq, exists_eq_right]
    | newTeamEdition x =>
      have h := u32_ll.json x
      unfold JsonSafe at h
      rw [show cProductValue.ser (.newTeamEdition x) = .variant "NewTeamEdition" (cU32.ser x) from rfl]
      simp only [toJson, SVal.variant.injEq, true_and]
      rw [← h, ProductValue_de_newTeamEdition]
      simp only [Option.map_eq_some_iff, ProductValue.newTeamEdition.injEq, exists_eq_right]

theorem ProductValue_ll : Lossless cProductValue := ⟨ProductValue_rt, ProductValue_nonnull, ProductValue_json⟩

theorem Product_ll : Lossless cProduct := by
  refine ⟨fun v => ?_, fun _ h => (by cases h), fun v => ?_⟩
  · simp only [cProduct, field_cons, String.reduceEq, if_true, if_false, Option.bind_eq_bind, Option.bind_some, ProductValue_ll.rt, bool_ll.rt, i32_ll.rt]
  · unfold JsonSafe cProduct
    simp only [toJson, toJsonFields, SVal.map.injEq, List.cons.injEq, Prod.mk.injEq, true_and, and_true]
    have h0 := bool_ll.json v.unknown
    have h1 := i32_ll.json v.objectInd
    have h2 := ProductValue_ll.json v.value
    unfold JsonSafe at h0 h1 h2
    rw [← h0, ← h1, ← h2]
    simp only [field_cons, String.reduceEq, if_true, if_false, Option.bind_eq_bind, Option.bind_eq_some_iff, Option.bind_some, Option.some.injEq]
    constructor
    · rintro ⟨a0, g0, a1, g1, a2, g2, rfl⟩; exact ⟨g0, g1, g2⟩
    · rintro ⟨g0, g1, g2⟩; exact ⟨_, g0, _, g1, _, g2, rfl⟩

theorem LoadoutsOnline_ll : Lossless cLoadoutsOnline := by
  refine ⟨fun v => ?_, fun _ h => (by cases h), fun v => ?_⟩
  · simp only [cLoadoutsOnline, field_cons, String.reduceEq, if_true, if_false, Option.bind_eq_bind, Option.bind_some, (list_ll (list_ll Product_ll.opt).opt).rt, bool_ll.rt]
  · unfold JsonSafe cLoadoutsOnline
    simp only [toJson, toJsonFields, SVal.map.injEq, List.cons.injEq, Prod.mk.injEq, true_and, and_true]
    have h0 := (list_ll (list_ll Product_ll.opt).opt).json v.blue
    have h1 := (list_ll (list_ll Product_ll.opt).opt).json v.orange
    have h2 := bool_ll.json v.unknown1
    have h3 := bool_ll.json v.unknown2
    unfold JsonSafe at h0 h1 h2 h3
    rw [← h0, ← h1, ← h2, ← h3]
    simp only [field_cons, String.reduceEq, if_true, if_false, Option.bind_eq_bind, Option.bind_eq_some_iff, Option.bind_some, Option.some.injEq]
    constructor
    · rintro ⟨a0, g0, a1, g1, a2, g2, a3, g3, rfl⟩; exact ⟨g0, g1, g2, g3⟩
    · rintro ⟨g0, g1, g2, g3⟩; exact ⟨_, g0, _, g1, _, g2, _, g3, rfl⟩

theorem RepStatTitle_ll : Lossless cRepStatTitle := by
  refine ⟨fun v => ?_, fun _ h => (by cases h), fun v => ?_⟩
  · simp only [cRepStatTitle, field_cons, String.reduceEq, if_true, if_false, Option.bind_eq_bind, Option.bind_some, bool_ll.rt, str_ll.rt, u32_ll.rt]
  · unfold JsonSafe cRepStatTitle
    simp only [toJson, toJsonFields, SVal.map.injEq, List.cons.injEq, Prod.mk.injEq, true_and, and_true]
    have h0 := bool_ll.json v.unknown
    have h1 := str_ll.json v.name
    have h2 := bool_ll.json v.unknown2
    have h3 := u32_ll.json v.index
    have h4 := u32_ll.json v.value
    unfold JsonSafe at h0 h1 h2 h3 h4
    rw [← h0, ← h1, ← h2, ← h3, ← h4]
    simp only [field_cons, String.reduceEq, if_true, if_false, Option.bind_eq_bind, Option.bind_eq_some_iff, Option.bind_some, Option.some.injEq]
    constructor
    · rintro ⟨a0, g0, a1, g1, a2, g2, a3, g3, a4, g4, rfl⟩; exact ⟨g0, g1, g2, g3, g4⟩
    · rintro ⟨g0, g1, g2, g3, g4⟩; exact ⟨_, g0, _, g1, _, g2, _, g3, _, g4, rfl⟩

theorem PickupInfo_ll : Lossless cPickupInfo := by
  refine ⟨fun v => ?_, fun _ h => (by cases h), fun v => ?_⟩
  · simp only [cPickupInfo, field_cons, String.reduceEq, if_true, if_false, Option.bind_eq_bind, Option.bind_some, (array3_ll ActiveActor_ll.opt).rt, bool_ll.rt]
  · unfold JsonSafe cPickupInfo
    simp only [toJson, toJsonFields, SVal.map.injEq, List.cons.injEq, Prod.mk.injEq, true_and, and_true]
    have h0 := (array3_ll ActiveActor_ll.opt).json v.availablePickups
    have h1 := bool_ll.json v.itemsArePreview
    unfold JsonSafe at h0 h1
    rw [← h0, ← h1]
    simp only [field_cons, String.reduceEq, if_true, if_false, Option.bind_eq_bind, Option.bind_eq_some_iff, Option.bind_some, Option.some.injEq]
    constructor
    · rintro ⟨a0, g0, a1, g1, rfl⟩; exact ⟨g0, g1⟩
    · rintro ⟨g0, g1⟩; exact ⟨_, g0, _, g1, rfl⟩

theorem Impulse_ll : Lossless cImpulse := by
  refine ⟨fun v => ?_, fun _ h => (by cases h), fun v => ?_⟩
  · simp only [cImpulse, field_cons, String.reduceEq, if_true, if_false, Option.bind_eq_bind, Option.bind_some, f32_ll.rt, i32_ll.rt]
  · unfold JsonSafe cImpulse
    simp only [toJson, toJsonFields, SVal.map.injEq, List.cons.injEq, Prod.mk.injEq, true_and, and_true]
    have h0 := i32_ll.json v.compressedRotation
    have h1 := f32_ll.json v.speed
    unfold JsonSafe at h0 h1
    rw [← h0, ← h1]
    simp only [field_cons, String.reduceEq, if_true, if_false, Option.bind_eq_bind, Option.bind_eq_some_iff, Option.bind_some, Option.some.injEq]
    constructor
    · rintro ⟨a0, g0, a1, g1, rfl⟩; exact ⟨g0, g1⟩
    · rintro ⟨g0, g1⟩; exact ⟨_, g0, _, g1, rfl⟩

theorem ReplicatedBoost_ll : Lossless cReplicatedBoost := by
  refine ⟨fun v => ?_, fun _ h => (by cases h), fun v => ?_⟩
  · simp only [cReplicatedBoost, field_cons, String.reduceEq, if_true, if_false, Option.bind_eq_bind, Option.bind_some, u8_ll.rt]
  · unfold JsonSafe cReplicatedBoost
    simp only [toJson, toJsonFields, SVal.map.injEq, List.cons.injEq, Prod.mk.injEq, true_and, and_true]
    have h0 := u8_ll.json v.grantCount
    have h1 := u8_ll.json v.boostAmount
    have h2 := u8_ll.json v.unused1
    have h3 := u8_ll.json v.unused2
    unfold JsonSafe at h0 h1 h2 h3
    rw [← h0, ← h1, ← h2, ← h3]
    simp only [field_cons, String.reduceEq, if_true, if_false, Option.bind_eq_bind, Option.bind_eq_some_iff, Option.bind_some, Option.some.injEq]
    constructor
    · rintro ⟨a0, g0, a1, g1, a2, g2, a3, g3, rfl⟩; exact ⟨g0, g1, g2, g3⟩
    · rintro ⟨g0, g1, g2, g3⟩; exact ⟨_, g0, _, g1, _, g2, _, g3, rfl⟩

theorem LogoData_ll : Lossless cLogoData := by
  refine ⟨fun v => ?_, fun _ h => (by cases h), fun v => ?_⟩
  · simp only [cLogoData, field_cons, String.reduceEq, if_true, if_false, Option.bind_eq_bind, Option.bind_some, bool_ll.rt, u32_ll.rt]
  · unfold JsonSafe cLogoData
    simp only [toJson, toJsonFields, SVal.map.injEq, List.cons.injEq, Prod.mk.injEq, true_and, and_true]
    have h0 := u32_ll.json v.logoId
    have h1 := bool_ll.json v.swapColors
    unfold JsonSafe at h0 h1
    rw [← h0, ← h1]
    simp only [field_cons, String.reduceEq, if_true, if_false, Option.bind_eq_bind, Option.bind_eq_some_iff, Option.bind_some, Option.some.injEq]
    constructor
    · rintro ⟨a0, g0, a1, g1, rfl⟩; exact ⟨g0, g1⟩
    · rintro ⟨g0, g1⟩; exact ⟨_, g0, _, g1, rfl⟩

theorem Attribute_de_boolean (j : SVal) : cAttribute.de (.variant "Boolean" j) = (cBool.de j).map .boolean := by
  simp only [cAttribute, String.reduceEq, if_true, if_false]

theorem Attribute_de_byte (j : SVal) : cAttribute.de (.variant "Byte" j) = (cU8.de j).map .byte := by
  simp only [cAttribute, String.reduceEq, if_true, if_false]

theorem Attribute_de_appliedDamage (j : SVal) : cAttribute.de (.variant "AppliedDamage" j) = (cAppliedDamage.de j).map .appliedDamage := by
  simp only [cAttribute, String.reduceEq, if_true, if_false]

theorem Attribute_de_damageState (j : SVal) : cAttribute.de (.variant "DamageState" j) = (cDamageState.de j).map .damageState := by
  simp only [cAttribute, String.reduceEq, if_true, if_false]

theorem Attribute_de_camSettings (j : SVal) : cAttribute.de (.variant "CamSettings" j) = (cCamSettings.de j).map .camSettings := by
  simp only [cAttribute, String.reduceEq, if_true, if_false]

theorem Attribute_de_clubColors (j : SVal) : cAttribute.de (.variant "ClubColors" j) = (cClubColors.de j).map .clubColors := by
  simp only [cAttribute, String.reduceEq, if_true, if_false]

theorem Attribute_de_demolish (j : SVal) : cAttribute.de (.variant "Demolish" j) = (cDemolish.de j).map .demolish := by
  simp only [cAttribute, String.reduceEq, if_true, if_false]

theorem Attribute_de_demolishExtended (j : SVal) : cAttribute.de (.variant "DemolishExtended" j) = (cDemolishExtended.de j).map .demolishExtended := by
  simp only [cAttribute, String.reduceEq, if_true, if_false]

theorem Attribute_de_demolishFx (j : SVal) : cAttribute.de (.variant "DemolishFx" j) = (cDemolishFx.de j).map .demolishFx := by
  simp only [cAttribute, String.reduceEq, if_true, if_false]

theorem Attribute_de_enum (j : SVal) : cAttribute.de (.variant "Enum" j) = (cU16.de j).map .enum := by
  simp only [cAttribute, String.reduceEq, if_true, if_false]

theorem Attribute_de_explosion (j : SVal) : cAttribute.de (.variant "Explosion" j) = (cExplosion.de j).map .explosion := by
  simp only [cAttribute, String.reduceEq, if_true, if_false]

theorem Attribute_de_extendedExplosion (j : SVal) : cAttribute.de (.variant "ExtendedExplosion" j) = (cExtendedExplosion.de j).map .extendedExplosion := by
  simp only [cAttribute, String.reduceEq, if_true, if_false]

theorem Attribute_de_flaggedByte (j : SVal) : cAttribute.de (.variant "FlaggedByte" j) = (do
    let x0 ← element 0 2 cBool j
    let x1 ← element 1 2 cU8 j
    some (.flaggedByte x0 x1)) := by
  simp only [cAttribute, String.reduceEq, if_true, if_false]

theorem Attribute_de_activeActor (j : SVal) : cAttribute.de (.variant "ActiveActor" j) = (cActiveActor.de j).map .activeActor := by
  simp only [cAttribute, String.reduceEq, if_true, if_false]

theorem Attribute_de_float (j : SVal) : cAttribute.de (.variant "Float" j) = (cF32.de j).map .float := by
  simp only [cAttribute, String.reduceEq, if_true, if_false]

theorem Attribute_de_gameMode (j : SVal) : cAttribute.de (.variant "GameMode" j) = (do
    let x0 ← element 0 2 cU8 j
    let x1 ← element 1 2 cU8 j
    some (.gameMode x0 x1)) := by
  simp only [cAttribute, String.reduceEq, if_true, if_false]

theorem Attribute_de_int (j : SVal) : cAttribute.de (.variant "Int" j) = (cI32.de j).map .int := by
  simp only [cAttribute, String.reduceEq, if_true, if_false]

theorem Attribute_de_int64 (j : SVal) : cAttribute.de (.variant "Int64" j) = (cI64Str.de j).map .int64 := by
  simp only [cAttribute, String.reduceEq, if_true, if_false]

theorem Attribute_de_loadout (j : SVal) : cAttribute.de (.variant "Loadout" j) = (cLoadout.de j).map .loadout := by
  simp only [cAttribute, String.reduceEq, if_true, if_false]

theorem Attribute_de_teamLoadout (j : SVal) : cAttribute.de (.variant "TeamLoadout" j) = (cTeamLoadout.de j).map .teamLoadout := by
  simp only [cAttribute, String.reduceEq, if_true, if_false]

theorem Attribute_de_location (j : SVal) : cAttribute.de (.variant "Location" j) = (cVector3f.de j).map .location := by
  simp only [cAttribute, String.reduceEq, if_true, if_false]

theorem Attribute_de_musicStinger (j : SVal) : cAttribute.de (.variant "MusicStinger" j) = (cMusicStinger.de j).map .musicStinger := by
  simp only [cAttribute, String.reduceEq, if_true, if_false]

theorem Attribute_de_playerHistoryKey (j : SVal) : cAttribute.de (.variant "PlayerHistoryKey" j) = (cU16.de j).map .playerHistoryKey := by
  simp only [cAttribute, String.reduceEq, if_true, if_false]

theorem Attribute_de_pickup (j : SVal) : cAttribute.de (.variant "Pickup" j) = (cPickup.de j).map .pickup := by
  simp only [cAttribute, String.reduceEq, if_true, if_false]

theorem Attribute_de_pickupNew (j : SVal) : cAttribute.de (.variant "PickupNew" j) = (cPickupNew.de j).map .pickupNew := by
  simp only [cAttribute, String.reduceEq, if_true, if_false]

theorem Attribute_de_qWord (j : SVal) : cAttribute.de (.variant "QWord" j) = (cU64Str.de j).map .qWord := by
  simp only [cAttribute, String.reduceEq, if_true, if_false]

theorem Attribute_de_welded (j : SVal) : cAttribute.de (.variant "Welded" j) = (cWelded.de j).map .welded := by
  simp only [cAttribute, String.reduceEq, if_true, if_false]

theorem Attribute_de_title (j : SVal) : cAttribute.de (.variant "Title" j) = (do
    let x0 ← element 0 8 cBool j
    let x1 ← element 1 8 cBool j
    let x2 ← element 2 8 cU32 j
    let x3 ← element 3 8 cU32 j
    let x4 ← element 4 8 cU32 j
    let x5 ← element 5 8 cU32 j
    let x6 ← element 6 8 cU32 j
    let x7 ← element 7 8 cBool j
    some (.title x0 x1 x2 x3 x4 x5 x6 x7)) := by
  simp only [cAttribute, String.reduceEq, if_true, if_false]

theorem Attribute_de_teamPaint (j : SVal) : cAttribute.de (.variant "TeamPaint" j) = (cTeamPaint.de j).map .teamPaint := by
  simp only [cAttribute, String.reduceEq, if_true, if_false]

theorem Attribute_de_rigidBody (j : SVal) : cAttribute.de (.variant "RigidBody" j) = (cRigidBody.de j).map .rigidBody := by
  simp only [cAttribute, String.reduceEq, if_true, if_false]

theorem Attribute_de_string (j : SVal) : cAttribute.de (.variant "String" j) = (cStr.de j).map .string := by
  simp only [cAttribute, String.reduceEq, if_true, if_false]

theorem Attribute_de_uniqueId (j : SVal) : cAttribute.de (.variant "UniqueId" j) = (cUniqueId.de j).map .uniqueId := by
  simp only [cAttribute, String.reduceEq, if_true, if_false]

theorem Attribute_de_reservation (j : SVal) : cAttribute.de (.variant "Reservation" j) = (cReservation.de j).map .reservation := by
  simp only [cAttribute, String.reduceEq, if_true, if_false]

theorem Attribute_de_partyLeader (j : SVal) : cAttribute.de (.variant "PartyLeader" j) = ((cOption cUniqueId).de j).map .partyLeader := by
  simp only [cAttribute, String.reduceEq, if_true, if_false]

theorem Attribute_de_privateMatch (j : SVal) : cAttribute.de (.variant "PrivateMatch" j) = (cPrivateMatchSettings.de j).map .privateMatch := by
  simp only [cAttribute, String.reduceEq, if_true, if_false]

theorem Attribute_de_loadoutOnline (j : SVal) : cAttribute.de (.variant "LoadoutOnline" j) = ((cList (cList cProduct)).de j).map .loadoutOnline := by
  simp only [cAttribute, String.reduceEq, if_true, if_false]

theorem Attribute_de_loadoutsOnline (j : SVal) : cAttribute.de (.variant "LoadoutsOnline" j) = (cLoadoutsOnline.de j).map .loadoutsOnline := by
  simp only [cAttribute, String.reduceEq, if_true, if_false]

theorem Attribute_de_statEvent (j : SVal) : cAttribute.de (.variant "StatEvent" j) = (cStatEvent.de j).map .statEvent := by
  simp only [cAttribute, String.reduceEq, if_true, if_false]

theorem Attribute_de_rotation (j : SVal) : cAttribute.de (.variant "Rotation" j) = (cRotation.de j).map .rotation := by
  simp only [cAttribute, String.reduceEq, if_true, if_false]

theorem Attribute_de_repStatTitle (j : SVal) : cAttribute.de (.variant "RepStatTitle" j) = (cRepStatTitle.de j).map .repStatTitle := by
  simp only [cAttribute, String.reduceEq, if_true, if_false]

theorem Attribute_de_pickupInfo (j : SVal) : cAttribute.de (.variant "PickupInfo" j) = (cPickupInfo.de j).map .pickupInfo := by
  simp only [cAttribute, String.reduceEq, if_true, if_false]

theorem Attribute_de_impulse (j : SVal) : cAttribute.de (.variant "Impulse" j) = (cImpulse.de j).map .impulse := by
  simp only [cAttribute, String.reduceEq, if_true, if_false]

theorem Attribute_de_replicatedBoost (j : SVal) : cAttribute.de (.variant "ReplicatedBoost" j) = (cReplicatedBoost.de j).map .replicatedBoost := by
  simp only [cAttribute, String.reduceEq, if_true, if_false]

theorem Attribute_de_logoData (j : SVal) : cAttribute.de (.variant "LogoData" j) = (cLogoData.de j).map .logoData := by
  simp only [cAttribute, String.reduceEq, if_true, if_false]

theorem Attribute_rt (v : Attribute) : cAttribute.de (cAttribute.ser v) = some v := by
  · cases v with
    | boolean x =>
      rw [show cAttribute.ser (.boolean x) = .variant "Boolean" (cBool.ser x) from rfl, Attribute_de_boolean, bool_ll.rt]
      rfl
    | byte x =>
      rw [show cAttribute.ser (.byte x) = .variant "Byte" (cU8.ser x) from rfl, Attribute_de_byte, u8_ll.rt]
      rfl
    | appliedDamage x =>
      rw [show cAttribute.ser (.appliedDamage x) = .variant "AppliedDamage" (cAppliedDamage.ser x) from rfl, Attribute_de_appliedDamage, AppliedDamage_ll.rt]
      rfl
    | damageState x =>
      rw [show cAttribute.ser (.damageState x) = .variant "DamageState" (cDamageState.ser x) from rfl, Attribute_de_damageState, DamageState_ll.rt]
      rfl
    | camSettings x =>
      rw [show cAttribute.ser (.camSettings x) = .variant "CamSettings" (cCamSettings.ser x) from rfl, Attribute_de_camSettings, CamSettings_ll.rt]
      rfl
    | clubColors x =>
      rw [show cAttribute.ser (.clubColors x) = .variant "ClubColors" (cClubColors.ser x) from rfl, Attribute_de_clubColors, ClubColors_ll.rt]
      rfl
    | demolish x =>
      rw [show cAttribute.ser (.demolish x) = .variant "Demolish" (cDemolish.ser x) from rfl, Attribute_de_demolish, Demolish_ll.rt]
      rfl
    | demolishExtended x =>
      rw [show cAttribute.ser (.demolishExtended x) = .variant "DemolishExtended" (cDemolishExtended.ser x) from rfl, Attribute_de_demolishExtended, DemolishExtended_ll.rt]
      rfl
    | demolishFx x =>
      rw [show cAttribute.ser (.demolishFx x) = .variant "DemolishFx" (cDemolishFx.ser x) from rfl, Attribute_de_demolishFx, DemolishFx_ll.rt]
      rfl
    | enum x =>
      rw [show cAttribute.ser (.enum x) = .variant "Enum" (cU16.ser x) from rfl, Attribute_de_enum, u16_ll.rt]
      rfl
    | explosion x =>
      rw [show cAttribute.ser (.explosion x) = .variant "Explosion" (cExplosion.ser x) from rfl, Attribute_de_explosion, Explosion_ll.rt]
      rfl
    | extendedExplosion x =>
      rw [show cAttribute.ser (.extendedExplosion x) = .variant "ExtendedExplosion" (cExtendedExplosion.ser x) from rfl, Attribute_de_extendedExplosion, ExtendedExplosion_ll.rt]
      rfl
    | flaggedByte x0 x1 =>
      rw [show cAttribute.ser (.flaggedByte x0 x1) = .variant "FlaggedByte" (.seq [cBool.ser x0, cU8.ser x1]) from rfl, Attribute_de_flaggedByte]
      have e0 : element 0 2 cBool (.seq [cBool.ser x0, cU8.ser x1]) = some x0 := (element_get rfl rfl).trans (bool_ll.rt _)
      have e1 : element 1 2 cU8 (.seq [cBool.ser x0, cU8.ser x1]) = some x1 := (element_get rfl rfl).trans (u8_ll.rt _)
      simp only [e0, e1, Option.bind_eq_bind, Option.bind_some]
    | activeActor x =>
      rw [show cAttribute.ser (.activeActor x) = .variant "ActiveActor" (cActiveActor.ser x) from rfl, Attribute_de_activeActor, ActiveActor_ll.rt]
      rfl
    | float x =>
      rw [show cAttribute.ser (.float x) = .variant "Float" (cF32.ser x) from rfl, Attribute_de_float, f32_ll.rt]
      rfl
    | gameMode x0 x1 =>
      rw [show cAttribute.ser (.gameMode x0 x1) = .variant "GameMode" (.seq [cU8.ser x0, cU8.ser x1]) from rfl, Attribute_de_gameMode]
      have e0 : element 0 2 cU8 (.seq [cU8.ser x0, cU8.ser x1]) = some x0 := (element_get rfl rfl).trans (u8_ll.rt _)
      have e1 : element 1 2 cU8 (.seq [cU8.ser x0, cU8.ser x1]) = some x1 := (element_get rfl rfl).trans (u8_ll.rt _)
      simp only [e0, e1, Option.bind_eq_bind, Option.bind_some]
    | int x =>
      rw [show cAttribute.ser (.int x) = .variant "Int" (cI32.ser x) from rfl, Attribute_de_int, i32_ll.rt]
      rfl
    | int64 x =>
      rw [show cAttribute.ser (.int64 x) = .variant "Int64" (cI64Str.ser x) from rfl, Attribute_de_int64, i64_ll.rt]
      rfl
    | loadout x =>
      rw [show cAttribute.ser (.loadout x) = .variant "Loadout" (cLoadout.ser x) from rfl, Attribute_de_loadout, Loadout_ll.rt]
      rfl
    | teamLoadout x =>
      rw [show cAttribute.ser (.teamLoadout x) = .variant "TeamLoadout" (cTeamLoadout.ser x) from rfl, Attribute_de_teamLoadout, TeamLoadout_ll.rt]
      rfl
    | location x =>
      rw [show cAttribute.ser (.location x) = .variant "Location" (cVector3f.ser x) from rfl, Attribute_de_location, Vector3f_ll.rt]
      rfl
    | musicStinger x =>
      rw [show cAttribute.ser (.musicStinger x) = .variant "MusicStinger" (cMusicStinger.ser x) from rfl, Attribute_de_musicStinger, MusicStinger_ll.rt]
      rfl
    | playerHistoryKey x =>
      rw [show cAttribute.ser (.playerHistoryKey x) = .variant "PlayerHistoryKey" (cU16.ser x) from rfl, Attribute_de_playerHistoryKey, u16_ll.rt]
      rfl
    | pickup x =>
      rw [show cAttribute.ser (.pickup x) = .variant "Pickup" (cPickup.ser x) from rfl, Attribute_de_pickup, Pickup_ll.rt]
      rfl
    | pickupNew x =>
      rw [show cAttribute.ser (.pickupNew x) = .variant "PickupNew" (cPickupNew.ser x) from rfl, Attribute_de_pickupNew, PickupNew_ll.rt]
      rfl
    | qWord x =>
      rw [show cAttribute.ser (.qWord x) = .variant "QWord" (cU64Str.ser x) from rfl, Attribute_de_qWord, u64_ll.rt]
      rfl
    | welded x =>
      rw [show cAttribute.ser (.welded x) = .variant "Welded" (cWelded.ser x) from rfl, Attribute_de_welded, Welded_ll.rt]
      rfl
    | title x0 x1 x2 x3 x4 x5 x6 x7 =>
      rw [show cAttribute.ser (.title x0 x1 x2 x3 x4 x5 x6 x7) = .variant "Title" (.seq [cBool.ser x0, cBool.ser x1, cU32.ser x2, cU32.ser x3, cU32.ser x4, cU32.ser x5, cU32.ser x6, cBool.ser x7]) from rfl, Attribute_de_title]
      have e0 : element 0 8 cBool (.seq [cBool.ser x0, cBool.ser x1, cU32.ser x2, cU32.ser x3, cU32.ser x4, cU32.ser x5, cU32.ser x6, cBool.ser x7]) = some x0 := (element_get rfl rfl).trans (bool_ll.rt _)
      have e1 : element 1 8 cBool (.seq [cBool.ser x0, cBool.ser x1, cU32.ser x2, cU32.ser x3, cU32.ser x4, cU32.ser x5, cU32.ser x6, cBool.ser x7]) = some x1 := (element_get rfl rfl).trans (bool_ll.rt _)
      have e2 : element 2 8 cU32 (.seq [cBool.ser x0, cBool.ser x1, cU32.ser x2, cU32.ser x3, cU32.ser x4, cU32.ser x5, cU32.ser x6, cBool.ser x7]) = some x2 := (element_get rfl rfl).trans (u32_ll.rt _)
      have e3 : element 3 8 cU32 (.seq [cBool.ser x0, cBool.ser x1, cU32.ser x2, cU32.ser x3, cU32.ser x4, cU32.ser x5, cU32.ser x6, cBool.ser x7]) = some x3 := (element_get rfl rfl).trans (u32_ll.rt _)
      have e4 : element 4 8 cU32 (.seq [cBool.ser x0, cBool.ser x1, cU32.ser x2, cU32.ser x3, cU32.ser x4, cU32.ser x5, cU32.ser x6, cBool.ser x7]) = some x4 := (element_get rfl rfl).trans (u32_ll.rt _)
      have e5 : element 5 8 cU32 (.seq [cBool.ser x0, cBool.ser x1, cU32.ser x2, cU32.ser x3, cU32.ser x4, cU32.ser x5, cU32.ser x6, cBool.ser x7]) = some x5 := (element_get rfl rfl).trans (u32_ll.rt _)
      have e6 : element 6 8 cU32 (.seq [cBool.ser x0, cBool.ser x1, cU32.ser x2, cU32.ser x3, cU32.ser x4, cU32.ser x5, cU32.ser x6, cBool.ser x7]) = some x6 := (element_get rfl rfl).trans (u32_ll.rt _)
      have e7 : element 7 8 cBool (.seq [cBool.ser x0, cBool.ser x1, cU32.ser x2, cU32.ser x3, cU32.ser x4, cU32.ser x5, cU32.ser x6, cBool.ser x7]) = some x7 := (element_get rfl rfl).trans (bool_ll.rt _)
      simp only [e0, e1, e2, e3, e4, e5, e6, e7, Option.bind_eq_bind, Option.bind_some]
    | teamPaint x =>
      rw [show cAttribute.ser (.teamPaint x) = .variant "TeamPaint" (cTeamPaint.ser x) from rfl, Attribute_de_teamPaint, TeamPaint_ll.rt]
      rfl
    | rigidBody x =>
      rw [show cAttribute.ser (.rigidBody x) = .variant "RigidBody" (cRigidBody.ser x) from rfl, Attribute_de_rigidBody, RigidBody_ll.rt]
      rfl
    | string x =>
      rw [show cAttribute.ser (.string x) = .variant "String" (cStr.ser x) from rfl, Attribute_de_string, str_ll.rt]
      rfl
    | uniqueId x =>
      rw [show cAttribute.ser (.uniqueId x) = .variant "UniqueId" (cUniqueId.ser x) from rfl, Attribute_de_uniqueId, UniqueId_ll.rt]
      rfl
    | reservation x =>
      rw [show cAttribute.ser (.reservation x) = .variant "Reservation" (cReservation.ser x) from rfl, Attribute_de_reservation, Reservation_ll.rt]
      rfl
    | partyLeader x =>
      rw [show cAttribute.ser (.partyLeader x) = .variant "PartyLeader" ((cOption cUniqueId).ser x) from rfl, Attribute_de_partyLeader, (option_ll UniqueId_ll).rt]
      rfl
    | privateMatch x =>
      rw [show cAttribute.ser (.privateMatch x) = .variant "PrivateMatch" (cPrivateMatchSettings.ser x) from rfl, Attribute_de_privateMatch, PrivateMatchSettings_ll.rt]
      rfl
    | loadoutOnline x =>
      rw [show cAttribute.ser (.loadoutOnline x) = .variant "LoadoutOnline" ((cList (cList cProduct)).ser x) from rfl, Attribute_de_loadoutOnline, (list_ll (list_ll Product_ll.opt).opt).rt]
      rfl
    | loadoutsOnline x =>
      rw [show cAttribute.ser (.loadoutsOnline x) = .variant "LoadoutsOnline" (cLoadoutsOnline.ser x) from rfl, Attribute_de_loadoutsOnline, LoadoutsOnline_ll.rt]
      rfl
    | statEvent x =>
      rw [show cAttribute.ser (.statEvent x) = .variant "StatEvent" (cStatEvent.ser x) from rfl, Attribute_de_statEvent, StatEvent_ll.rt]
      rfl
    | rotation x =>
      rw [show cAttribute.ser (.rotation x) = .variant "Rotation" (cRotation.ser x) from rfl, Attribute_de_rotation, Rotation_ll.rt]
      rfl
    | repStatTitle x =>
      rw [show cAttribute.ser (.repStatTitle x) = .variant "RepStatTitle" (cRepStatTitle.ser x) from rfl, Attribute_de_repStatTitle, RepStatTitle_ll.rt]
      rfl
    | pickupInfo x =>
      rw [show cAttribute.ser (.pickupInfo x) = .variant "PickupInfo" (cPickupInfo.ser x) from rfl, Attribute_de_pickupInfo, PickupInfo_ll.rt]
      rfl
    | impulse x =>
      rw [show cAttribute.ser (.impulse x) = .variant "Impulse" (cImpulse.ser x) from rfl, Attribute_de_impulse, Impulse_ll.rt]
      rfl
    | replicatedBoost x =>
      rw [show cAttribute.ser (.replicatedBoost x) = .variant "ReplicatedBoost" (cReplicatedBoost.ser x) from rfl, Attribute_de_replicatedBoost, ReplicatedBoost_ll.rt]
      rfl
    | logoData x =>
      rw [show cAttribute.ser (.logoData x) = .variant "LogoData" (cLogoData.ser x) from rfl, Attribute_de_logoData, LogoData_ll.rt]
      rfl

theorem Attribute_nonnull (v : Attribute) : cAttribute.ser v ≠ .null := by
  cases v <;> exact SVal.noConfusion

theorem Attribute_json (v : Attribute) : cAttribute.de (toJson (cAttribute.ser v)) = some v ↔ toJson (cAttribute.ser v) = cAttribute.ser v := by
  · cases v with
    | boolean x =>
      have h := bool_ll.json x
      unfold JsonSafe at h
      rw [show cAttribute.ser (.boolean x) = .variant "Boolean" (cBool.ser x) from rfl]
      simp only [toJson, SVal.variant.injEq, true_and]
      rw [← h, Attribute_de_boolean]
      simp only [Option.map_eq_some_iff, Attribute.boolean.injEq, exists_eq_right]
    | byte x =>
      have h := u8_ll.json x
      unfold JsonSafe at h
      rw [show cAttribute.ser (.byte x) = .variant "Byte" (cU8.ser x) from rfl]
      simp only [toJson, SVal.variant.injEq, true_and]
      rw [← h, Attribute_de_byte]
      simp only [Option.map_eq_some_iff, Attribute.byte.injEq, exists_eq_right]
    | appliedDamage x =>
      have h := AppliedDamage_ll.json x
      unfold JsonSafe at h
      rw [show cAttribute.ser (.appliedDamage x) = .variant "AppliedDamage" (cAppliedDamage.ser x) from rfl]
      simp only [toJson, SVal.variant.injEq, true_and]
      rw [← h, Attribute_de_appliedDamage]
      simp only [Option.map_eq_some_iff, Attribute.appliedDamage.injEq, exists_eq_right]
    | damageState x =>
      have h := DamageState_ll.json x
      unfold JsonSafe at h
      rw [show cAttribute.ser (.damageState x) = .variant "DamageState" (cDamageState.ser x) from rfl]
      simp only [toJson, SVal.variant.injEq, true_and]
      rw [← h, Attribute_de_damageState]
      simp only [Option.map_eq_some_iff, Attribute.damageState.injEq, exists_eq_right]
    | camSettings x =>
      have h := CamSettings_ll.json x
      unfold JsonSafe at h
      rw [show cAttribute.ser (.camSettings x) = .variant "CamSettings" (cCamSettings.ser x) from rfl]
      simp only [toJson, SVal.variant.injEq, true_and]
      rw [← h, Attribute_de_camSettings]
      simp only [Option.map_eq_some_iff, Attribute.camSettings.injEq, exists_eq_right]
    | clubColors x =>
      have h := ClubColors_ll.json x
      unfold JsonSafe at h
      rw [show cAttribute.ser (.clubColors x) = .variant "ClubColors" (cClubColors.ser x) from rfl]
      simp only [toJson, SVal.variant.injEq, true_and]
      rw [← h, Attribute_de_clubColors]
      simp only [Option.map_eq_some_iff, Attribute.clubColors.injEq, exists_eq_right]
    | demolish x =>
      have h := Demolish_ll.json x
      unfold JsonSafe at h
      rw [show cAttribute.ser (.demolish x) = .variant "Demolish" (cDemolish.ser x) from rfl]
      simp only [toJson, SVal.variant.injEq, true_and]
      rw [← h, Attribute_de_demolish]
      simp only [Option.map_eq_some_iff, Attribute.demolish.injEq, exists_eq_right]
    | demolishExtended x =>
      have h := DemolishExtended_ll.json x
      unfold JsonSafe at h
      rw [show cAttribute.ser (.demolishExtended x) = .variant "DemolishExtended" (cDemolishExtended.ser x) from rfl]
      simp only [toJson, SVal.variant.injEq, true_and]
      rw [← h, Attribute_de_demolishExtended]
      simp only [Option.map_eq_some_iff, Attribute.demolishExtended.injEq, exists_eq_right]
    | demolishFx x =>
      have h := DemolishFx_ll.json x
      unfold JsonSafe at h
      rw [show cAttribute.ser (.demolishFx x) = .variant "DemolishFx" (cDemolishFx.ser x) from rfl]
      simp only [toJson, SVal.variant.injEq, true_and]
      rw [← h, Attribute_de_demolishFx]
      simp only [Option.map_eq_some_iff, Attribute.demolishFx.injEq, exists_eq_right]
    | enum x =>
      have h := u16_ll.json x
      unfold JsonSafe at h
      rw [show cAttribute.ser (.enum x) = .variant "Enum" (cU16.ser x) from rfl]
      simp only [toJson, SVal.variant.injEq, true_and]
      rw [← h, Attribute_de_enum]
      simp only [Option.map_eq_some_iff, Attribute.enum.injEq, exists_eq_right]
    | explosion x =>
      have h := Explosion_ll.json x
      unfold JsonSafe at h
      rw [show cAttribute.ser (.explosion x) = .variant "Explosion" (cExplosion.ser x) from rfl]
      simp only [toJson, SVal.variant.injEq, true_and]
      rw [← h, Attribute_de_explosion]
      simp only [Option.map_eq_some_iff, Attribute.explosion.injEq, exists_eq_right]
    | extendedExplosion x =>
      have h := ExtendedExplosion_ll.json x
      unfold JsonSafe at h
      rw [show cAttribute.ser (.extendedExplosion x) = .variant "ExtendedExplosion" (cExtendedExplosion.ser x) from rfl]
      simp only [toJson, SVal.variant.injEq, true_and]
      rw [← h, Attribute_de_extendedExplosion]
      simp only [Option.map_eq_some_iff, Attribute.extendedExplosion.injEq, exists_eq_right]
    | flaggedByte x0 x1 =>
      have h0 := bool_ll.json x0
      have h1 := u8_ll.json x1
      unfold JsonSafe at h0 h1
      rw [show cAttribute.ser (.flaggedByte x0 x1) = .variant "FlaggedByte" (.seq [cBool.ser x0, cU8.ser x1]) from rfl]
      simp only [toJson, toJsons, toJsonFields, SVal.variant.injEq, SVal.map.injEq, SVal.seq.injEq, List.cons.injEq, Prod.mk.injEq, true_and, and_true]
      rw [← h0, ← h1, Attribute_de_flaggedByte]
      have e0 : element 0 2 cBool (.seq [toJson (cBool.ser x0), toJson (cU8.ser x1)]) = cBool.de (toJson (cBool.ser x0)) := element_get rfl rfl
      have e1 : element 1 2 cU8 (.seq [toJson (cBool.ser x0), toJson (cU8.ser x1)]) = cU8.de (toJson (cU8.ser x1)) := element_get rfl rfl
      simp only [e0, e1, Option.bind_eq_bind, Option.bind_eq_some_iff, Option.some.injEq]
      constructor
      · rintro ⟨a0, g0, a1, g1, e⟩; cases e; exact ⟨g0, g1⟩
      · rintro ⟨g0, g1⟩; exact ⟨_, g0, _, g1, rfl⟩
    | activeActor x =>
      have h := ActiveActor_ll.json x
      unfold JsonSafe at h
      rw [show cAttribute.ser (.activeActor x) = .variant "ActiveActor" (cActiveActor.ser x) from rfl]
      simp only [toJson, SVal.variant.injEq, true_and]
      rw [← h, Attribute_de_activeActor]
      simp only [Option.map_eq_some_iff, Attribute.activeActor.injEq, exists_eq_right]
    | float x =>
      have h := f32_ll.json x
      unfold JsonSafe at h
      rw [show cAttribute.ser (.float x) = .variant "Float" (cF32.ser x) from rfl]
      simp only [toJson, SVal.variant.injEq, true_and]
      rw [← h, Attribute_de_float]
      simp only [Option.map_eq_some_iff, Attribute.float.injEq, exists_eq_right]
    | gameMode x0 x1 =>
      have h0 := u8_ll.json x0
      have h1 := u8_ll.json x1
      unfold JsonSafe at h0 h1
      rw [show cAttribute.ser (.gameMode x0 x1) = .variant "GameMode" (.seq [cU8.ser x0, cU8.ser x1]) from rfl]
      simp only [toJson, toJsons, toJsonFields, SVal.variant.injEq, SVal.map.injEq, SVal.seq.injEq, List.cons.injEq, Prod.mk.injEq, true_and, and_true]
      rw [← h0, ← h1, Attribute_de_gameMode]
      have e0 : element 0 2 cU8 (.seq [toJson (cU8.ser x0), toJson (cU8.ser x1)]) = cU8.de (toJson (cU8.ser x0)) := element_get rfl rfl
      have e1 : element 1 2 cU8 (.seq [toJson (cU8.ser x0), toJson (cU8.ser x1)]) = cU8.de (toJson (cU8.ser x1)) := element_get rfl rfl
      simp only [e0, e1, Option.bind_eq_bind, Option.bind_eq_some_iff, Option.some.injEq]
      constructor
      · rintro ⟨a0, g0, a1, g1, e⟩; cases e; exact ⟨g0, g1⟩
      · rintro ⟨g0, g1⟩; exact ⟨_, g0, _, g1, rfl⟩
    | int x =>
      have h := i32_ll.json x
      unfold JsonSafe at h
      rw [show cAttribute.ser (.int x) = .variant "Int" (cI32.ser x) from rfl]
      simp only [toJson, SVal.variant.injEq, true_and]
      rw [← h, Attribute_de_int]
      simp only [Option.map_eq_some_iff, Attribute.int.injEq, exists_eq_right]
    | int64 x =>
      have h := i64_ll.json x
      unfold JsonSafe at h
      rw [show cAttribute.ser (.int64 x) = .variant "Int64" (cI64Str.ser x) from rfl]
      simp only [toJson, SVal.variant.injEq, true_and]
      rw [← h, Attribute_de_int64]
      simp only [Option.map_eq_some_iff, Attribute.int64.injEq, exists_eq_right]
    | loadout x =>
      have h := Loadout_ll.json x
      unfold JsonSafe at h
      rw [show cAttribute.ser (.loadout x) = .variant "Loadout" (cLoadout.ser x) from rfl]
      simp only [toJson, SVal.variant.injEq, true_and]
      rw [← h, Attribute_de_loadout]
      simp only [Option.map_eq_some_iff, Attribute.loadout.injEq, exists_eq_right]
    | teamLoadout x =>
      have h := TeamLoadout_ll.json x
      unfold JsonSafe at h
      rw [show cAttribute.ser (.teamLoadout x) = .variant "TeamLoadout" (cTeamLoadout.ser x) from rfl]
      simp only [toJson, SVal.variant.injEq, true_and]
      rw [← h, Attribute_de_teamLoadout]
      simp only [Option.map_eq_some_iff, Attribute.teamLoadout.injEq, exists_eq_right]
    | location x =>
      have h := Vector3f_ll.json x
      unfold JsonSafe at h
      rw [show cAttribute.ser (.location x) = .variant "Location" (cVector3f.ser x) from rfl]
      simp only [toJson, SVal.variant.injEq, true_and]
      rw [← h, Attribute_de_location]
      simp only [Option.map_eq_some_iff, Attribute.location.injEq, exists_eq_right]
    | musicStinger x =>
      have h := MusicStinger_ll.json x
      unfold JsonSafe at h
      rw [show cAttribute.ser (.musicStinger x) = .variant "MusicStinger" (cMusicStinger.ser x) from rfl]
      simp only [toJson, SVal.variant.injEq, true_and]
      rw [← h, Attribute_de_musicStinger]
      simp only [Option.map_eq_some_iff, Attribute.musicStinger.injEq, exists_eq_right]
    | playerHistoryKey x =>
      have h := u16_ll.json x
      unfold JsonSafe at h
      rw [show cAttribute.ser (.playerHistoryKey x) = .variant "PlayerHistoryKey" (cU16.ser x) from rfl]
      simp only [toJson, SVal.variant.injEq, true_and]
      rw [← h, Attribute_de_playerHistoryKey]
      simp only [Option.map_eq_some_iff, Attribute.playerHistoryKey.injEq, exists_eq_right]
    | pickup x =>
      have h := Pickup_ll.json x
      unfold JsonSafe at h
      rw [show cAttribute.ser (.pickup x) = .variant "Pickup" (cPickup.ser x) from rfl]
      simp only [toJson, SVal.variant.injEq, true_and]
      rw [← h, Attribute_de_pickup]
      simp only [Option.map_eq_some_iff, Attribute.pickup.injEq, exists_eq_right]
    | pickupNew x =>
      have h := PickupNew_ll.json x
      unfold JsonSafe at h
      rw [show cAttribute.ser (.pickupNew x) = .variant "PickupNew" (cPickupNew.ser x) from rfl]
      simp only [toJson, SVal.variant.injEq, true_and]
      rw [← h, Attribute_de_pickupNew]
      simp only [Option.map_eq_some_iff, Attribute.pickupNew.injEq, exists_eq_right]
    | qWord x =>
      have h := u64_ll.json x
      unfold JsonSafe at h
      rw [show cAttribute.ser (.qWord x) = .variant "QWord" (cU64Str.ser x) from rfl]
      simp only [toJson, SVal.variant.injEq, true_and]
      rw [← h, Attribute_de_qWord]
      simp only [Option.map_eq_some_iff, Attribute.qWord.injEq, exists_eq_right]
    | welded x =>
      have h := Welded_ll.json x
      unfold JsonSafe at h
      rw [show cAttribute.ser (.welded x) = .variant "Welded" (cWelded.ser x) from rfl]
      simp only [toJson, SVal.variant.injEq, true_and]
      rw [← h, Attribute_de_welded]
      simp only [Option.map_eq_some_iff, Attribute.welded.injEq, exists_eq_right]
    | title x0 x1 x2 x3 x4 x5 x6 x7 =>
      have h0 := bool_ll.json x0
      have h1 := bool_ll.json x1
      have h2 := u32_ll.json x2
      have h3 := u32_ll.json x3
      have h4 := u32_ll.json x4
      have h5 := u32_ll.json x5
      have h6 := u32_ll.json x6
      have h7 := bool_ll.json x7
      unfold JsonSafe at h0 h1 h2 h3 h4 h5 h6 h7
      rw [show cAttribute.ser (.title x0 x1 x2 x3 x4 x5 x6 x7) = .variant "Title" (.seq [cBool.ser x0, cBool.ser x1, cU32.ser x2, cU32.ser x3, cU32.ser x4, cU32.ser x5, cU32.ser x6, cBool.ser x7]) from rfl]
      simp only [toJson, toJsons, toJsonFields, SVal.variant.injEq, SVal.map.injEq, SVal.seq.injEq, List.cons.injEq, Prod.mk.injEq, true_and, and_true]
      rw [← h0, ← h1, ← h2, ← h3, ← h4, ← h5, ← h6, ← h7, Attribute_de_title]
      have e0 : element 0 8 cBool (.seq [toJson (cBool.ser x0), toJson (cBool.ser x1), toJson (cU32.ser x2), toJson (cU32.ser x3), toJson (cU32.ser x4), toJson (cU32.ser x5), toJson (cU32.ser x6), toJson (cBool.ser x7)]) = cBool.de (toJson (cBool.ser x0)) := element_get rfl rfl
      have e1 : element 1 8 cBool (.seq [toJson (cBool.ser x0), toJson (cBool.ser x1), toJson (cU32.ser x2), toJson (cU32.ser x3), toJson (cU32.ser x4), toJson (cU32.ser x5), toJson (cU32.ser x6), toJson (cBool.ser x7)]) = cBool.de (toJson (cBool.ser x1)) := element_get rfl rfl
      have e2 : element 2 8 cU32 (.seq [toJson (cBool.ser x0), toJson (cBool.ser x1), toJson (cU32.ser x2), toJson (cU32.ser x3), toJson (cU32.ser x4), toJson (cU32.ser x5), toJson (cU32.ser x6), toJson (cBool.ser x7)]) = cU32.de (toJson (cU32.ser x2)) := element_get rfl rfl
      have e3 : element 3 8 cU32 (.seq [toJson (cBool.ser x0), toJson (cBool.ser x1), toJson (cU32.ser x2), toJson (cU32.ser x3), toJson (cU32.ser x4), toJson (cU32.ser x5), toJson (cU32.ser x6), toJson (cBool.ser x7)]) = cU32.de (toJson (cU32.ser x3)) := element_get rfl rfl
      have e4 : element 4 8 cU32 (.seq [toJson (cBool.ser x0), toJson (cBool.ser x1), toJson (cU32.ser x2), toJson (cU32.ser x3), toJson (cU32.ser x4), toJson (cU32.ser x5), toJson (cU32.ser x6), toJson (cBool.ser x7)]) = cU32.de (toJson (cU32.ser x4)) := element_get rfl rfl
      have e5 : element 5 8 cU32 (.seq [toJson (cBool.ser x0), toJson (cBool.ser x1), toJson (cU32.ser x2), toJson (cU32.ser x3), toJson (cU32.ser x4), toJson (cU32.ser x5), toJson (cU32.ser x6), toJson (cBool.ser x7)]) = cU32.de (toJson (cU32.ser x5)) := element_get rfl rfl
      have e6 : element 6 8 cU32 (.seq [toJson (cBool.ser x0), toJson (cBool.ser x1), toJson (cU32.ser x2), toJson (cU32.ser x3), toJson (cU32.ser x4), toJson (cU32.ser x5), toJson (cU32.ser x6), toJson (cBool.ser x7)]) = cU32.de (toJson (cU32.ser x6)) := element_get rfl rfl
      have e7 : element 7 8 cBool (.seq [toJson (cBool.ser x0), toJson (cBool.ser x1), toJson (cU32.ser x2), toJson (cU32.ser x3), toJson (cU32.ser x4), toJson (cU32.ser x5), toJson (cU32.ser x6), toJson (cBool.ser x7)]) = cBool.de (toJson (cBool.ser x7)) := element_get rfl rfl
      simp only [e0, e1, e2, e3, e4, e5, e6, e7, Option.bind_eq_bind, Option.bind_eq_some_iff, Option.some.injEq]
      constructor
      · rintro ⟨a0, g0, a1, g1, a2, g2, a3, g3, a4, g4, a5, g5, a6, g6, a7, g7, e⟩; cases e; exact ⟨g0, g1, g2, g3, g4, g5, g6, g7⟩
      · rintro ⟨g0, g1, g2, g3, g4, g5, g6, g7⟩; exact ⟨_, g0, _, g1, _, g2, _, g3, _, g4, _, g5, _, g6, _, g7, rfl⟩
    | teamPaint x =>
      have h := TeamPaint_ll.json x
      unfold JsonSafe at h
      rw [show cAttribute.ser (.teamPaint x) = .variant "TeamPaint" (cTeamPaint.ser x) from rfl]
      simp only [toJson, SVal.variant.injEq, true_and]
      rw [← h, Attribute_de_teamPaint]
      simp only [Option.map_eq_some_iff, Attribute.teamPaint.injEq, exists_eq_right]
    | rigidBody x =>
      have h := RigidBody_ll.json x
      unfold JsonSafe at h
      rw [show cAttribute.ser (.rigidBody x) = .variant "RigidBody" (cRigidBody.ser x) from rfl]
      simp only [toJson, SVal.variant.injEq, true_and]
      rw [← h, Attribute_de_rigidBody]
      simp only [Option.map_eq_some_iff, Attribute.rigidBody.injEq, exists_eq_right]
    | string x =>
      have h := str_ll.json x
      unfold JsonSafe at h
      rw [show cAttribute.ser (.string x) = .variant "String" (cStr.ser x) from rfl]
      simp only [toJson, SVal.variant.injEq, true_and]
      rw [← h, Attribute_de_string]
      simp only [Option.map_eq_some_iff, Attribute.string.injEq, exists_eq_right]
    | uniqueId x =>
      have h := UniqueId_ll.json x
      unfold JsonSafe at h
      rw [show cAttribute.ser (.uniqueId x) = .variant "UniqueId" (cUniqueId.ser x) from rfl]
      simp only [toJson, SVal.variant.injEq, true_and]
      rw [← h, Attribute_de_uniqueId]
      simp only [Option.map_eq_some_iff, Attribute.uniqueId.injEq, exists_eq_right]
    | reservation x =>
      have h := Reservation_ll.json x
      unfold JsonSafe at h
      rw [show cAttribute.ser (.reservation x) = .variant "Reservation" (cReservation.ser x) from rfl]
      simp only [toJson, SVal.variant.injEq, true_and]
      rw [← h, Attribute_de_reservation]
      simp only [Option.map_eq_some_iff, Attribute.reservation.injEq, exists_eq_right]
    | partyLeader x =>
      have h := (option_ll UniqueId_ll).json x
      unfold JsonSafe at h
      rw [show cAttribute.ser (.partyLeader x) = .variant "PartyLeader" ((cOption cUniqueId).ser x) from rfl]
      simp only [toJson, SVal.variant.injEq, true_and]
      rw [← h, Attribute_de_partyLeader]
      simp only [Option.map_eq_some_iff, Attribute.partyLeader.injEq, exists_eq_right]
    | privateMatch x =>
      have h := PrivateMatchSettings_ll.json x
      unfold JsonSafe at h
      rw [show cAttribute.ser (.privateMatch x) = .variant "PrivateMatch" (cPrivateMatchSettings.ser x) from rfl]
      simp only [toJson, SVal.variant.injEq, true_and]
      rw [← h, Attribute_de_privateMatch]
      simp only [Option.map_eq_some_iff, Attribute.privateMatch.injEq, exists_eq_right]
    | loadoutOnline x =>
      have h := (list_ll (list_ll Product_ll.opt).opt).json x
      unfold JsonSafe at h
      rw [show cAttribute.ser (.loadoutOnline x) = .variant "LoadoutOnline" ((cList (cList cProduct)).ser x) from rfl]
      simp only [toJson, SVal.variant.injEq, true_and]
      rw [← h, Attribute_de_loadoutOnline]
      simp only [Option.map_eq_some_iff, Attribute.loadoutOnline.injEq, exists_eq_right]
    | loadoutsOnline x =>
      have h := LoadoutsOnline_ll.json x
      unfold JsonSafe at h
      rw [show cAttribute.ser (.loadoutsOnline x) = .variant "LoadoutsOnline" (cLoadoutsOnline.ser x) from rfl]
      simp only [toJson, SVal.variant.injEq, true_and]
      rw [← h, Attribute_de_loadoutsOnline]
      simp only [Option.map_eq_some_iff, Attribute.loadoutsOnline.injEq, exists_eq_right]
    | statEvent x =>
      have h := StatEvent_ll.json x
      unfold JsonSafe at h
      rw [show cAttribute.ser (.statEvent x) = .variant "StatEvent" (cStatEvent.ser x) from rfl]
      simp only [toJson, SVal.variant.injEq, true_and]
      rw [← h, Attribute_de_statEvent]
      simp only [Option.map_eq_some_iff, Attribute.statEvent.injEq, exists_eq_right]
    | rotation x =>
      have h := Rotation_ll.json x
      unfold JsonSafe at h
      rw [show cAttribute.ser (.rotation x) = .variant "Rotation" (cRotation.ser x) from rfl]
      simp only [toJson, SVal.variant.injEq, true_and]
      rw [← h, Attribute_de_rotation]
      simp only [Option.map_eq_some_iff, Attribute.rotation.injEq, exists_eq_right]
    | repStatTitle x =>
      have h := RepStatTitle_ll.json x
      unfold JsonSafe at h
      rw [show cAttribute.ser (.repStatTitle x) = .variant "RepStatTitle" (cRepStatTitle.ser x) from rfl]
      simp only [toJson, SVal.variant.injEq, true_and]
      rw [← h, Attribute_de_repStatTitle]
      simp only [Option.map_eq_some_iff, Attribute.repStatTitle.injEq, exists_eq_right]
    | pickupInfo x =>
      have h := PickupInfo_ll.json x
      unfold JsonSafe at h
      rw [show cAttribute.ser (.pickupInfo x) = .variant "PickupInfo" (cPickupInfo.ser x) from rfl]
      simp only [toJson, SVal.variant.injEq, true_and]
      rw [← h, Attribute_de_pickupInfo]
      simp only [Option.map_eq_some_iff, Attribute.pickupInfo.injEq, exists_eq_right]
    | impulse x =>
      have h := Impulse_ll.json x
      unfold JsonSafe at h
      rw [show cAttribute.ser (.impulse x) = .variant "Impulse" (cImpulse.ser x) from rfl]
      simp only [toJson, SVal.variant.injEq, true_and]
      rw [← h, Attribute_de_impulse]
      simp only [Option.map_eq_some_iff, Attribute.impulse.injEq, exists_eq_right]
    | replicatedBoost x =>
      have h := ReplicatedBoost_ll.json x
      unfold JsonSafe at h
      rw [show cAttribute.ser (.replicatedBoost x) = .variant "ReplicatedBoost" (cReplicatedBoost.ser x) from rfl]
      simp only [toJson, SVal.variant.injEq, true_and]
      rw [← h, Attribute_de_replicatedBoost]
      simp only [Option.map_eq_some_iff, Attribute.replicatedBoost.injEq, exists_eq_right]
    | logoData x =>
      have h := LogoData_ll.json x
      unfold JsonSafe at h
      rw [show cAttribute.ser (.logoData x) = .variant "LogoData" (cLogoData.ser x) from rfl]
      simp only [toJson, SVal.variant.injEq, true_and]
      rw [← h, Attribute_de_logoData]
      simp only [Option.map_eq_some_iff, Attribute.logoData.injEq, exists_eq_right]

theorem Attribute_ll : Lossless cAttribute := ⟨Attribute_rt, Attribute_nonnull, Attribute_json⟩

theorem UpdatedAttribute_ll : Lossless cUpdatedAttribute := by
  refine ⟨fun v => ?_, fun _ h => (by cases h), fun v => ?_⟩
  · simp only [cUpdatedAttribute, field_cons, String.reduceEq, if_true, if_false, Option.bind_eq_bind, Option.bind_some, Attribute_ll.rt, i32_ll.rt]
  · unfold JsonSafe cUpdatedAttribute
    simp only [toJson, toJsonFields, SVal.map.injEq, List.cons.injEq, Prod.mk.injEq, true_and, and_true]
    have h0 := i32_ll.json v.actorId
    have h1 := i32_ll.json v.streamId
    have h2 := i32_ll.json v.objectId
    have h3 := Attribute_ll.json v.attr
    unfold JsonSafe at h0 h1 h2 h3
    rw [← h0, ← h1, ← h2, ← h3]
    simp only [field_cons, String.reduceEq, if_true, if_false, Option.bind_eq_bind, Option.bind_eq_some_iff, Option.bind_some, Option.some.injEq]
    constructor
    · rintro ⟨a0, g0, a1, g1, a2, g2, a3, g3, rfl⟩; exact ⟨g0, g1, g2, g3⟩
    · rintro ⟨g0, g1, g2, g3⟩; exact ⟨_, g0, _, g1, _, g2, _, g3, rfl⟩

theorem Frame_ll : Lossless cFrame := by
  refine ⟨fun v => ?_, fun _ h => (by cases h), fun v => ?_⟩
  · simp only [cFrame, field_cons, String.reduceEq, if_true, if_false, Option.bind_eq_bind, Option.bind_some, (list_ll NewActor_ll.opt).rt, (list_ll UpdatedAttribute_ll.opt).rt, (list_ll i32_ll.opt).rt, f32_ll.rt]
  · unfold JsonSafe cFrame
    simp only [toJson, toJsonFields, SVal.map.injEq, List.cons.injEq, Prod.mk.injEq, true_and, and_true]
    have h0 := f32_ll.json v.time
    have h1 := f32_ll.json v.delta
    have h2 := (list_ll NewActor_ll.opt).json v.newActors
    have h3 := (list_ll i32_ll.opt).json v.deletedActors
    have h4 := (list_ll UpdatedAttribute_ll.opt).json v.updatedActors
    unfold JsonSafe at h0 h1 h2 h3 h4
    rw [← h0, ← h1, ← h2, ← h3, ← h4]
    simp only [field_cons, String.reduceEq, if_true, if_false, Option.bind_eq_bind, Option.bind_eq_some_iff, Option.bind_some, Option.some.injEq]
    constructor
    · rintro ⟨a0, g0, a1, g1, a2, g2, a3, g3, a4, g4, rfl⟩; exact ⟨g0, g1, g2, g3, g4⟩
    · rintro ⟨g0, g1, g2, g3, g4⟩; exact ⟨_, g0, _, g1, _, g2, _, g3, _, g4, rfl⟩

end Boxcars
