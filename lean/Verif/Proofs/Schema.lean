import Verif.Spec.Schema
import Verif.Proofs.Serde
/-!
# Serializers write exactly the values of their shapes

From "Generated" on, the file is generated by `tools/gen_schema.py`.
-/
namespace Boxcars
open Spec

/-- A serializer writes exactly the values of a shape. -/
def Fits {α : Type} (ser : α → SVal) (s : Shape) : Prop := ∀ j, Has s j ↔ ∃ v, ser v = j

theorem bool_fits : Fits cBool.ser .bool := by
  intro j
  constructor
  · intro h; cases h with | bool => exact ⟨_, rfl⟩
  · rintro ⟨v, rfl⟩; exact .bool

theorem f32_fits : Fits cF32.ser .f32 := by
  intro j
  constructor
  · intro h; cases h with | f32 => exact ⟨_, rfl⟩
  · rintro ⟨v, rfl⟩; exact .f32

theorem str_fits : Fits cStr.ser .text := by
  intro j
  constructor
  · intro h; cases h with | text => exact ⟨_, rfl⟩
  · rintro ⟨v, rfl⟩; exact .text

theorem unsigned_fits (w : Nat) : Fits (cUnsigned w).ser (.unsigned w) := by
  intro j
  constructor
  · intro h
    cases h with
    | unsigned h =>
      rename_i n
      refine ⟨BitVec.ofNat w n, ?_⟩
      show SVal.int ((BitVec.ofNat w n).toNat : Int) = _
      rw [BitVec.toNat_ofNat, Nat.mod_eq_of_lt h]
  · rintro ⟨v, rfl⟩; exact .unsigned v.isLt

theorem signed_fits (w : Nat) (hw : 0 < w) : Fits (cSigned w).ser (.signed w) := by
  intro j
  constructor
  · intro h
    cases h with
    | signed h1 h2 =>
      rename_i i
      refine ⟨BitVec.ofInt w i, ?_⟩
      show SVal.int (BitVec.ofInt w i).toInt = _
      have e : (2 : Int) ^ w = 2 * 2 ^ (w - 1) := by
        rw [← Int.pow_succ', Nat.sub_add_cancel hw]
      rw [BitVec.toInt_ofInt, Int.bmod_eq_of_le (by push_cast; omega) (by push_cast; omega)]
  · rintro ⟨v, rfl⟩
    exact .signed (BitVec.le_toInt v) (BitVec.toInt_lt (x := v))

theorem u64_fits : Fits cU64Str.ser .u64 := by
  intro j
  constructor
  · intro h
    cases h with
    | u64 h =>
      rename_i n
      refine ⟨BitVec.ofNat 64 n, ?_⟩
      show SVal.str (Nat.toDigits 10 (BitVec.ofNat 64 n).toNat) = _
      rw [BitVec.toNat_ofNat, Nat.mod_eq_of_lt h]
  · rintro ⟨v, rfl⟩; exact .u64 v.isLt

theorem i64_fits : Fits cI64Str.ser .i64 := by
  intro j
  constructor
  · intro h
    cases h with
    | i64 h =>
      rename_i n
      refine ⟨BitVec.ofInt 64 n, ?_⟩
      show SVal.str (displayInt (BitVec.ofInt 64 n).toInt) = _
      rw [BitVec.toInt_ofInt, Int.bmod_eq_of_le (by omega) (by omega)]
      unfold displayInt
      rw [if_neg (by omega)]; rfl
    | negative h0 h =>
      rename_i n
      refine ⟨BitVec.ofInt 64 (-n), ?_⟩
      show SVal.str (displayInt (BitVec.ofInt 64 (-n)).toInt) = _
      rw [BitVec.toInt_ofInt, Int.bmod_eq_of_le (by omega) (by omega)]
      unfold displayInt
      rw [if_pos (by omega), Int.natAbs_neg]; rfl
  · rintro ⟨v, rfl⟩
    have h1 := BitVec.le_toInt v
    have h2 := BitVec.toInt_lt (x := v)
    simp only [Nat.reduceSub] at h1 h2
    show Has .i64 (.str (displayInt v.toInt))
    unfold displayInt
    split
    · exact .negative (by omega) (by omega)
    · exact .i64 (by omega)

theorem opt_fits {α : Type} {f : α → SVal} {s : Shape} (h : Fits f s) :
    Fits (fun o : Option α => match o with | none => .null | some v => f v) (.opt s) := by
  intro j
  constructor
  · intro hj
    cases hj with
    | absent => exact ⟨none, rfl⟩
    | present hj =>
      obtain ⟨v, rfl⟩ := (h _).1 hj
      exact ⟨some v, rfl⟩
  · rintro ⟨v, rfl⟩
    cases v with
    | none => exact .absent
    | some v => exact .present ((h _).2 ⟨v, rfl⟩)

theorem option_fits {α : Type} {c : Codec α} {s : Shape} (h : Fits c.ser s) :
    Fits (cOption c).ser (.opt s) := by
  intro j
  constructor
  · intro hj
    cases hj with
    | absent => exact ⟨none, rfl⟩
    | present hj =>
      obtain ⟨v, rfl⟩ := (h _).1 hj
      exact ⟨some v, rfl⟩
  · rintro ⟨v, rfl⟩
    cases v with
    | none => exact .absent
    | some v => exact .present ((h _).2 ⟨v, rfl⟩)

theorem seq_fits {α : Type} {f : α → SVal} {s : Shape} (h : Fits f s) :
    Fits (fun xs : List α => .seq (xs.map f)) (.list s) := by
  intro j
  constructor
  · intro hj
    cases hj with
    | list hj =>
      rename_i js
      suffices ∃ xs : List α, xs.map f = js by
        obtain ⟨xs, rfl⟩ := this
        exact ⟨xs, rfl⟩
      induction js with
      | nil => exact ⟨[], rfl⟩
      | cons j js ih =>
        obtain ⟨xs, rfl⟩ := ih fun k hk => hj k (List.mem_cons_of_mem _ hk)
        obtain ⟨x, rfl⟩ := (h _).1 (hj _ (List.mem_cons_self ..))
        exact ⟨x :: xs, rfl⟩
  · rintro ⟨v, rfl⟩
    refine .list fun j hj => ?_
    obtain ⟨x, _, rfl⟩ := List.mem_map.1 hj
    exact (h _).2 ⟨x, rfl⟩

theorem list_fits {α : Type} {c : Codec α} {s : Shape} (h : Fits c.ser s) :
    Fits (cList c).ser (.list s) := seq_fits h

theorem array3_fits {α : Type} {c : Codec α} {s : Shape} (h : Fits c.ser s) :
    Fits (cArray3 c).ser (.tuple [s, s, s]) := by
  intro j
  constructor
  · intro hj
    cases hj with | tuple hj =>
    cases hj with | cons h0 hj =>
    cases hj with | cons h1 hj =>
    cases hj with | cons h2 hj =>
    cases hj
    obtain ⟨a, rfl⟩ := (h _).1 h0
    obtain ⟨b, rfl⟩ := (h _).1 h1
    obtain ⟨d, rfl⟩ := (h _).1 h2
    exact ⟨(a, b, d), rfl⟩
  · rintro ⟨v, rfl⟩
    exact .tuple (.cons ((h _).2 ⟨v.1, rfl⟩) (.cons ((h _).2 ⟨v.2.1, rfl⟩) (.cons ((h _).2 ⟨v.2.2, rfl⟩) .nil)))

/-! ### Header values -/

mutual
theorem serProp_has : ∀ p, Has .prop (serProp p)
  | .array elems => .prop (.head _) (.list (serElems_has elems))
  | .bool _ => .prop (.tail _ (.head _)) .bool
  | .byte _ value => .prop (.tail _ (.tail _ (.head _)))
      (.struct (.cons .text (.cons ((option_fits str_fits _).2 ⟨value, rfl⟩) .nil)))
  | .float _ => .prop (.tail _ (.tail _ (.tail _ (.head _)))) .f32
  | .int i => .prop (.tail _ (.tail _ (.tail _ (.tail _ (.head _)))))
      (.signed (BitVec.le_toInt i) (BitVec.toInt_lt (x := i)))
  | .qword q => .prop (.tail _ (.tail _ (.tail _ (.tail _ (.tail _ (.head _)))))) (.u64 q.isLt)
  | .name _ => .prop (.tail _ (.tail _ (.tail _ (.tail _ (.tail _ (.tail _ (.head _))))))) .text
  | .str _ => .prop (.tail _ (.tail _ (.tail _ (.tail _ (.tail _ (.tail _ (.head _))))))) .text
  | .struct _ fields => .prop (.tail _ (.tail _ (.tail _ (.tail _ (.tail _ (.tail _ (.tail _ (.head _))))))))
      (.struct (.cons .text (.cons (.props (serProps_has fields)) .nil)))
theorem serProps_has : ∀ l, ∀ kv ∈ stringKeys (serProps l), Has .prop kv.2
  | [] => by simp [serProps, stringKeys]
  | (k, v) :: rest => by
    simp only [serProps, stringKeys, List.mem_cons]
    rintro kv (rfl | h)
    · exact serProp_has v
    · exact serProps_has rest kv h
theorem serElems_has : ∀ l, ∀ j ∈ serElems l, Has .props j
  | [] => by simp [serElems]
  | e :: rest => by
    simp only [serElems, List.mem_cons]
    rintro j (rfl | h)
    · exact .props (serProps_has e)
    · exact serElems_has rest j h
end

mutual
theorem prop_of_has : ∀ j, Has .prop j → ∃ p, serProp p = j
  | .null, h => by
    cases h with
    | prop hm h =>
      simp only [propShapes, List.mem_cons, List.not_mem_nil, or_false] at hm
      rcases hm with rfl | rfl | rfl | rfl | rfl | rfl | rfl | rfl <;> cases h
  | .bool b, _ => ⟨.bool b, rfl⟩
  | .int i, h => by
    cases h with
    | prop hm h =>
      simp only [propShapes, List.mem_cons, List.not_mem_nil, or_false] at hm
      rcases hm with rfl | rfl | rfl | rfl | rfl | rfl | rfl | rfl <;> try cases h
      rename_i h1 h2
      obtain ⟨v, hv⟩ := (signed_fits 32 (by decide) _).1 (.signed h1 h2)
      exact ⟨.int v, hv⟩
  | .f32 x, _ => ⟨.float x, rfl⟩
  | .str s, _ => ⟨.str s, rfl⟩
  | .unitVariant n, h => by
    cases h with
    | prop hm h =>
      simp only [propShapes, List.mem_cons, List.not_mem_nil, or_false] at hm
      rcases hm with rfl | rfl | rfl | rfl | rfl | rfl | rfl | rfl <;> cases h
  | .variant n x, h => by
    cases h with
    | prop hm h =>
      simp only [propShapes, List.mem_cons, List.not_mem_nil, or_false] at hm
      rcases hm with rfl | rfl | rfl | rfl | rfl | rfl | rfl | rfl <;> cases h
  | .seq js, h => by
    cases h with
    | prop hm h =>
      simp only [propShapes, List.mem_cons, List.not_mem_nil, or_false] at hm
      rcases hm with rfl | rfl | rfl | rfl | rfl | rfl | rfl | rfl <;> try cases h
      rename_i h
      obtain ⟨l, rfl⟩ := elems_of_has js h
      exact ⟨.array l, by rw [serProp]⟩
  | .map kvs, h => by
    cases h with
    | prop hm h =>
      simp only [propShapes, List.mem_cons, List.not_mem_nil, or_false] at hm
      rcases hm with rfl | rfl | rfl | rfl | rfl | rfl | rfl | rfl <;> try cases h
      · rename_i h
        cases h with | cons h0 h =>
        cases h with | cons h1 h =>
        cases h
        obtain ⟨a, rfl⟩ := (str_fits _).1 h0
        obtain ⟨b, rfl⟩ := (option_fits str_fits _).1 h1
        exact ⟨.byte a b, by rw [serProp]; rfl⟩
      · rename_i h
        cases h with | cons h0 h =>
        cases h with | cons h1 h =>
        cases h
        obtain ⟨a, rfl⟩ := (str_fits _).1 h0
        cases h1 with | props h1 =>
        rename_i kvs
        obtain ⟨l, rfl⟩ := props_of_has kvs h1
        exact ⟨.struct a l, by rw [serProp]; rfl⟩
theorem props_of_has : ∀ kvs : List (String × SVal), (∀ kv ∈ kvs, Has .prop kv.2) →
    ∃ l, stringKeys (serProps l) = kvs
  | [], _ => ⟨[], rfl⟩
  | (k, v) :: rest, h => by
    obtain ⟨p, hp⟩ := prop_of_has v (h _ (List.mem_cons_self ..))
    obtain ⟨l, hl⟩ := props_of_has rest fun kv hkv => h kv (List.mem_cons_of_mem _ hkv)
    exact ⟨(k.toList, p) :: l, by simp [serProps, stringKeys, hp, hl]⟩
theorem elems_of_has : ∀ js : List SVal, (∀ j ∈ js, Has .props j) → ∃ l, serElems l = js
  | [], _ => ⟨[], rfl⟩
  | j :: rest, h => by
    obtain ⟨l, hl⟩ := elems_of_has rest fun kv hkv => h kv (List.mem_cons_of_mem _ hkv)
    have hj := h j (List.mem_cons_self ..)
    match j, hj with
    | .map kvs, hj =>
      cases hj with | props hj =>
      obtain ⟨e, he⟩ := props_of_has kvs hj
      exact ⟨e :: l, by simp [serElems, he, hl]⟩
end

theorem props_fits : Fits (fun l => .map (stringKeys (serProps l))) .props := by
  intro j
  constructor
  · intro h
    cases h with | props h =>
    obtain ⟨l, rfl⟩ := props_of_has _ h
    exact ⟨l, rfl⟩
  · rintro ⟨l, rfl⟩
    exact .props (serProps_has l)

/-! ### Generated -/

set_option maxRecDepth 100000
set_option linter.unusedSimpArgs false

theorem vector3f_fits : Fits cVector3f.ser vector3fShape := by
  intro j
  constructor
  · intro h
    cases h with | struct h =>
    cases h with | cons h0 h =>
    cases h with | cons h1 h =>
    cases h with | cons h2 h =>
    cases h
    obtain ⟨v0, rfl⟩ := (f32_fits _).1 h0
    obtain ⟨v1, rfl⟩ := (f32_fits _).1 h1
    obtain ⟨v2, rfl⟩ := (f32_fits _).1 h2
    exact ⟨⟨v0, v1, v2⟩, rfl⟩
  · rintro ⟨v, rfl⟩
    refine .struct (.cons ?_ (.cons ?_ (.cons ?_ .nil)))
    · exact (f32_fits _).2 ⟨v.x, rfl⟩
    · exact (f32_fits _).2 ⟨v.y, rfl⟩
    · exact (f32_fits _).2 ⟨v.z, rfl⟩

theorem vector3i_fits : Fits cVector3i.ser vector3iShape := by
  intro j
  constructor
  · intro h
    cases h with | struct h =>
    cases h with | cons h0 h =>
    cases h with | cons h1 h =>
    cases h with | cons h2 h =>
    cases h
    obtain ⟨v0, rfl⟩ := ((signed_fits 32 (by decide)) _).1 h0
    obtain ⟨v1, rfl⟩ := ((signed_fits 32 (by decide)) _).1 h1
    obtain ⟨v2, rfl⟩ := ((signed_fits 32 (by decide)) _).1 h2
    exact ⟨⟨v0, v1, v2⟩, rfl⟩
  · rintro ⟨v, rfl⟩
    refine .struct (.cons ?_ (.cons ?_ (.cons ?_ .nil)))
    · exact ((signed_fits 32 (by decide)) _).2 ⟨v.x, rfl⟩
    · exact ((signed_fits 32 (by decide)) _).2 ⟨v.y, rfl⟩
    · exact ((signed_fits 32 (by decide)) _).2 ⟨v.z, rfl⟩

theorem quaternion_fits : Fits cQuaternion.ser quaternionShape := by
  intro j
  constructor
  · intro h
    cases h with | struct h =>
    cases h with | cons h0 h =>
    cases h with | cons h1 h =>
    cases h with | cons h2 h =>
    cases h with | cons h3 h =>
    cases h
    obtain ⟨v0, rfl⟩ := (f32_fits _).1 h0
    obtain ⟨v1, rfl⟩ := (f32_fits _).1 h1
    obtain ⟨v2, rfl⟩ := (f32_fits _).1 h2
    obtain ⟨v3, rfl⟩ := (f32_fits _).1 h3
    exact ⟨⟨v0, v1, v2, v3⟩, rfl⟩
  · rintro ⟨v, rfl⟩
    refine .struct (.cons ?_ (.cons ?_ (.cons ?_ (.cons ?_ .nil))))
    · exact (f32_fits _).2 ⟨v.x, rfl⟩
    · exact (f32_fits _).2 ⟨v.y, rfl⟩
    · exact (f32_fits _).2 ⟨v.z, rfl⟩
    · exact (f32_fits _).2 ⟨v.w, rfl⟩

theorem rotation_fits : Fits cRotation.ser rotationShape := by
  intro j
  constructor
  · intro h
    cases h with | struct h =>
    cases h with | cons h0 h =>
    cases h with | cons h1 h =>
    cases h with | cons h2 h =>
    cases h
    obtain ⟨v0, rfl⟩ := ((option_fits (signed_fits 8 (by decide))) _).1 h0
    obtain ⟨v1, rfl⟩ := ((option_fits (signed_fits 8 (by decide))) _).1 h1
    obtain ⟨v2, rfl⟩ := ((option_fits (signed_fits 8 (by decide))) _).1 h2
    exact ⟨⟨v0, v1, v2⟩, rfl⟩
  · rintro ⟨v, rfl⟩
    refine .struct (.cons ?_ (.cons ?_ (.cons ?_ .nil)))
    · exact ((option_fits (signed_fits 8 (by decide))) _).2 ⟨v.yaw, rfl⟩
    · exact ((option_fits (signed_fits 8 (by decide))) _).2 ⟨v.pitch, rfl⟩
    · exact ((option_fits (signed_fits 8 (by decide))) _).2 ⟨v.roll, rfl⟩

theorem trajectory_fits : Fits cTrajectory.ser trajectoryShape := by
  intro j
  constructor
  · intro h
    cases h with | struct h =>
    cases h with | cons h0 h =>
    cases h with | cons h1 h =>
    cases h
    obtain ⟨v0, rfl⟩ := ((option_fits vector3i_fits) _).1 h0
    obtain ⟨v1, rfl⟩ := ((option_fits rotation_fits) _).1 h1
    exact ⟨⟨v0, v1⟩, rfl⟩
  · rintro ⟨v, rfl⟩
    refine .struct (.cons ?_ (.cons ?_ .nil))
    · exact ((option_fits vector3i_fits) _).2 ⟨v.location, rfl⟩
    · exact ((option_fits rotation_fits) _).2 ⟨v.rotation, rfl⟩

theorem newActor_fits : Fits cNewActor.ser newActorShape := by
  intro j
  constructor
  · intro h
    cases h with | struct h =>
    cases h with | cons h0 h =>
    cases h with | cons h1 h =>
    cases h with | cons h2 h =>
    cases h with | cons h3 h =>
    cases h
    obtain ⟨v0, rfl⟩ := ((signed_fits 32 (by decide)) _).1 h0
    obtain ⟨v1, rfl⟩ := ((option_fits (signed_fits 32 (by decide))) _).1 h1
    obtain ⟨v2, rfl⟩ := ((signed_fits 32 (by decide)) _).1 h2
    obtain ⟨v3, rfl⟩ := (trajectory_fits _).1 h3
    exact ⟨⟨v0, v1, v2, v3⟩, rfl⟩
  · rintro ⟨v, rfl⟩
    refine .struct (.cons ?_ (.cons ?_ (.cons ?_ (.cons ?_ .nil))))
    · exact ((signed_fits 32 (by decide)) _).2 ⟨v.actorId, rfl⟩
    · exact ((option_fits (signed_fits 32 (by decide))) _).2 ⟨v.nameId, rfl⟩
    · exact ((signed_fits 32 (by decide)) _).2 ⟨v.objectId, rfl⟩
    · exact (trajectory_fits _).2 ⟨v.initialTrajectory, rfl⟩

theorem activeActor_fits : Fits cActiveActor.ser activeActorShape := by
  intro j
  constructor
  · intro h
    cases h with | struct h =>
    cases h with | cons h0 h =>
    cases h with | cons h1 h =>
    cases h
    obtain ⟨v0, rfl⟩ := (bool_fits _).1 h0
    obtain ⟨v1, rfl⟩ := ((signed_fits 32 (by decide)) _).1 h1
    exact ⟨⟨v0, v1⟩, rfl⟩
  · rintro ⟨v, rfl⟩
    refine .struct (.cons ?_ (.cons ?_ .nil))
    · exact (bool_fits _).2 ⟨v.active, rfl⟩
    · exact ((signed_fits 32 (by decide)) _).2 ⟨v.actor, rfl⟩

theorem camSettings_fits : Fits cCamSettings.ser camSettingsShape := by
  intro j
  constructor
  · intro h
    cases h with | struct h =>
    cases h with | cons h0 h =>
    cases h with | cons h1 h =>
    cases h with | cons h2 h =>
    cases h with | cons h3 h =>
    cases h with | cons h4 h =>
    cases h with | cons h5 h =>
    cases h with | cons h6 h =>
    cases h
    obtain ⟨v0, rfl⟩ := (f32_fits _).1 h0
    obtain ⟨v1, rfl⟩ := (f32_fits _).1 h1
    obtain ⟨v2, rfl⟩ := (f32_fits _).1 h2
    obtain ⟨v3, rfl⟩ := (f32_fits _).1 h3
    obtain ⟨v4, rfl⟩ := (f32_fits _).1 h4
    obtain ⟨v5, rfl⟩ := (f32_fits _).1 h5
    obtain ⟨v6, rfl⟩ := ((option_fits f32_fits) _).1 h6
    exact ⟨⟨v0, v1, v2, v3, v4, v5, v6⟩, rfl⟩
  · rintro ⟨v, rfl⟩
    refine .struct (.cons ?_ (.cons ?_ (.cons ?_ (.cons ?_ (.cons ?_ (.cons ?_ (.cons ?_ .nil)))))))
    · exact (f32_fits _).2 ⟨v.fov, rfl⟩
    · exact (f32_fits _).2 ⟨v.height, rfl⟩
    · exact (f32_fits _).2 ⟨v.angle, rfl⟩
    · exact (f32_fits _).2 ⟨v.distance, rfl⟩
    · exact (f32_fits _).2 ⟨v.stiffness, rfl⟩
    · exact (f32_fits _).2 ⟨v.swivel, rfl⟩
    · exact ((option_fits f32_fits) _).2 ⟨v.transition, rfl⟩

theorem clubColors_fits : Fits cClubColors.ser clubColorsShape := by
  intro j
  constructor
  · intro h
    cases h with | struct h =>
    cases h with | cons h0 h =>
    cases h with | cons h1 h =>
    cases h with | cons h2 h =>
    cases h with | cons h3 h =>
    cases h
    obtain ⟨v0, rfl⟩ := (bool_fits _).1 h0
    obtain ⟨v1, rfl⟩ := ((unsigned_fits 8) _).1 h1
    obtain ⟨v2, rfl⟩ := (bool_fits _).1 h2
    obtain ⟨v3, rfl⟩ := ((unsigned_fits 8) _).1 h3
    exact ⟨⟨v0, v1, v2, v3⟩, rfl⟩
  · rintro ⟨v, rfl⟩
    refine .struct (.cons ?_ (.cons ?_ (.cons ?_ (.cons ?_ .nil))))
    · exact (bool_fits _).2 ⟨v.blueFlag, rfl⟩
    · exact ((unsigned_fits 8) _).2 ⟨v.blueColor, rfl⟩
    · exact (bool_fits _).2 ⟨v.orangeFlag, rfl⟩
    · exact ((unsigned_fits 8) _).2 ⟨v.orangeColor, rfl⟩

theorem appliedDamage_fits : Fits cAppliedDamage.ser appliedDamageShape := by
  intro j
  constructor
  · intro h
    cases h with | struct h =>
    cases h with | cons h0 h =>
    cases h with | cons h1 h =>
    cases h with | cons h2 h =>
    cases h with | cons h3 h =>
    cases h
    obtain ⟨v0, rfl⟩ := ((unsigned_fits 8) _).1 h0
    obtain ⟨v1, rfl⟩ := (vector3f_fits _).1 h1
    obtain ⟨v2, rfl⟩ := ((signed_fits 32 (by decide)) _).1 h2
    obtain ⟨v3, rfl⟩ := ((signed_fits 32 (by decide)) _).1 h3
    exact ⟨⟨v0, v1, v2, v3⟩, rfl⟩
  · rintro ⟨v, rfl⟩
    refine .struct (.cons ?_ (.cons ?_ (.cons ?_ (.cons ?_ .nil))))
    · exact ((unsigned_fits 8) _).2 ⟨v.id, rfl⟩
    · exact (vector3f_fits _).2 ⟨v.position, rfl⟩
    · exact ((signed_fits 32 (by decide)) _).2 ⟨v.damageIndex, rfl⟩
    · exact ((signed_fits 32 (by decide)) _).2 ⟨v.totalDamage, rfl⟩

theorem damageState_fits : Fits cDamageState.ser damageStateShape := by
  intro j
  constructor
  · intro h
    cases h with | struct h =>
    cases h with | cons h0 h =>
    cases h with | cons h1 h =>
    cases h with | cons h2 h =>
    cases h with | cons h3 h =>
    cases h with | cons h4 h =>
    cases h with | cons h5 h =>
    cases h
    obtain ⟨v0, rfl⟩ := ((unsigned_fits 8) _).1 h0
    obtain ⟨v1, rfl⟩ := (bool_fits _).1 h1
    obtain ⟨v2, rfl⟩ := ((signed_fits 32 (by decide)) _).1 h2
    obtain ⟨v3, rfl⟩ := (vector3f_fits _).1 h3
    obtain ⟨v4, rfl⟩ := (bool_fits _).1 h4
    obtain ⟨v5, rfl⟩ := (bool_fits _).1 h5
    exact ⟨⟨v0, v1, v2, v3, v4, v5⟩, rfl⟩
  · rintro ⟨v, rfl⟩
    refine .struct (.cons ?_ (.cons ?_ (.cons ?_ (.cons ?_ (.cons ?_ (.cons ?_ .nil))))))
    · exact ((unsigned_fits 8) _).2 ⟨v.tileState, rfl⟩
    · exact (bool_fits _).2 ⟨v.damaged, rfl⟩
    · exact ((signed_fits 32 (by decide)) _).2 ⟨v.offender, rfl⟩
    · exact (vector3f_fits _).2 ⟨v.ballPosition, rfl⟩
    · exact (bool_fits _).2 ⟨v.directHit, rfl⟩
    · exact (bool_fits _).2 ⟨v.unknown1, rfl⟩

theorem demolish_fits : Fits cDemolish.ser demolishShape := by
  intro j
  constructor
  · intro h
    cases h with | struct h =>
    cases h with | cons h0 h =>
    cases h with | cons h1 h =>
    cases h with | cons h2 h =>
    cases h with | cons h3 h =>
    cases h with | cons h4 h =>
    cases h with | cons h5 h =>
    cases h
    obtain ⟨v0, rfl⟩ := (bool_fits _).1 h0
    obtain ⟨v1, rfl⟩ := ((signed_fits 32 (by decide)) _).1 h1
    obtain ⟨v2, rfl⟩ := (bool_fits _).1 h2
    obtain ⟨v3, rfl⟩ := ((signed_fits 32 (by decide)) _).1 h3
    obtain ⟨v4, rfl⟩ := (vector3f_fits _).1 h4
    obtain ⟨v5, rfl⟩ := (vector3f_fits _).1 h5
    exact ⟨⟨v0, v1, v2, v3, v4, v5⟩, rfl⟩
  · rintro ⟨v, rfl⟩
    refine .struct (.cons ?_ (.cons ?_ (.cons ?_ (.cons ?_ (.cons ?_ (.cons ?_ .nil))))))
    · exact (bool_fits _).2 ⟨v.attackerFlag, rfl⟩
    · exact ((signed_fits 32 (by decide)) _).2 ⟨v.attacker, rfl⟩
    · exact (bool_fits _).2 ⟨v.victimFlag, rfl⟩
    · exact ((signed_fits 32 (by decide)) _).2 ⟨v.victim, rfl⟩
    · exact (vector3f_fits _).2 ⟨v.attackVelocity, rfl⟩
    · exact (vector3f_fits _).2 ⟨v.victimVelocity, rfl⟩

theorem demolishExtended_fits : Fits cDemolishExtended.ser demolishExtendedShape := by
  intro j
  constructor
  · intro h
    cases h with | struct h =>
    cases h with | cons h0 h =>
    cases h with | cons h1 h =>
    cases h with | cons h2 h =>
    cases h with | cons h3 h =>
    cases h with | cons h4 h =>
    cases h with | cons h5 h =>
    cases h with | cons h6 h =>
    cases h with | cons h7 h =>
    cases h
    obtain ⟨v0, rfl⟩ := (activeActor_fits _).1 h0
    obtain ⟨v1, rfl⟩ := (activeActor_fits _).1 h1
    obtain ⟨v2, rfl⟩ := (bool_fits _).1 h2
    obtain ⟨v3, rfl⟩ := (activeActor_fits _).1 h3
    obtain ⟨v4, rfl⟩ := (activeActor_fits _).1 h4
    obtain ⟨v5, rfl⟩ := (activeActor_fits _).1 h5
    obtain ⟨v6, rfl⟩ := (vector3f_fits _).1 h6
    obtain ⟨v7, rfl⟩ := (vector3f_fits _).1 h7
    exact ⟨⟨v0, v1, v2, v3, v4, v5, v6, v7⟩, rfl⟩
  · rintro ⟨v, rfl⟩
    refine .struct (.cons ?_ (.cons ?_ (.cons ?_ (.cons ?_ (.cons ?_ (.cons ?_ (.cons ?_ (.cons ?_ .nil))))))))
    · exact (activeActor_fits _).2 ⟨v.attackerPri, rfl⟩
    · exact (activeActor_fits _).2 ⟨v.selfDemo, rfl⟩
    · exact (bool_fits _).2 ⟨v.selfDemolish, rfl⟩
    · exact (activeActor_fits _).2 ⟨v.goalExplosionOwner, rfl⟩
    · exact (activeActor_fits _).2 ⟨v.attacker, rfl⟩
    · exact (activeActor_fits _).2 ⟨v.victim, rfl⟩
    · exact (vector3f_fits _).2 ⟨v.attackerVelocity, rfl⟩
    · exact (vector3f_fits _).2 ⟨v.victimVelocity, rfl⟩

theorem demolishFx_fits : Fits cDemolishFx.ser demolishFxShape := by
  intro j
  constructor
  · intro h
    cases h with | struct h =>
    cases h with | cons h0 h =>
    cases h with | cons h1 h =>
    cases h with | cons h2 h =>
    cases h with | cons h3 h =>
    cases h with | cons h4 h =>
    cases h with | cons h5 h =>
    cases h with | cons h6 h =>
    cases h with | cons h7 h =>
    cases h
    obtain ⟨v0, rfl⟩ := (bool_fits _).1 h0
    obtain ⟨v1, rfl⟩ := ((signed_fits 32 (by decide)) _).1 h1
    obtain ⟨v2, rfl⟩ := (bool_fits _).1 h2
    obtain ⟨v3, rfl⟩ := ((signed_fits 32 (by decide)) _).1 h3
    obtain ⟨v4, rfl⟩ := (bool_fits _).1 h4
    obtain ⟨v5, rfl⟩ := ((signed_fits 32 (by decide)) _).1 h5
    obtain ⟨v6, rfl⟩ := (vector3f_fits _).1 h6
    obtain ⟨v7, rfl⟩ := (vector3f_fits _).1 h7
    exact ⟨⟨v0, v1, v2, v3, v4, v5, v6, v7⟩, rfl⟩
  · rintro ⟨v, rfl⟩
    refine .struct (.cons ?_ (.cons ?_ (.cons ?_ (.cons ?_ (.cons ?_ (.cons ?_ (.cons ?_ (.cons ?_ .nil))))))))
    · exact (bool_fits _).2 ⟨v.customDemoFlag, rfl⟩
    · exact ((signed_fits 32 (by decide)) _).2 ⟨v.customDemoId, rfl⟩
    · exact (bool_fits _).2 ⟨v.attackerFlag, rfl⟩
    · exact ((signed_fits 32 (by decide)) _).2 ⟨v.attacker, rfl⟩
    · exact (bool_fits _).2 ⟨v.victimFlag, rfl⟩
    · exact ((signed_fits 32 (by decide)) _).2 ⟨v.victim, rfl⟩
    · exact (vector3f_fits _).2 ⟨v.attackVelocity, rfl⟩
    · exact (vector3f_fits _).2 ⟨v.victimVelocity, rfl⟩

theorem explosion_fits : Fits cExplosion.ser explosionShape := by
  intro j
  constructor
  · intro h
    cases h with | struct h =>
    cases h with | cons h0 h =>
    cases h with | cons h1 h =>
    cases h with | cons h2 h =>
    cases h
    obtain ⟨v0, rfl⟩ := (bool_fits _).1 h0
    obtain ⟨v1, rfl⟩ := ((signed_fits 32 (by decide)) _).1 h1
    obtain ⟨v2, rfl⟩ := (vector3f_fits _).1 h2
    exact ⟨⟨v0, v1, v2⟩, rfl⟩
  · rintro ⟨v, rfl⟩
    refine .struct (.cons ?_ (.cons ?_ (.cons ?_ .nil)))
    · exact (bool_fits _).2 ⟨v.flag, rfl⟩
    · exact ((signed_fits 32 (by decide)) _).2 ⟨v.actor, rfl⟩
    · exact (vector3f_fits _).2 ⟨v.location, rfl⟩

theorem extendedExplosion_fits : Fits cExtendedExplosion.ser extendedExplosionShape := by
  intro j
  constructor
  · intro h
    cases h with | struct h =>
    cases h with | cons h0 h =>
    cases h with | cons h1 h =>
    cases h with | cons h2 h =>
    cases h
    obtain ⟨v0, rfl⟩ := (explosion_fits _).1 h0
    obtain ⟨v1, rfl⟩ := (bool_fits _).1 h1
    obtain ⟨v2, rfl⟩ := ((signed_fits 32 (by decide)) _).1 h2
    exact ⟨⟨v0, v1, v2⟩, rfl⟩
  · rintro ⟨v, rfl⟩
    refine .struct (.cons ?_ (.cons ?_ (.cons ?_ .nil)))
    · exact (explosion_fits _).2 ⟨v.explosion, rfl⟩
    · exact (bool_fits _).2 ⟨v.unknown1, rfl⟩
    · exact ((signed_fits 32 (by decide)) _).2 ⟨v.secondaryActor, rfl⟩

theorem loadout_fits : Fits cLoadout.ser loadoutShape := by
  intro j
  constructor
  · intro h
    cases h with | struct h =>
    cases h with | cons h0 h =>
    cases h with | cons h1 h =>
    cases h with | cons h2 h =>
    cases h with | cons h3 h =>
    cases h with | cons h4 h =>
    cases h with | cons h5 h =>
    cases h with | cons h6 h =>
    cases h with | cons h7 h =>
    cases h with | cons h8 h =>
    cases h with | cons h9 h =>
    cases h with | cons h10 h =>
    cases h with | cons h11 h =>
    cases h with | cons h12 h =>
    cases h with | cons h13 h =>
    cases h
    obtain ⟨v0, rfl⟩ := ((unsigned_fits 8) _).1 h0
    obtain ⟨v1, rfl⟩ := ((unsigned_fits 32) _).1 h1
    obtain ⟨v2, rfl⟩ := ((unsigned_fits 32) _).1 h2
    obtain ⟨v3, rfl⟩ := ((unsigned_fits 32) _).1 h3
    obtain ⟨v4, rfl⟩ := ((unsigned_fits 32) _).1 h4
    obtain ⟨v5, rfl⟩ := ((unsigned_fits 32) _).1 h5
    obtain ⟨v6, rfl⟩ := ((unsigned_fits 32) _).1 h6
    obtain ⟨v7, rfl⟩ := ((unsigned_fits 32) _).1 h7
    obtain ⟨v8, rfl⟩ := ((option_fits (unsigned_fits 32)) _).1 h8
    obtain ⟨v9, rfl⟩ := ((option_fits (unsigned_fits 32)) _).1 h9
    obtain ⟨v10, rfl⟩ := ((option_fits (unsigned_fits 32)) _).1 h10
    obtain ⟨v11, rfl⟩ := ((option_fits (unsigned_fits 32)) _).1 h11
    obtain ⟨v12, rfl⟩ := ((option_fits (unsigned_fits 32)) _).1 h12
    obtain ⟨v13, rfl⟩ := ((option_fits (unsigned_fits 32)) _).1 h13
    exact ⟨⟨v0, v1, v2, v3, v4, v5, v6, v7, v8, v9, v10, v11, v12, v13⟩, rfl⟩
  · rintro ⟨v, rfl⟩
    refine .struct (.cons ?_ (.cons ?_ (.cons ?_ (.cons ?_ (.cons ?_ (.cons ?_ (.cons ?_ (.cons ?_ (.cons ?_ (.cons ?_ (.cons ?_ (.cons ?_ (.cons ?_ (.cons ?_ .nil))))))))))))))
    · exact ((unsigned_fits 8) _).2 ⟨v.version, rfl⟩
    · exact ((unsigned_fits 32) _).2 ⟨v.body, rfl⟩
    · exact ((unsigned_fits 32) _).2 ⟨v.decal, rfl⟩
    · exact ((unsigned_fits 32) _).2 ⟨v.wheels, rfl⟩
    · exact ((unsigned_fits 32) _).2 ⟨v.rocketTrail, rfl⟩
    · exact ((unsigned_fits 32) _).2 ⟨v.antenna, rfl⟩
    · exact ((unsigned_fits 32) _).2 ⟨v.topper, rfl⟩
    · exact ((unsigned_fits 32) _).2 ⟨v.unknown1, rfl⟩
    · exact ((option_fits (unsigned_fits 32)) _).2 ⟨v.unknown2, rfl⟩
    · exact ((option_fits (unsigned_fits 32)) _).2 ⟨v.engineAudio, rfl⟩
    · exact ((option_fits (unsigned_fits 32)) _).2 ⟨v.trail, rfl⟩
    · exact ((option_fits (unsigned_fits 32)) _).2 ⟨v.goalExplosion, rfl⟩
    · exact ((option_fits (unsigned_fits 32)) _).2 ⟨v.banner, rfl⟩
    · exact ((option_fits (unsigned_fits 32)) _).2 ⟨v.productId, rfl⟩

theorem teamLoadout_fits : Fits cTeamLoadout.ser teamLoadoutShape := by
  intro j
  constructor
  · intro h
    cases h with | struct h =>
    cases h with | cons h0 h =>
    cases h with | cons h1 h =>
    cases h
    obtain ⟨v0, rfl⟩ := (loadout_fits _).1 h0
    obtain ⟨v1, rfl⟩ := (loadout_fits _).1 h1
    exact ⟨⟨v0, v1⟩, rfl⟩
  · rintro ⟨v, rfl⟩
    refine .struct (.cons ?_ (.cons ?_ .nil))
    · exact (loadout_fits _).2 ⟨v.blue, rfl⟩
    · exact (loadout_fits _).2 ⟨v.orange, rfl⟩

theorem statEvent_fits : Fits cStatEvent.ser statEventShape := by
  intro j
  constructor
  · intro h
    cases h with | struct h =>
    cases h with | cons h0 h =>
    cases h with | cons h1 h =>
    cases h
    obtain ⟨v0, rfl⟩ := (bool_fits _).1 h0
    obtain ⟨v1, rfl⟩ := ((signed_fits 32 (by decide)) _).1 h1
    exact ⟨⟨v0, v1⟩, rfl⟩
  · rintro ⟨v, rfl⟩
    refine .struct (.cons ?_ (.cons ?_ .nil))
    · exact (bool_fits _).2 ⟨v.unknown1, rfl⟩
    · exact ((signed_fits 32 (by decide)) _).2 ⟨v.objectId, rfl⟩

theorem musicStinger_fits : Fits cMusicStinger.ser musicStingerShape := by
  intro j
  constructor
  · intro h
    cases h with | struct h =>
    cases h with | cons h0 h =>
    cases h with | cons h1 h =>
    cases h with | cons h2 h =>
    cases h
    obtain ⟨v0, rfl⟩ := (bool_fits _).1 h0
    obtain ⟨v1, rfl⟩ := ((unsigned_fits 32) _).1 h1
    obtain ⟨v2, rfl⟩ := ((unsigned_fits 8) _).1 h2
    exact ⟨⟨v0, v1, v2⟩, rfl⟩
  · rintro ⟨v, rfl⟩
    refine .struct (.cons ?_ (.cons ?_ (.cons ?_ .nil)))
    · exact (bool_fits _).2 ⟨v.flag, rfl⟩
    · exact ((unsigned_fits 32) _).2 ⟨v.cue, rfl⟩
    · exact ((unsigned_fits 8) _).2 ⟨v.trigger, rfl⟩

theorem pickup_fits : Fits cPickup.ser pickupShape := by
  intro j
  constructor
  · intro h
    cases h with | struct h =>
    cases h with | cons h0 h =>
    cases h with | cons h1 h =>
    cases h
    obtain ⟨v0, rfl⟩ := ((option_fits (signed_fits 32 (by decide))) _).1 h0
    obtain ⟨v1, rfl⟩ := (bool_fits _).1 h1
    exact ⟨⟨v0, v1⟩, rfl⟩
  · rintro ⟨v, rfl⟩
    refine .struct (.cons ?_ (.cons ?_ .nil))
    · exact ((option_fits (signed_fits 32 (by decide))) _).2 ⟨v.instigator, rfl⟩
    · exact (bool_fits _).2 ⟨v.pickedUp, rfl⟩

theorem pickupNew_fits : Fits cPickupNew.ser pickupNewShape := by
  intro j
  constructor
  · intro h
    cases h with | struct h =>
    cases h with | cons h0 h =>
    cases h with | cons h1 h =>
    cases h
    obtain ⟨v0, rfl⟩ := ((option_fits (signed_fits 32 (by decide))) _).1 h0
    obtain ⟨v1, rfl⟩ := ((unsigned_fits 8) _).1 h1
    exact ⟨⟨v0, v1⟩, rfl⟩
  · rintro ⟨v, rfl⟩
    refine .struct (.cons ?_ (.cons ?_ .nil))
    · exact ((option_fits (signed_fits 32 (by decide))) _).2 ⟨v.instigator, rfl⟩
    · exact ((unsigned_fits 8) _).2 ⟨v.pickedUp, rfl⟩

theorem welded_fits : Fits cWelded.ser weldedShape := by
  intro j
  constructor
  · intro h
    cases h with | struct h =>
    cases h with | cons h0 h =>
    cases h with | cons h1 h =>
    cases h with | cons h2 h =>
    cases h with | cons h3 h =>
    cases h with | cons h4 h =>
    cases h
    obtain ⟨v0, rfl⟩ := (bool_fits _).1 h0
    obtain ⟨v1, rfl⟩ := ((signed_fits 32 (by decide)) _).1 h1
    obtain ⟨v2, rfl⟩ := (vector3f_fits _).1 h2
    obtain ⟨v3, rfl⟩ := (f32_fits _).1 h3
    obtain ⟨v4, rfl⟩ := (rotation_fits _).1 h4
    exact ⟨⟨v0, v1, v2, v3, v4⟩, rfl⟩
  · rintro ⟨v, rfl⟩
    refine .struct (.cons ?_ (.cons ?_ (.cons ?_ (.cons ?_ (.cons ?_ .nil)))))
    · exact (bool_fits _).2 ⟨v.active, rfl⟩
    · exact ((signed_fits 32 (by decide)) _).2 ⟨v.actor, rfl⟩
    · exact (vector3f_fits _).2 ⟨v.offset, rfl⟩
    · exact (f32_fits _).2 ⟨v.mass, rfl⟩
    · exact (rotation_fits _).2 ⟨v.rotation, rfl⟩

theorem teamPaint_fits : Fits cTeamPaint.ser teamPaintShape := by
  intro j
  constructor
  · intro h
    cases h with | struct h =>
    cases h with | cons h0 h =>
    cases h with | cons h1 h =>
    cases h with | cons h2 h =>
    cases h with | cons h3 h =>
    cases h with | cons h4 h =>
    cases h
    obtain ⟨v0, rfl⟩ := ((unsigned_fits 8) _).1 h0
    obtain ⟨v1, rfl⟩ := ((unsigned_fits 8) _).1 h1
    obtain ⟨v2, rfl⟩ := ((unsigned_fits 8) _).1 h2
    obtain ⟨v3, rfl⟩ := ((unsigned_fits 32) _).1 h3
    obtain ⟨v4, rfl⟩ := ((unsigned_fits 32) _).1 h4
    exact ⟨⟨v0, v1, v2, v3, v4⟩, rfl⟩
  · rintro ⟨v, rfl⟩
    refine .struct (.cons ?_ (.cons ?_ (.cons ?_ (.cons ?_ (.cons ?_ .nil)))))
    · exact ((unsigned_fits 8) _).2 ⟨v.team, rfl⟩
    · exact ((unsigned_fits 8) _).2 ⟨v.primaryColor, rfl⟩
    · exact ((unsigned_fits 8) _).2 ⟨v.accentColor, rfl⟩
    · exact ((unsigned_fits 32) _).2 ⟨v.primaryFinish, rfl⟩
    · exact ((unsigned_fits 32) _).2 ⟨v.accentFinish, rfl⟩

theorem rigidBody_fits : Fits cRigidBody.ser rigidBodyShape := by
  intro j
  constructor
  · intro h
    cases h with | struct h =>
    cases h with | cons h0 h =>
    cases h with | cons h1 h =>
    cases h with | cons h2 h =>
    cases h with | cons h3 h =>
    cases h with | cons h4 h =>
    cases h
    obtain ⟨v0, rfl⟩ := (bool_fits _).1 h0
    obtain ⟨v1, rfl⟩ := (vector3f_fits _).1 h1
    obtain ⟨v2, rfl⟩ := (quaternion_fits _).1 h2
    obtain ⟨v3, rfl⟩ := ((option_fits vector3f_fits) _).1 h3
    obtain ⟨v4, rfl⟩ := ((option_fits vector3f_fits) _).1 h4
    exact ⟨⟨v0, v1, v2, v3, v4⟩, rfl⟩
  · rintro ⟨v, rfl⟩
    refine .struct (.cons ?_ (.cons ?_ (.cons ?_ (.cons ?_ (.cons ?_ .nil)))))
    · exact (bool_fits _).2 ⟨v.sleeping, rfl⟩
    · exact (vector3f_fits _).2 ⟨v.location, rfl⟩
    · exact (quaternion_fits _).2 ⟨v.rotation, rfl⟩
    · exact ((option_fits vector3f_fits) _).2 ⟨v.linearVelocity, rfl⟩
    · exact ((option_fits vector3f_fits) _).2 ⟨v.angularVelocity, rfl⟩

theorem remoteId_fits : Fits cRemoteId.ser remoteIdShape := by
  intro j
  constructor
  · intro h
    cases h with
    | unitVariant hm =>
      simp only [List.mem_cons, Prod.mk.injEq, List.not_mem_nil, or_false, reduceCtorEq, and_false, and_true, false_or] at hm
    | variant hm h =>
      simp only [List.mem_cons, Prod.mk.injEq, List.not_mem_nil, or_false, reduceCtorEq, and_false, false_or, Option.some.injEq] at hm
      rcases hm with ⟨rfl, rfl⟩ | ⟨rfl, rfl⟩ | ⟨rfl, rfl⟩ | ⟨rfl, rfl⟩ | ⟨rfl, rfl⟩ | ⟨rfl, rfl⟩ | ⟨rfl, rfl⟩ | ⟨rfl, rfl⟩
      · cases h with | struct h =>
        cases h with | cons h0 h =>
        cases h with | cons h1 h =>
        cases h with | cons h2 h =>
        cases h
        obtain ⟨v0, rfl⟩ := (u64_fits _).1 h0
        obtain ⟨v1, rfl⟩ := (str_fits _).1 h1
        obtain ⟨v2, rfl⟩ := ((list_fits (unsigned_fits 8)) _).1 h2
        exact ⟨.playStation v0 v1 v2, rfl⟩
      · cases h with | struct h =>
        cases h with | cons h0 h =>
        cases h with | cons h1 h =>
        cases h
        obtain ⟨v0, rfl⟩ := (u64_fits _).1 h0
        obtain ⟨v1, rfl⟩ := ((list_fits (unsigned_fits 8)) _).1 h1
        exact ⟨.psyNet v0 v1, rfl⟩
      · obtain ⟨v, rfl⟩ := ((unsigned_fits 32) _).1 h
        exact ⟨.splitScreen v, rfl⟩
      · obtain ⟨v, rfl⟩ := (u64_fits _).1 h
        exact ⟨.steam v, rfl⟩
      · cases h with | struct h =>
        cases h with | cons h0 h =>
        cases h with | cons h1 h =>
        cases h
        obtain ⟨v0, rfl⟩ := (u64_fits _).1 h0
        obtain ⟨v1, rfl⟩ := ((list_fits (unsigned_fits 8)) _).1 h1
        exact ⟨.switch v0 v1, rfl⟩
      · obtain ⟨v, rfl⟩ := (u64_fits _).1 h
        exact ⟨.xbox v, rfl⟩
      · obtain ⟨v, rfl⟩ := (u64_fits _).1 h
        exact ⟨.qq v, rfl⟩
      · obtain ⟨v, rfl⟩ := (str_fits _).1 h
        exact ⟨.epic v, rfl⟩
  · rintro ⟨v, rfl⟩
    cases v
    · refine .variant (.head _) ?_
      refine .struct (.cons ?_ (.cons ?_ (.cons ?_ .nil)))
      · exact (u64_fits _).2 ⟨_, rfl⟩
      · exact (str_fits _).2 ⟨_, rfl⟩
      · exact ((list_fits (unsigned_fits 8)) _).2 ⟨_, rfl⟩
    · refine .variant (.tail _ (.head _)) ?_
      refine .struct (.cons ?_ (.cons ?_ .nil))
      · exact (u64_fits _).2 ⟨_, rfl⟩
      · exact ((list_fits (unsigned_fits 8)) _).2 ⟨_, rfl⟩
    · refine .variant (.tail _ (.tail _ (.head _))) ?_
      exact ((unsigned_fits 32) _).2 ⟨_, rfl⟩
    · refine .variant (.tail _ (.tail _ (.tail _ (.head _)))) ?_
      exact (u64_fits _).2 ⟨_, rfl⟩
    · refine .variant (.tail _ (.tail _ (.tail _ (.tail _ (.head _))))) ?_
      refine .struct (.cons ?_ (.cons ?_ .nil))
      · exact (u64_fits _).2 ⟨_, rfl⟩
      · exact ((list_fits (unsigned_fits 8)) _).2 ⟨_, rfl⟩
    · refine .variant (.tail _ (.tail _ (.tail _ (.tail _ (.tail _ (.head _)))))) ?_
      exact (u64_fits _).2 ⟨_, rfl⟩
    · refine .variant (.tail _ (.tail _ (.tail _ (.tail _ (.tail _ (.tail _ (.head _))))))) ?_
      exact (u64_fits _).2 ⟨_, rfl⟩
    · refine .variant (.tail _ (.tail _ (.tail _ (.tail _ (.tail _ (.tail _ (.tail _ (.head _)))))))) ?_
      exact (str_fits _).2 ⟨_, rfl⟩

theorem uniqueId_fits : Fits cUniqueId.ser uniqueIdShape := by
  intro j
  constructor
  · intro h
    cases h with | struct h =>
    cases h with | cons h0 h =>
    cases h with | cons h1 h =>
    cases h with | cons h2 h =>
    cases h
    obtain ⟨v0, rfl⟩ := ((unsigned_fits 8) _).1 h0
    obtain ⟨v1, rfl⟩ := (remoteId_fits _).1 h1
    obtain ⟨v2, rfl⟩ := ((unsigned_fits 8) _).1 h2
    exact ⟨⟨v0, v1, v2⟩, rfl⟩
  · rintro ⟨v, rfl⟩
    refine .struct (.cons ?_ (.cons ?_ (.cons ?_ .nil)))
    · exact ((unsigned_fits 8) _).2 ⟨v.systemId, rfl⟩
    · exact (remoteId_fits _).2 ⟨v.remoteId, rfl⟩
    · exact ((unsigned_fits 8) _).2 ⟨v.localId, rfl⟩

theorem reservation_fits : Fits cReservation.ser reservationShape := by
  intro j
  constructor
  · intro h
    cases h with | struct h =>
    cases h with | cons h0 h =>
    cases h with | cons h1 h =>
    cases h with | cons h2 h =>
    cases h with | cons h3 h =>
    cases h with | cons h4 h =>
    cases h with | cons h5 h =>
    cases h
    obtain ⟨v0, rfl⟩ := ((unsigned_fits 32) _).1 h0
    obtain ⟨v1, rfl⟩ := (uniqueId_fits _).1 h1
    obtain ⟨v2, rfl⟩ := ((option_fits str_fits) _).1 h2
    obtain ⟨v3, rfl⟩ := (bool_fits _).1 h3
    obtain ⟨v4, rfl⟩ := (bool_fits _).1 h4
    obtain ⟨v5, rfl⟩ := ((option_fits (unsigned_fits 8)) _).1 h5
    exact ⟨⟨v0, v1, v2, v3, v4, v5⟩, rfl⟩
  · rintro ⟨v, rfl⟩
    refine .struct (.cons ?_ (.cons ?_ (.cons ?_ (.cons ?_ (.cons ?_ (.cons ?_ .nil))))))
    · exact ((unsigned_fits 32) _).2 ⟨v.number, rfl⟩
    · exact (uniqueId_fits _).2 ⟨v.uniqueId, rfl⟩
    · exact ((option_fits str_fits) _).2 ⟨v.name, rfl⟩
    · exact (bool_fits _).2 ⟨v.unknown1, rfl⟩
    · exact (bool_fits _).2 ⟨v.unknown2, rfl⟩
    · exact ((option_fits (unsigned_fits 8)) _).2 ⟨v.unknown3, rfl⟩

theorem privateMatchSettings_fits : Fits cPrivateMatchSettings.ser privateMatchSettingsShape := by
  intro j
  constructor
  · intro h
    cases h with | struct h =>
    cases h with | cons h0 h =>
    cases h with | cons h1 h =>
    cases h with | cons h2 h =>
    cases h with | cons h3 h =>
    cases h with | cons h4 h =>
    cases h with | cons h5 h =>
    cases h
    obtain ⟨v0, rfl⟩ := (str_fits _).1 h0
    obtain ⟨v1, rfl⟩ := ((unsigned_fits 32) _).1 h1
    obtain ⟨v2, rfl⟩ := ((unsigned_fits 32) _).1 h2
    obtain ⟨v3, rfl⟩ := (str_fits _).1 h3
    obtain ⟨v4, rfl⟩ := (str_fits _).1 h4
    obtain ⟨v5, rfl⟩ := (bool_fits _).1 h5
    exact ⟨⟨v0, v1, v2, v3, v4, v5⟩, rfl⟩
  · rintro ⟨v, rfl⟩
    refine .struct (.cons ?_ (.cons ?_ (.cons ?_ (.cons ?_ (.cons ?_ (.cons ?_ .nil))))))
    · exact (str_fits _).2 ⟨v.mutators, rfl⟩
    · exact ((unsigned_fits 32) _).2 ⟨v.joinableBy, rfl⟩
    · exact ((unsigned_fits 32) _).2 ⟨v.maxPlayers, rfl⟩
    · exact (str_fits _).2 ⟨v.gameName, rfl⟩
    · exact (str_fits _).2 ⟨v.password, rfl⟩
    · exact (bool_fits _).2 ⟨v.flag, rfl⟩

theorem productValue_fits : Fits cProductValue.ser productValueShape := by
  intro j
  constructor
  · intro h
    cases h with
    | unitVariant hm =>
      simp only [List.mem_cons, Prod.mk.injEq, List.not_mem_nil, or_false, reduceCtorEq, and_false, and_true, false_or] at hm
      rcases hm with rfl | rfl
      · exact ⟨.noColor, rfl⟩
      · exact ⟨.absent, rfl⟩
    | variant hm h =>
      simp only [List.mem_cons, Prod.mk.injEq, List.not_mem_nil, or_false, reduceCtorEq, and_false, false_or, Option.some.injEq] at hm
      rcases hm with ⟨rfl, rfl⟩ | ⟨rfl, rfl⟩ | ⟨rfl, rfl⟩ | ⟨rfl, rfl⟩ | ⟨rfl, rfl⟩ | ⟨rfl, rfl⟩ | ⟨rfl, rfl⟩ | ⟨rfl, rfl⟩
      · obtain ⟨v, rfl⟩ := ((unsigned_fits 32) _).1 h
        exact ⟨.oldColor v, rfl⟩
      · obtain ⟨v, rfl⟩ := ((unsigned_fits 32) _).1 h
        exact ⟨.newColor v, rfl⟩
      · obtain ⟨v, rfl⟩ := ((unsigned_fits 32) _).1 h
        exact ⟨.oldPaint v, rfl⟩
      · obtain ⟨v, rfl⟩ := ((unsigned_fits 32) _).1 h
        exact ⟨.newPaint v, rfl⟩
      · obtain ⟨v, rfl⟩ := (str_fits _).1 h
        exact ⟨.title v, rfl⟩
      · obtain ⟨v, rfl⟩ := ((unsigned_fits 32) _).1 h
        exact ⟨.specialEdition v, rfl⟩
      · obtain ⟨v, rfl⟩ := ((unsigned_fits 32) _).1 h
        exact ⟨.oldTeamEdition v, rfl⟩
      · obtain ⟨v, rfl⟩ := ((unsigned_fits 32) _).1 h
        exact ⟨.newTeamEdition v, rfl⟩
  · rintro ⟨v, rfl⟩
    cases v
    · exact .unitVariant (.head _)
    · exact .unitVariant (.tail _ (.head _))
    · refine .variant (.tail _ (.tail _ (.head _))) ?_
      exact ((unsigned_fits 32) _).2 ⟨_, rfl⟩
    · refine .variant (.tail _ (.tail _ (.tail _ (.head _)))) ?_
      exact ((unsigned_fits 32) _).2 ⟨_, rfl⟩
    · refine .variant (.tail _ (.tail _ (.tail _ (.tail _ (.head _))))) ?_
      exact ((unsigned_fits 32) _).2 ⟨_, rfl⟩
    · refine .variant (.tail _ (.tail _ (.tail _ (.tail _ (.tail _ (.head _)))))) ?_
      exact ((unsigned_fits 32) _).2 ⟨_, rfl⟩
    · refine .variant (.tail _ (.tail _ (.tail _ (.tail _ (.tail _ (.tail _ (.head _))))))) ?_
      exact (str_fits _).2 ⟨_, rfl⟩
    · refine .variant (.tail _ (.tail _ (.tail _ (.tail _ (.tail _ (.tail _ (.tail _ (.head _)))))))) ?_
      exact ((unsigned_fits 32) _).2 ⟨_, rfl⟩
    · refine .variant (.tail _ (.tail _ (.tail _ (.tail _ (.tail _ (.tail _ (.tail _ (.tail _ (.head _))))))))) ?_
      exact ((unsigned_fits 32) _).2 ⟨_, rfl⟩
    · refine .variant (.tail _ (.tail _ (.tail _ (.tail _ (.tail _ (.tail _ (.tail _ (.tail _ (.tail _ (.head _)))))))))) ?_
      exact ((unsigned_fits 32) _).2 ⟨_, rfl⟩

theorem product_fits : Fits cProduct.ser productShape := by
  intro j
  constructor
  · intro h
    cases h with | struct h =>
    cases h with | cons h0 h =>
    cases h with | cons h1 h =>
    cases h with | cons h2 h =>
    cases h
    obtain ⟨v0, rfl⟩ := (bool_fits _).1 h0
    obtain ⟨v1, rfl⟩ := ((signed_fits 32 (by decide)) _).1 h1
    obtain ⟨v2, rfl⟩ := (productValue_fits _).1 h2
    exact ⟨⟨v0, v1, v2⟩, rfl⟩
  · rintro ⟨v, rfl⟩
    refine .struct (.cons ?_ (.cons ?_ (.cons ?_ .nil)))
    · exact (bool_fits _).2 ⟨v.unknown, rfl⟩
    · exact ((signed_fits 32 (by decide)) _).2 ⟨v.objectInd, rfl⟩
    · exact (productValue_fits _).2 ⟨v.value, rfl⟩

theorem loadoutsOnline_fits : Fits cLoadoutsOnline.ser loadoutsOnlineShape := by
  intro j
  constructor
  · intro h
    cases h with | struct h =>
    cases h with | cons h0 h =>
    cases h with | cons h1 h =>
    cases h with | cons h2 h =>
    cases h with | cons h3 h =>
    cases h
    obtain ⟨v0, rfl⟩ := ((list_fits (list_fits product_fits)) _).1 h0
    obtain ⟨v1, rfl⟩ := ((list_fits (list_fits product_fits)) _).1 h1
    obtain ⟨v2, rfl⟩ := (bool_fits _).1 h2
    obtain ⟨v3, rfl⟩ := (bool_fits _).1 h3
    exact ⟨⟨v0, v1, v2, v3⟩, rfl⟩
  · rintro ⟨v, rfl⟩
    refine .struct (.cons ?_ (.cons ?_ (.cons ?_ (.cons ?_ .nil))))
    · exact ((list_fits (list_fits product_fits)) _).2 ⟨v.blue, rfl⟩
    · exact ((list_fits (list_fits product_fits)) _).2 ⟨v.orange, rfl⟩
    · exact (bool_fits _).2 ⟨v.unknown1, rfl⟩
    · exact (bool_fits _).2 ⟨v.unknown2, rfl⟩

theorem repStatTitle_fits : Fits cRepStatTitle.ser repStatTitleShape := by
  intro j
  constructor
  · intro h
    cases h with | struct h =>
    cases h with | cons h0 h =>
    cases h with | cons h1 h =>
    cases h with | cons h2 h =>
    cases h with | cons h3 h =>
    cases h with | cons h4 h =>
    cases h
    obtain ⟨v0, rfl⟩ := (bool_fits _).1 h0
    obtain ⟨v1, rfl⟩ := (str_fits _).1 h1
    obtain ⟨v2, rfl⟩ := (bool_fits _).1 h2
    obtain ⟨v3, rfl⟩ := ((unsigned_fits 32) _).1 h3
    obtain ⟨v4, rfl⟩ := ((unsigned_fits 32) _).1 h4
    exact ⟨⟨v0, v1, v2, v3, v4⟩, rfl⟩
  · rintro ⟨v, rfl⟩
    refine .struct (.cons ?_ (.cons ?_ (.cons ?_ (.cons ?_ (.cons ?_ .nil)))))
    · exact (bool_fits _).2 ⟨v.unknown, rfl⟩
    · exact (str_fits _).2 ⟨v.name, rfl⟩
    · exact (bool_fits _).2 ⟨v.unknown2, rfl⟩
    · exact ((unsigned_fits 32) _).2 ⟨v.index, rfl⟩
    · exact ((unsigned_fits 32) _).2 ⟨v.value, rfl⟩

theorem pickupInfo_fits : Fits cPickupInfo.ser pickupInfoShape := by
  intro j
  constructor
  · intro h
    cases h with | struct h =>
    cases h with | cons h0 h =>
    cases h with | cons h1 h =>
    cases h
    obtain ⟨v0, rfl⟩ := ((array3_fits activeActor_fits) _).1 h0
    obtain ⟨v1, rfl⟩ := (bool_fits _).1 h1
    exact ⟨⟨v0, v1⟩, rfl⟩
  · rintro ⟨v, rfl⟩
    refine .struct (.cons ?_ (.cons ?_ .nil))
    · exact ((array3_fits activeActor_fits) _).2 ⟨v.availablePickups, rfl⟩
    · exact (bool_fits _).2 ⟨v.itemsArePreview, rfl⟩

theorem impulse_fits : Fits cImpulse.ser impulseShape := by
  intro j
  constructor
  · intro h
    cases h with | struct h =>
    cases h with | cons h0 h =>
    cases h with | cons h1 h =>
    cases h
    obtain ⟨v0, rfl⟩ := ((signed_fits 32 (by decide)) _).1 h0
    obtain ⟨v1, rfl⟩ := (f32_fits _).1 h1
    exact ⟨⟨v0, v1⟩, rfl⟩
  · rintro ⟨v, rfl⟩
    refine .struct (.cons ?_ (.cons ?_ .nil))
    · exact ((signed_fits 32 (by decide)) _).2 ⟨v.compressedRotation, rfl⟩
    · exact (f32_fits _).2 ⟨v.speed, rfl⟩

theorem replicatedBoost_fits : Fits cReplicatedBoost.ser replicatedBoostShape := by
  intro j
  constructor
  · intro h
    cases h with | struct h =>
    cases h with | cons h0 h =>
    cases h with | cons h1 h =>
    cases h with | cons h2 h =>
    cases h with | cons h3 h =>
    cases h
    obtain ⟨v0, rfl⟩ := ((unsigned_fits 8) _).1 h0
    obtain ⟨v1, rfl⟩ := ((unsigned_fits 8) _).1 h1
    obtain ⟨v2, rfl⟩ := ((unsigned_fits 8) _).1 h2
    obtain ⟨v3, rfl⟩ := ((unsigned_fits 8) _).1 h3
    exact ⟨⟨v0, v1, v2, v3⟩, rfl⟩
  · rintro ⟨v, rfl⟩
    refine .struct (.cons ?_ (.cons ?_ (.cons ?_ (.cons ?_ .nil))))
    · exact ((unsigned_fits 8) _).2 ⟨v.grantCount, rfl⟩
    · exact ((unsigned_fits 8) _).2 ⟨v.boostAmount, rfl⟩
    · exact ((unsigned_fits 8) _).2 ⟨v.unused1, rfl⟩
    · exact ((unsigned_fits 8) _).2 ⟨v.unused2, rfl⟩

theorem logoData_fits : Fits cLogoData.ser logoDataShape := by
  intro j
  constructor
  · intro h
    cases h with | struct h =>
    cases h with | cons h0 h =>
    cases h with | cons h1 h =>
    cases h
    obtain ⟨v0, rfl⟩ := ((unsigned_fits 32) _).1 h0
    obtain ⟨v1, rfl⟩ := (bool_fits _).1 h1
    exact ⟨⟨v0, v1⟩, rfl⟩
  · rintro ⟨v, rfl⟩
    refine .struct (.cons ?_ (.cons ?_ .nil))
    · exact ((unsigned_fits 32) _).2 ⟨v.logoId, rfl⟩
    · exact (bool_fits _).2 ⟨v.swapColors, rfl⟩

theorem attribute_fits : Fits cAttribute.ser attributeShape := by
  intro j
  constructor
  · intro h
    cases h with
    | unitVariant hm =>
      simp only [List.mem_cons, Prod.mk.injEq, List.not_mem_nil, or_false, reduceCtorEq, and_false, and_true, false_or] at hm
    | variant hm h =>
      simp only [List.mem_cons, Prod.mk.injEq, List.not_mem_nil, or_false, reduceCtorEq, and_false, false_or, Option.some.injEq] at hm
      rcases hm with ⟨rfl, rfl⟩ | ⟨rfl, rfl⟩ | ⟨rfl, rfl⟩ | ⟨rfl, rfl⟩ | ⟨rfl, rfl⟩ | ⟨rfl, rfl⟩ | ⟨rfl, rfl⟩ | ⟨rfl, rfl⟩ | ⟨rfl, rfl⟩ | ⟨rfl, rfl⟩ | ⟨rfl, rfl⟩ | ⟨rfl, rfl⟩ | ⟨rfl, rfl⟩ | ⟨rfl, rfl⟩ | ⟨rfl, rfl⟩ | ⟨rfl, rfl⟩ | ⟨rfl, rfl⟩ | ⟨rfl, rfl⟩ | ⟨rfl, rfl⟩ | ⟨rfl, rfl⟩ | ⟨rfl, rfl⟩ | ⟨rfl, rfl⟩ | ⟨rfl, rfl⟩ | ⟨rfl, rfl⟩ | ⟨rfl, rfl⟩ | ⟨rfl, rfl⟩ | ⟨rfl, rfl⟩ | ⟨rfl, rfl⟩ | ⟨rfl, rfl⟩ | ⟨rfl, rfl⟩ | ⟨rfl, rfl⟩ | ⟨rfl, rfl⟩ | ⟨rfl, rfl⟩ | ⟨rfl, rfl⟩ | ⟨rfl, rfl⟩ | ⟨rfl, rfl⟩ | ⟨rfl, rfl⟩ | ⟨rfl, rfl⟩ | ⟨rfl, rfl⟩ | ⟨rfl, rfl⟩ | ⟨rfl, rfl⟩ | ⟨rfl, rfl⟩ | ⟨rfl, rfl⟩ | ⟨rfl, rfl⟩
      · obtain ⟨v, rfl⟩ := (bool_fits _).1 h
        exact ⟨.boolean v, rfl⟩
      · obtain ⟨v, rfl⟩ := ((unsigned_fits 8) _).1 h
        exact ⟨.byte v, rfl⟩
      · obtain ⟨v, rfl⟩ := (appliedDamage_fits _).1 h
        exact ⟨.appliedDamage v, rfl⟩
      · obtain ⟨v, rfl⟩ := (damageState_fits _).1 h
        exact ⟨.damageState v, rfl⟩
      · obtain ⟨v, rfl⟩ := (camSettings_fits _).1 h
        exact ⟨.camSettings v, rfl⟩
      · obtain ⟨v, rfl⟩ := (clubColors_fits _).1 h
        exact ⟨.clubColors v, rfl⟩
      · obtain ⟨v, rfl⟩ := (demolish_fits _).1 h
        exact ⟨.demolish v, rfl⟩
      · obtain ⟨v, rfl⟩ := (demolishExtended_fits _).1 h
        exact ⟨.demolishExtended v, rfl⟩
      · obtain ⟨v, rfl⟩ := (demolishFx_fits _).1 h
        exact ⟨.demolishFx v, rfl⟩
      · obtain ⟨v, rfl⟩ := ((unsigned_fits 16) _).1 h
        exact ⟨.enum v, rfl⟩
      · obtain ⟨v, rfl⟩ := (explosion_fits _).1 h
        exact ⟨.explosion v, rfl⟩
      · obtain ⟨v, rfl⟩ := (extendedExplosion_fits _).1 h
        exact ⟨.extendedExplosion v, rfl⟩
      · cases h with | tuple h =>
        cases h with | cons h0 h =>
        cases h with | cons h1 h =>
        cases h
        obtain ⟨v0, rfl⟩ := (bool_fits _).1 h0
        obtain ⟨v1, rfl⟩ := ((unsigned_fits 8) _).1 h1
        exact ⟨.flaggedByte v0 v1, rfl⟩
      · obtain ⟨v, rfl⟩ := (activeActor_fits _).1 h
        exact ⟨.activeActor v, rfl⟩
      · obtain ⟨v, rfl⟩ := (f32_fits _).1 h
        exact ⟨.float v, rfl⟩
      · cases h with | tuple h =>
        cases h with | cons h0 h =>
        cases h with | cons h1 h =>
        cases h
        obtain ⟨v0, rfl⟩ := ((unsigned_fits 8) _).1 h0
        obtain ⟨v1, rfl⟩ := ((unsigned_fits 8) _).1 h1
        exact ⟨.gameMode v0 v1, rfl⟩
      · obtain ⟨v, rfl⟩ := ((signed_fits 32 (by decide)) _).1 h
        exact ⟨.int v, rfl⟩
      · obtain ⟨v, rfl⟩ := (i64_fits _).1 h
        exact ⟨.int64 v, rfl⟩
      · obtain ⟨v, rfl⟩ := (loadout_fits _).1 h
        exact ⟨.loadout v, rfl⟩
      · obtain ⟨v, rfl⟩ := (teamLoadout_fits _).1 h
        exact ⟨.teamLoadout v, rfl⟩
      · obtain ⟨v, rfl⟩ := (vector3f_fits _).1 h
        exact ⟨.location v, rfl⟩
      · obtain ⟨v, rfl⟩ := (musicStinger_fits _).1 h
        exact ⟨.musicStinger v, rfl⟩
      · obtain ⟨v, rfl⟩ := ((unsigned_fits 16) _).1 h
        exact ⟨.playerHistoryKey v, rfl⟩
      · obtain ⟨v, rfl⟩ := (pickup_fits _).1 h
        exact ⟨.pickup v, rfl⟩
      · obtain ⟨v, rfl⟩ := (pickupNew_fits _).1 h
        exact ⟨.pickupNew v, rfl⟩
      · obtain ⟨v, rfl⟩ := (u64_fits _).1 h
        exact ⟨.qWord v, rfl⟩
      · obtain ⟨v, rfl⟩ := (welded_fits _).1 h
        exact ⟨.welded v, rfl⟩
      · cases h with | tuple h =>
        cases h with | cons h0 h =>
        cases h with | cons h1 h =>
        cases h with | cons h2 h =>
        cases h with | cons h3 h =>
        cases h with | cons h4 h =>
        cases h with | cons h5 h =>
        cases h with | cons h6 h =>
        cases h with | cons h7 h =>
        cases h
        obtain ⟨v0, rfl⟩ := (bool_fits _).1 h0
        obtain ⟨v1, rfl⟩ := (bool_fits _).1 h1
        obtain ⟨v2, rfl⟩ := ((unsigned_fits 32) _).1 h2
        obtain ⟨v3, rfl⟩ := ((unsigned_fits 32) _).1 h3
        obtain ⟨v4, rfl⟩ := ((unsigned_fits 32) _).1 h4
        obtain ⟨v5, rfl⟩ := ((unsigned_fits 32) _).1 h5
        obtain ⟨v6, rfl⟩ := ((unsigned_fits 32) _).1 h6
        obtain ⟨v7, rfl⟩ := (bool_fits _).1 h7
        exact ⟨.title v0 v1 v2 v3 v4 v5 v6 v7, rfl⟩
      · obtain ⟨v, rfl⟩ := (teamPaint_fits _).1 h
        exact ⟨.teamPaint v, rfl⟩
      · obtain ⟨v, rfl⟩ := (rigidBody_fits _).1 h
        exact ⟨.rigidBody v, rfl⟩
      · obtain ⟨v, rfl⟩ := (str_fits _).1 h
        exact ⟨.string v, rfl⟩
      · obtain ⟨v, rfl⟩ := (uniqueId_fits _).1 h
        exact ⟨.uniqueId v, rfl⟩
      · obtain ⟨v, rfl⟩ := (reservation_fits _).1 h
        exact ⟨.reservation v, rfl⟩
      · obtain ⟨v, rfl⟩ := ((option_fits uniqueId_fits) _).1 h
        exact ⟨.partyLeader v, rfl⟩
      · obtain ⟨v, rfl⟩ := (privateMatchSettings_fits _).1 h
        exact ⟨.privateMatch v, rfl⟩
      · obtain ⟨v, rfl⟩ := ((list_fits (list_fits product_fits)) _).1 h
        exact ⟨.loadoutOnline v, rfl⟩
      · obtain ⟨v, rfl⟩ := (loadoutsOnline_fits _).1 h
        exact ⟨.loadoutsOnline v, rfl⟩
      · obtain ⟨v, rfl⟩ := (statEvent_fits _).1 h
        exact ⟨.statEvent v, rfl⟩
      · obtain ⟨v, rfl⟩ := (rotation_fits _).1 h
        exact ⟨.rotation v, rfl⟩
      · obtain ⟨v, rfl⟩ := (repStatTitle_fits _).1 h
        exact ⟨.repStatTitle v, rfl⟩
      · obtain ⟨v, rfl⟩ := (pickupInfo_fits _).1 h
        exact ⟨.pickupInfo v, rfl⟩
      · obtain ⟨v, rfl⟩ := (impulse_fits _).1 h
        exact ⟨.impulse v, rfl⟩
      · obtain ⟨v, rfl⟩ := (replicatedBoost_fits _).1 h
        exact ⟨.replicatedBoost v, rfl⟩
      · obtain ⟨v, rfl⟩ := (logoData_fits _).1 h
        exact ⟨.logoData v, rfl⟩
  · rintro ⟨v, rfl⟩
    cases v
    · refine .variant (.head _) ?_
      exact (bool_fits _).2 ⟨_, rfl⟩
    · refine .variant (.tail _ (.head _)) ?_
      exact ((unsigned_fits 8) _).2 ⟨_, rfl⟩
    · refine .variant (.tail _ (.tail _ (.head _))) ?_
      exact (appliedDamage_fits _).2 ⟨_, rfl⟩
    · refine .variant (.tail _ (.tail _ (.tail _ (.head _)))) ?_
      exact (damageState_fits _).2 ⟨_, rfl⟩
    · refine .variant (.tail _ (.tail _ (.tail _ (.tail _ (.head _))))) ?_
      exact (camSettings_fits _).2 ⟨_, rfl⟩
    · refine .variant (.tail _ (.tail _ (.tail _ (.tail _ (.tail _ (.head _)))))) ?_
      exact (clubColors_fits _).2 ⟨_, rfl⟩
    · refine .variant (.tail _ (.tail _ (.tail _ (.tail _ (.tail _ (.tail _ (.head _))))))) ?_
      exact (demolish_fits _).2 ⟨_, rfl⟩
    · refine .variant (.tail _ (.tail _ (.tail _ (.tail _ (.tail _ (.tail _ (.tail _ (.head _)))))))) ?_
      exact (demolishExtended_fits _).2 ⟨_, rfl⟩
    · refine .variant (.tail _ (.tail _ (.tail _ (.tail _ (.tail _ (.tail _ (.tail _ (.tail _ (.head _))))))))) ?_
      exact (demolishFx_fits _).2 ⟨_, rfl⟩
    · refine .variant (.tail _ (.tail _ (.tail _ (.tail _ (.tail _ (.tail _ (.tail _ (.tail _ (.tail _ (.head _)))))))))) ?_
      exact ((unsigned_fits 16) _).2 ⟨_, rfl⟩
    · refine .variant (.tail _ (.tail _ (.tail _ (.tail _ (.tail _ (.tail _ (.tail _ (.tail _ (.tail _ (.tail _ (.head _))))))))))) ?_
      exact (explosion_fits _).2 ⟨_, rfl⟩
    · refine .variant (.tail _ (.tail _ (.tail _ (.tail _ (.tail _ (.tail _ (.tail _ (.tail _ (.tail _ (.tail _ (.tail _ (.head _)))))))))))) ?_
      exact (extendedExplosion_fits _).2 ⟨_, rfl⟩
    · refine .variant (.tail _ (.tail _ (.tail _ (.tail _ (.tail _ (.tail _ (.tail _ (.tail _ (.tail _ (.tail _ (.tail _ (.tail _ (.head _))))))))))))) ?_
      refine .tuple (.cons ?_ (.cons ?_ .nil))
      · exact (bool_fits _).2 ⟨_, rfl⟩
      · exact ((unsigned_fits 8) _).2 ⟨_, rfl⟩
    · refine .variant (.tail _ (.tail _ (.tail _ (.tail _ (.tail _ (.tail _ (.tail _ (.tail _ (.tail _ (.tail _ (.tail _ (.tail _ (.tail _ (.head _)))))))))))))) ?_
      exact (activeActor_fits _).2 ⟨_, rfl⟩
    · refine .variant (.tail _ (.tail _ (.tail _ (.tail _ (.tail _ (.tail _ (.tail _ (.tail _ (.tail _ (.tail _ (.tail _ (.tail _ (.tail _ (.tail _ (.head _))))))))))))))) ?_
      exact (f32_fits _).2 ⟨_, rfl⟩
    · refine .variant (.tail _ (.tail _ (.tail _ (.tail _ (.tail _ (.tail _ (.tail _ (.tail _ (.tail _ (.tail _ (.tail _ (.tail _ (.tail _ (.tail _ (.tail _ (.head _)))))))))))))))) ?_
      refine .tuple (.cons ?_ (.cons ?_ .nil))
      · exact ((unsigned_fits 8) _).2 ⟨_, rfl⟩
      · exact ((unsigned_fits 8) _).2 ⟨_, rfl⟩
    · refine .variant (.tail _ (.tail _ (.tail _ (.tail _ (.tail _ (.tail _ (.tail _ (.tail _ (.tail _ (.tail _ (.tail _ (.tail _ (.tail _ (.tail _ (.tail _ (.tail _ (.head _))))))))))))))))) ?_
      exact ((signed_fits 32 (by decide)) _).2 ⟨_, rfl⟩
    · refine .variant (.tail _ (.tail _ (.tail _ (.tail _ (.tail _ (.tail _ (.tail _ (.tail _ (.tail _ (.tail _ (.tail _ (.tail _ (.tail _ (.tail _ (.tail _ (.tail _ (.tail _ (.head _)))))))))))))))))) ?_
      exact (i64_fits _).2 ⟨_, rfl⟩
    · refine .variant (.tail _ (.tail _ (.tail _ (.tail _ (.tail _ (.tail _ (.tail _ (.tail _ (.tail _ (.tail _ (.tail _ (.tail _ (.tail _ (.tail _ (.tail _ (.tail _ (.tail _ (.tail _ (.head _))))))))))))))))))) ?_
      exact (loadout_fits _).2 ⟨_, rfl⟩
    · refine .variant (.tail _ (.tail _ (.tail _ (.tail _ (.tail _ (.tail _ (.tail _ (.tail _ (.tail _ (.tail _ (.tail _ (.tail _ (.tail _ (.tail _ (.tail _ (.tail _ (.tail _ (.tail _ (.tail _ (.head _)))))))))))))))))))) ?_
      exact (teamLoadout_fits _).2 ⟨_, rfl⟩
    · refine .variant (.tail _ (.tail _ (.tail _ (.tail _ (.tail _ (.tail _ (.tail _ (.tail _ (.tail _ (.tail _ (.tail _ (.tail _ (.tail _ (.tail _ (.tail _ (.tail _ (.tail _ (.tail _ (.tail _ (.tail _ (.head _))))))))))))))))))))) ?_
      exact (vector3f_fits _).2 ⟨_, rfl⟩
    · refine .variant (.tail _ (.tail _ (.tail _ (.tail _ (.tail _ (.tail _ (.tail _ (.tail _ (.tail _ (.tail _ (.tail _ (.tail _ (.tail _ (.tail _ (.tail _ (.tail _ (.tail _ (.tail _ (.tail _ (.tail _ (.tail _ (.head _)))))))))))))))))))))) ?_
      exact (musicStinger_fits _).2 ⟨_, rfl⟩
    · refine .variant (.tail _ (.tail _ (.tail _ (.tail _ (.tail _ (.tail _ (.tail _ (.tail _ (.tail _ (.tail _ (.tail _ (.tail _ (.tail _ (.tail _ (.tail _ (.tail _ (.tail _ (.tail _ (.tail _ (.tail _ (.tail _ (.tail _ (.head _))))))))))))))))))))))) ?_
      exact ((unsigned_fits 16) _).2 ⟨_, rfl⟩
    · refine .variant (.tail _ (.tail _ (.tail _ (.tail _ (.tail _ (.tail _ (.tail _ (.tail _ (.tail _ (.tail _ (.tail _ (.tail _ (.tail _ (.tail _ (.tail _ (.tail _ (.tail _ (.tail _ (.tail _ (.tail _ (.tail _ (.tail _ (.tail _ (.head _)))))))))))))))))))))))) ?_
      exact (pickup_fits _).2 ⟨_, rfl⟩
    · refine .variant (.tail _ (.tail _ (.tail _ (.tail _ (.tail _ (.tail _ (.tail _ (.tail _ (.tail _ (.tail _ (.tail _ (.tail _ (.tail _ (.tail _ (.tail _ (.tail _ (.tail _ (.tail _ (.tail _ (.tail _ (.tail _ (.tail _ (.tail _ (.tail _ (.head _))))))))))))))))))))))))) ?_
      exact (pickupNew_fits _).2 ⟨_, rfl⟩
    · refine .variant (.tail _ (.tail _ (.tail _ (.tail _ (.tail _ (.tail _ (.tail _ (.tail _ (.tail _ (.tail _ (.tail _ (.tail _ (.tail _ (.tail _ (.tail _ (.tail _ (.tail _ (.tail _ (.tail _ (.tail _ (.tail _ (.tail _ (.tail _ (.tail _ (.tail _ (.head _)))))))))))))))))))))))))) ?_
      exact (u64_fits _).2 ⟨_, rfl⟩
    · refine .variant (.tail _ (.tail _ (.tail _ (.tail _ (.tail _ (.tail _ (.tail _ (.tail _ (.tail _ (.tail _ (.tail _ (.tail _ (.tail _ (.tail _ (.tail _ (.tail _ (.tail _ (.tail _ (.tail _ (.tail _ (.tail _ (.tail _ (.tail _ (.tail _ (.tail _ (.tail _ (.head _))))))))))))))))))))))))))) ?_
      exact (welded_fits _).2 ⟨_, rfl⟩
    · refine .variant (.tail _ (.tail _ (.tail _ (.tail _ (.tail _ (.tail _ (.tail _ (.tail _ (.tail _ (.tail _ (.tail _ (.tail _ (.tail _ (.tail _ (.tail _ (.tail _ (.tail _ (.tail _ (.tail _ (.tail _ (.tail _ (.tail _ (.tail _ (.tail _ (.tail _ (.tail _ (.tail _ (.head _)))))))))))))))))))))))))))) ?_
      refine .tuple (.cons ?_ (.cons ?_ (.cons ?_ (.cons ?_ (.cons ?_ (.cons ?_ (.cons ?_ (.cons ?_ .nil))))))))
      · exact (bool_fits _).2 ⟨_, rfl⟩
      · exact (bool_fits _).2 ⟨_, rfl⟩
      · exact ((unsigned_fits 32) _).2 ⟨_, rfl⟩
      · exact ((unsigned_fits 32) _).2 ⟨_, rfl⟩
      · exact ((unsigned_fits 32) _).2 ⟨_, rfl⟩
      · exact ((unsigned_fits 32) _).2 ⟨_, rfl⟩
      · exact ((unsigned_fits 32) _).2 ⟨_, rfl⟩
      · exact (bool_fits _).2 ⟨_, rfl⟩
    · refine .variant (.tail _ (.tail _ (.tail _ (.tail _ (.tail _ (.tail _ (.tail _ (.tail _ (.tail _ (.tail _ (.tail _ (.tail _ (.tail _ (.tail _ (.tail _ (.tail _ (.tail _ (.tail _ (.tail _ (.tail _ (.tail _ (.tail _ (.tail _ (.tail _ (.tail _ (.tail _ (.tail _ (.tail _ (.head _))))))))))))))))))))))))))))) ?_
      exact (teamPaint_fits _).2 ⟨_, rfl⟩
    · refine .variant (.tail _ (.tail _ (.tail _ (.tail _ (.tail _ (.tail _ (.tail _ (.tail _ (.tail _ (.tail _ (.tail _ (.tail _ (.tail _ (.tail _ (.tail _ (.tail _ (.tail _ (.tail _ (.tail _ (.tail _ (.tail _ (.tail _ (.tail _ (.tail _ (.tail _ (.tail _ (.tail _ (.tail _ (.tail _ (.head _)))))))))))))))))))))))))))))) ?_
      exact (rigidBody_fits _).2 ⟨_, rfl⟩
    · refine .variant (.tail _ (.tail _ (.tail _ (.tail _ (.tail _ (.tail _ (.tail _ (.tail _ (.tail _ (.tail _ (.tail _ (.tail _ (.tail _ (.tail _ (.tail _ (.tail _ (.tail _ (.tail _ (.tail _ (.tail _ (.tail _ (.tail _ (.tail _ (.tail _ (.tail _ (.tail _ (.tail _ (.tail _ (.tail _ (.tail _ (.head _))))))))))))))))))))))))))))))) ?_
      exact (str_fits _).2 ⟨_, rfl⟩
    · refine .variant (.tail _ (.tail _ (.tail _ (.tail _ (.tail _ (.tail _ (.tail _ (.tail _ (.tail _ (.tail _ (.tail _ (.tail _ (.tail _ (.tail _ (.tail _ (.tail _ (.tail _ (.tail _ (.tail _ (.tail _ (.tail _ (.tail _ (.tail _ (.tail _ (.tail _ (.tail _ (.tail _ (.tail _ (.tail _ (.tail _ (.tail _ (.head _)))))))))))))))))))))))))))))))) ?_
      exact (uniqueId_fits _).2 ⟨_, rfl⟩
    · refine .variant (.tail _ (.tail _ (.tail _ (.tail _ (.tail _ (.tail _ (.tail _ (.tail _ (.tail _ (.tail _ (.tail _ (.tail _ (.tail _ (.tail _ (.tail _ (.tail _ (.tail _ (.tail _ (.tail _ (.tail _ (.tail _ (.tail _ (.tail _ (.tail _ (.tail _ (.tail _ (.tail _ (.tail _ (.tail _ (.tail _ (.tail _ (.tail _ (.head _))))))))))))))))))))))))))))))))) ?_
      exact (reservation_fits _).2 ⟨_, rfl⟩
    · refine .variant (.tail _ (.tail _ (.tail _ (.tail _ (.tail _ (.tail _ (.tail _ (.tail _ (.tail _ (.tail _ (.tail _ (.tail _ (.tail _ (.tail _ (.tail _ (.tail _ (.tail _ (.tail _ (.tail _ (.tail _ (.tail _ (.tail _ (.tail _ (.tail _ (.tail _ (.tail _ (.tail _ (.tail _ (.tail _ (.tail _ (.tail _ (.tail _ (.tail _ (.head _)))))))))))))))))))))))))))))))))) ?_
      exact ((option_fits uniqueId_fits) _).2 ⟨_, rfl⟩
    · refine .variant (.tail _ (.tail _ (.tail _ (.tail _ (.tail _ (.tail _ (.tail _ (.tail _ (.tail _ (.tail _ (.tail _ (.tail _ (.tail _ (.tail _ (.tail _ (.tail _ (.tail _ (.tail _ (.tail _ (.tail _ (.tail _ (.tail _ (.tail _ (.tail _ (.tail _ (.tail _ (.tail _ (.tail _ (.tail _ (.tail _ (.tail _ (.tail _ (.tail _ (.tail _ (.head _))))))))))))))))))))))))))))))))))) ?_
      exact (privateMatchSettings_fits _).2 ⟨_, rfl⟩
    · refine .variant (.tail _ (.tail _ (.tail _ (.tail _ (.tail _ (.tail _ (.tail _ (.tail _ (.tail _ (.tail _ (.tail _ (.tail _ (.tail _ (.tail _ (.tail _ (.tail _ (.tail _ (.tail _ (.tail _ (.tail _ (.tail _ (.tail _ (.tail _ (.tail _ (.tail _ (.tail _ (.tail _ (.tail _ (.tail _ (.tail _ (.tail _ (.tail _ (.tail _ (.tail _ (.tail _ (.head _)))))))))))))))))))))))))))))))))))) ?_
      exact ((list_fits (list_fits product_fits)) _).2 ⟨_, rfl⟩
    · refine .variant (.tail _ (.tail _ (.tail _ (.tail _ (.tail _ (.tail _ (.tail _ (.tail _ (.tail _ (.tail _ (.tail _ (.tail _ (.tail _ (.tail _ (.tail _ (.tail _ (.tail _ (.tail _ (.tail _ (.tail _ (.tail _ (.tail _ (.tail _ (.tail _ (.tail _ (.tail _ (.tail _ (.tail _ (.tail _ (.tail _ (.tail _ (.tail _ (.tail _ (.tail _ (.tail _ (.tail _ (.head _))))))))))))))))))))))))))))))))))))) ?_
      exact (loadoutsOnline_fits _).2 ⟨_, rfl⟩
    · refine .variant (.tail _ (.tail _ (.tail _ (.tail _ (.tail _ (.tail _ (.tail _ (.tail _ (.tail _ (.tail _ (.tail _ (.tail _ (.tail _ (.tail _ (.tail _ (.tail _ (.tail _ (.tail _ (.tail _ (.tail _ (.tail _ (.tail _ (.tail _ (.tail _ (.tail _ (.tail _ (.tail _ (.tail _ (.tail _ (.tail _ (.tail _ (.tail _ (.tail _ (.tail _ (.tail _ (.tail _ (.tail _ (.head _)))))))))))))))))))))))))))))))))))))) ?_
      exact (statEvent_fits _).2 ⟨_, rfl⟩
    · refine .variant (.tail _ (.tail _ (.tail _ (.tail _ (.tail _ (.tail _ (.tail _ (.tail _ (.tail _ (.tail _ (.tail _ (.tail _ (.tail _ (.tail _ (.tail _ (.tail _ (.tail _ (.tail _ (.tail _ (.tail _ (.tail _ (.tail _ (.tail _ (.tail _ (.tail _ (.tail _ (.tail _ (.tail _ (.tail _ (.tail _ (.tail _ (.tail _ (.tail _ (.tail _ (.tail _ (.tail _ (.tail _ (.tail _ (.head _))))))))))))))))))))))))))))))))))))))) ?_
      exact (rotation_fits _).2 ⟨_, rfl⟩
    · refine .variant (.tail _ (.tail _ (.tail _ (.tail _ (.tail _ (.tail _ (.tail _ (.tail _ (.tail _ (.tail _ (.tail _ (.tail _ (.tail _ (.tail _ (.tail _ (.tail _ (.tail _ (.tail _ (.tail _ (.tail _ (.tail _ (.tail _ (.tail _ (.tail _ (.tail _ (.tail _ (.tail _ (.tail _ (.tail _ (.tail _ (.tail _ (.tail _ (.tail _ (.tail _ (.tail _ (.tail _ (.tail _ (.tail _ (.tail _ (.head _)))))))))))))))))))))))))))))))))))))))) ?_
      exact (repStatTitle_fits _).2 ⟨_, rfl⟩
    · refine .variant (.tail _ (.tail _ (.tail _ (.tail _ (.tail _ (.tail _ (.tail _ (.tail _ (.tail _ (.tail _ (.tail _ (.tail _ (.tail _ (.tail _ (.tail _ (.tail _ (.tail _ (.tail _ (.tail _ (.tail _ (.tail _ (.tail _ (.tail _ (.tail _ (.tail _ (.tail _ (.tail _ (.tail _ (.tail _ (.tail _ (.tail _ (.tail _ (.tail _ (.tail _ (.tail _ (.tail _ (.tail _ (.tail _ (.tail _ (.tail _ (.head _))))))))))))))))))))))))))))))))))))))))) ?_
      exact (pickupInfo_fits _).2 ⟨_, rfl⟩
    · refine .variant (.tail _ (.tail _ (.tail _ (.tail _ (.tail _ (.tail _ (.tail _ (.tail _ (.tail _ (.tail _ (.tail _ (.tail _ (.tail _ (.tail _ (.tail _ (.tail _ (.tail _ (.tail _ (.tail _ (.tail _ (.tail _ (.tail _ (.tail _ (.tail _ (.tail _ (.tail _ (.tail _ (.tail _ (.tail _ (.tail _ (.tail _ (.tail _ (.tail _ (.tail _ (.tail _ (.tail _ (.tail _ (.tail _ (.tail _ (.tail _ (.tail _ (.head _)))))))))))))))))))))))))))))))))))))))))) ?_
      exact (impulse_fits _).2 ⟨_, rfl⟩
    · refine .variant (.tail _ (.tail _ (.tail _ (.tail _ (.tail _ (.tail _ (.tail _ (.tail _ (.tail _ (.tail _ (.tail _ (.tail _ (.tail _ (.tail _ (.tail _ (.tail _ (.tail _ (.tail _ (.tail _ (.tail _ (.tail _ (.tail _ (.tail _ (.tail _ (.tail _ (.tail _ (.tail _ (.tail _ (.tail _ (.tail _ (.tail _ (.tail _ (.tail _ (.tail _ (.tail _ (.tail _ (.tail _ (.tail _ (.tail _ (.tail _ (.tail _ (.tail _ (.head _))))))))))))))))))))))))))))))))))))))))))) ?_
      exact (replicatedBoost_fits _).2 ⟨_, rfl⟩
    · refine .variant (.tail _ (.tail _ (.tail _ (.tail _ (.tail _ (.tail _ (.tail _ (.tail _ (.tail _ (.tail _ (.tail _ (.tail _ (.tail _ (.tail _ (.tail _ (.tail _ (.tail _ (.tail _ (.tail _ (.tail _ (.tail _ (.tail _ (.tail _ (.tail _ (.tail _ (.tail _ (.tail _ (.tail _ (.tail _ (.tail _ (.tail _ (.tail _ (.tail _ (.tail _ (.tail _ (.tail _ (.tail _ (.tail _ (.tail _ (.tail _ (.tail _ (.tail _ (.tail _ (.head _)))))))))))))))))))))))))))))))))))))))))))) ?_
      exact (logoData_fits _).2 ⟨_, rfl⟩

theorem updatedAttribute_fits : Fits cUpdatedAttribute.ser updatedAttributeShape := by
  intro j
  constructor
  · intro h
    cases h with | struct h =>
    cases h with | cons h0 h =>
    cases h with | cons h1 h =>
    cases h with | cons h2 h =>
    cases h with | cons h3 h =>
    cases h
    obtain ⟨v0, rfl⟩ := ((signed_fits 32 (by decide)) _).1 h0
    obtain ⟨v1, rfl⟩ := ((signed_fits 32 (by decide)) _).1 h1
    obtain ⟨v2, rfl⟩ := ((signed_fits 32 (by decide)) _).1 h2
    obtain ⟨v3, rfl⟩ := (attribute_fits _).1 h3
    exact ⟨⟨v0, v1, v2, v3⟩, rfl⟩
  · rintro ⟨v, rfl⟩
    refine .struct (.cons ?_ (.cons ?_ (.cons ?_ (.cons ?_ .nil))))
    · exact ((signed_fits 32 (by decide)) _).2 ⟨v.actorId, rfl⟩
    · exact ((signed_fits 32 (by decide)) _).2 ⟨v.streamId, rfl⟩
    · exact ((signed_fits 32 (by decide)) _).2 ⟨v.objectId, rfl⟩
    · exact (attribute_fits _).2 ⟨v.attr, rfl⟩

theorem frame_fits : Fits cFrame.ser frameShape := by
  intro j
  constructor
  · intro h
    cases h with | struct h =>
    cases h with | cons h0 h =>
    cases h with | cons h1 h =>
    cases h with | cons h2 h =>
    cases h with | cons h3 h =>
    cases h with | cons h4 h =>
    cases h
    obtain ⟨v0, rfl⟩ := (f32_fits _).1 h0
    obtain ⟨v1, rfl⟩ := (f32_fits _).1 h1
    obtain ⟨v2, rfl⟩ := ((list_fits newActor_fits) _).1 h2
    obtain ⟨v3, rfl⟩ := ((list_fits (signed_fits 32 (by decide))) _).1 h3
    obtain ⟨v4, rfl⟩ := ((list_fits updatedAttribute_fits) _).1 h4
    exact ⟨⟨v0, v1, v2, v3, v4⟩, rfl⟩
  · rintro ⟨v, rfl⟩
    refine .struct (.cons ?_ (.cons ?_ (.cons ?_ (.cons ?_ (.cons ?_ .nil)))))
    · exact (f32_fits _).2 ⟨v.time, rfl⟩
    · exact (f32_fits _).2 ⟨v.delta, rfl⟩
    · exact ((list_fits newActor_fits) _).2 ⟨v.newActors, rfl⟩
    · exact ((list_fits (signed_fits 32 (by decide))) _).2 ⟨v.deletedActors, rfl⟩
    · exact ((list_fits updatedAttribute_fits) _).2 ⟨v.updatedActors, rfl⟩

theorem networkFrames_fits : Fits serNetworkFrames networkFramesShape := by
  intro j
  constructor
  · intro h
    cases h with | struct h =>
    cases h with | cons h0 h =>
    cases h
    obtain ⟨v0, rfl⟩ := ((list_fits frame_fits) _).1 h0
    exact ⟨⟨v0⟩, rfl⟩
  · rintro ⟨v, rfl⟩
    refine .struct (.cons ?_ .nil)
    · exact ((list_fits frame_fits) _).2 ⟨v.frames, rfl⟩

theorem tickMark_fits : Fits serTickMark tickMarkShape := by
  intro j
  constructor
  · intro h
    cases h with | struct h =>
    cases h with | cons h0 h =>
    cases h with | cons h1 h =>
    cases h
    obtain ⟨v0, rfl⟩ := (str_fits _).1 h0
    obtain ⟨v1, rfl⟩ := ((signed_fits 32 (by decide)) _).1 h1
    exact ⟨⟨v0, v1⟩, rfl⟩
  · rintro ⟨v, rfl⟩
    refine .struct (.cons ?_ (.cons ?_ .nil))
    · exact (str_fits _).2 ⟨v.description, rfl⟩
    · exact ((signed_fits 32 (by decide)) _).2 ⟨v.frame, rfl⟩

theorem keyFrame_fits : Fits serKeyFrame keyFrameShape := by
  intro j
  constructor
  · intro h
    cases h with | struct h =>
    cases h with | cons h0 h =>
    cases h with | cons h1 h =>
    cases h with | cons h2 h =>
    cases h
    obtain ⟨v0, rfl⟩ := (f32_fits _).1 h0
    obtain ⟨v1, rfl⟩ := ((signed_fits 32 (by decide)) _).1 h1
    obtain ⟨v2, rfl⟩ := ((signed_fits 32 (by decide)) _).1 h2
    exact ⟨⟨v0, v1, v2⟩, rfl⟩
  · rintro ⟨v, rfl⟩
    refine .struct (.cons ?_ (.cons ?_ (.cons ?_ .nil)))
    · exact (f32_fits _).2 ⟨v.time, rfl⟩
    · exact ((signed_fits 32 (by decide)) _).2 ⟨v.frame, rfl⟩
    · exact ((signed_fits 32 (by decide)) _).2 ⟨v.position, rfl⟩

theorem debugInfo_fits : Fits serDebugInfo debugInfoShape := by
  intro j
  constructor
  · intro h
    cases h with | struct h =>
    cases h with | cons h0 h =>
    cases h with | cons h1 h =>
    cases h with | cons h2 h =>
    cases h
    obtain ⟨v0, rfl⟩ := ((signed_fits 32 (by decide)) _).1 h0
    obtain ⟨v1, rfl⟩ := (str_fits _).1 h1
    obtain ⟨v2, rfl⟩ := (str_fits _).1 h2
    exact ⟨⟨v0, v1, v2⟩, rfl⟩
  · rintro ⟨v, rfl⟩
    refine .struct (.cons ?_ (.cons ?_ (.cons ?_ .nil)))
    · exact ((signed_fits 32 (by decide)) _).2 ⟨v.frame, rfl⟩
    · exact (str_fits _).2 ⟨v.user, rfl⟩
    · exact (str_fits _).2 ⟨v.text, rfl⟩

theorem classIndex_fits : Fits serClassIndex classIndexShape := by
  intro j
  constructor
  · intro h
    cases h with | struct h =>
    cases h with | cons h0 h =>
    cases h with | cons h1 h =>
    cases h
    obtain ⟨v0, rfl⟩ := (str_fits _).1 h0
    obtain ⟨v1, rfl⟩ := ((signed_fits 32 (by decide)) _).1 h1
    exact ⟨⟨v0, v1⟩, rfl⟩
  · rintro ⟨v, rfl⟩
    refine .struct (.cons ?_ (.cons ?_ .nil))
    · exact (str_fits _).2 ⟨v.cls, rfl⟩
    · exact ((signed_fits 32 (by decide)) _).2 ⟨v.index, rfl⟩

theorem cacheProp_fits : Fits serCacheProp cachePropShape := by
  intro j
  constructor
  · intro h
    cases h with | struct h =>
    cases h with | cons h0 h =>
    cases h with | cons h1 h =>
    cases h
    obtain ⟨v0, rfl⟩ := ((signed_fits 32 (by decide)) _).1 h0
    obtain ⟨v1, rfl⟩ := ((signed_fits 32 (by decide)) _).1 h1
    exact ⟨⟨v0, v1⟩, rfl⟩
  · rintro ⟨v, rfl⟩
    refine .struct (.cons ?_ (.cons ?_ .nil))
    · exact ((signed_fits 32 (by decide)) _).2 ⟨v.objectInd, rfl⟩
    · exact ((signed_fits 32 (by decide)) _).2 ⟨v.streamId, rfl⟩

theorem classNetCache_fits : Fits serClassNetCache classNetCacheShape := by
  intro j
  constructor
  · intro h
    cases h with | struct h =>
    cases h with | cons h0 h =>
    cases h with | cons h1 h =>
    cases h with | cons h2 h =>
    cases h with | cons h3 h =>
    cases h
    obtain ⟨v0, rfl⟩ := ((signed_fits 32 (by decide)) _).1 h0
    obtain ⟨v1, rfl⟩ := ((signed_fits 32 (by decide)) _).1 h1
    obtain ⟨v2, rfl⟩ := ((signed_fits 32 (by decide)) _).1 h2
    obtain ⟨v3, rfl⟩ := ((seq_fits cacheProp_fits) _).1 h3
    exact ⟨⟨v0, v1, v2, v3⟩, rfl⟩
  · rintro ⟨v, rfl⟩
    refine .struct (.cons ?_ (.cons ?_ (.cons ?_ (.cons ?_ .nil))))
    · exact ((signed_fits 32 (by decide)) _).2 ⟨v.objectInd, rfl⟩
    · exact ((signed_fits 32 (by decide)) _).2 ⟨v.parentId, rfl⟩
    · exact ((signed_fits 32 (by decide)) _).2 ⟨v.cacheId, rfl⟩
    · exact ((seq_fits cacheProp_fits) _).2 ⟨v.properties, rfl⟩

theorem replay_fits : Fits serReplay replayShape := by
  intro j
  constructor
  · intro h
    cases h with | struct h =>
    cases h with | cons h0 h =>
    cases h with | cons h1 h =>
    cases h with | cons h2 h =>
    cases h with | cons h3 h =>
    cases h with | cons h4 h =>
    cases h with | cons h5 h =>
    cases h with | cons h6 h =>
    cases h with | cons h7 h =>
    cases h with | cons h8 h =>
    cases h with | cons h9 h =>
    cases h with | cons h10 h =>
    cases h with | cons h11 h =>
    cases h with | cons h12 h =>
    cases h with | cons h13 h =>
    cases h with | cons h14 h =>
    cases h with | cons h15 h =>
    cases h with | cons h16 h =>
    cases h with | cons h17 h =>
    cases h with | cons h18 h =>
    cases h
    obtain ⟨v0, rfl⟩ := ((signed_fits 32 (by decide)) _).1 h0
    obtain ⟨v1, rfl⟩ := ((unsigned_fits 32) _).1 h1
    obtain ⟨v2, rfl⟩ := ((signed_fits 32 (by decide)) _).1 h2
    obtain ⟨v3, rfl⟩ := ((signed_fits 32 (by decide)) _).1 h3
    obtain ⟨v4, rfl⟩ := ((option_fits (signed_fits 32 (by decide))) _).1 h4
    obtain ⟨v5, rfl⟩ := (str_fits _).1 h5
    obtain ⟨v6, rfl⟩ := (props_fits _).1 h6
    obtain ⟨v7, rfl⟩ := ((signed_fits 32 (by decide)) _).1 h7
    obtain ⟨v8, rfl⟩ := ((unsigned_fits 32) _).1 h8
    obtain ⟨v9, rfl⟩ := ((opt_fits networkFrames_fits) _).1 h9
    obtain ⟨v10, rfl⟩ := ((list_fits str_fits) _).1 h10
    obtain ⟨v11, rfl⟩ := ((seq_fits keyFrame_fits) _).1 h11
    obtain ⟨v12, rfl⟩ := ((seq_fits debugInfo_fits) _).1 h12
    obtain ⟨v13, rfl⟩ := ((seq_fits tickMark_fits) _).1 h13
    obtain ⟨v14, rfl⟩ := ((list_fits str_fits) _).1 h14
    obtain ⟨v15, rfl⟩ := ((list_fits str_fits) _).1 h15
    obtain ⟨v16, rfl⟩ := ((list_fits str_fits) _).1 h16
    obtain ⟨v17, rfl⟩ := ((seq_fits classIndex_fits) _).1 h17
    obtain ⟨v18, rfl⟩ := ((seq_fits classNetCache_fits) _).1 h18
    refine ⟨⟨v0, v1, v2, v3, v4, v5, v6, v7, v8, v9, v10, v11, v12, v13, v14, v15, v16, v17, v18⟩, ?_⟩
    cases v4 <;> cases v9 <;> rfl
  · rintro ⟨v, rfl⟩
    refine .struct (.cons ?_ (.cons ?_ (.cons ?_ (.cons ?_ (.cons ?_ (.cons ?_ (.cons ?_ (.cons ?_ (.cons ?_ (.cons ?_ (.cons ?_ (.cons ?_ (.cons ?_ (.cons ?_ (.cons ?_ (.cons ?_ (.cons ?_ (.cons ?_ (.cons ?_ .nil)))))))))))))))))))
    · exact ((signed_fits 32 (by decide)) _).2 ⟨v.headerSize, rfl⟩
    · exact ((unsigned_fits 32) _).2 ⟨v.headerCrc, rfl⟩
    · exact ((signed_fits 32 (by decide)) _).2 ⟨v.majorVersion, rfl⟩
    · exact ((signed_fits 32 (by decide)) _).2 ⟨v.minorVersion, rfl⟩
    · have h := ((option_fits (signed_fits 32 (by decide))) _).2 ⟨v.netVersion, rfl⟩
      revert h; cases v.netVersion <;> exact id
    · exact (str_fits _).2 ⟨v.gameType, rfl⟩
    · exact (props_fits _).2 ⟨v.properties, rfl⟩
    · exact ((signed_fits 32 (by decide)) _).2 ⟨v.contentSize, rfl⟩
    · exact ((unsigned_fits 32) _).2 ⟨v.contentCrc, rfl⟩
    · have h := ((opt_fits networkFrames_fits) _).2 ⟨v.networkFrames, rfl⟩
      revert h; cases v.networkFrames <;> exact id
    · exact ((list_fits str_fits) _).2 ⟨v.levels, rfl⟩
    · exact ((seq_fits keyFrame_fits) _).2 ⟨v.keyframes, rfl⟩
    · exact ((seq_fits debugInfo_fits) _).2 ⟨v.debugInfo, rfl⟩
    · exact ((seq_fits tickMark_fits) _).2 ⟨v.tickMarks, rfl⟩
    · exact ((list_fits str_fits) _).2 ⟨v.packages, rfl⟩
    · exact ((list_fits str_fits) _).2 ⟨v.objects, rfl⟩
    · exact ((list_fits str_fits) _).2 ⟨v.names, rfl⟩
    · exact ((seq_fits classIndex_fits) _).2 ⟨v.classIndices, rfl⟩
    · exact ((seq_fits classNetCache_fits) _).2 ⟨v.netCache, rfl⟩

end Boxcars
