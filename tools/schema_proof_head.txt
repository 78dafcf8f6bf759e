import Verif.Spec.Schema
import Verif.Proofs.Serde
/-!
# Serializers write exactly the values of their shapes

From "Generated" on, the file is generated by `tools/gen_schema.py`.
-/
namespace Boxcars
open Spec

/-- A serializer writes exactly the values of a shape. -/
def Fits {α : Type} (ser : α → SVal) (s : Shape) : Prop := ∀ j, Has s j ↔ ∃ v, ser v = j

theorem bool_fits : Fits cBool.ser .bool := by
  intro j
  constructor
  · intro h; cases h with | bool => exact ⟨_, rfl⟩
  · rintro ⟨v, rfl⟩; exact .bool

theorem f32_fits : Fits cF32.ser .f32 := by
  intro j
  constructor
  · intro h; cases h with | f32 => exact ⟨_, rfl⟩
  · rintro ⟨v, rfl⟩; exact .f32

theorem str_fits : Fits cStr.ser .text := by
  intro j
  constructor
  · intro h; cases h with | text => exact ⟨_, rfl⟩
  · rintro ⟨v, rfl⟩; exact .text

theorem unsigned_fits (w : Nat) : Fits (cUnsigned w).ser (.unsigned w) := by
  intro j
  constructor
  · intro h
    cases h with
    | unsigned h =>
      rename_i n
      refine ⟨BitVec.ofNat w n, ?_⟩
      show SVal.int ((BitVec.ofNat w n).toNat : Int) = _
      rw [BitVec.toNat_ofNat, Nat.mod_eq_of_lt h]
  · rintro ⟨v, rfl⟩; exact .unsigned v.isLt

theorem signed_fits (w : Nat) (hw : 0 < w) : Fits (cSigned w).ser (.signed w) := by
  intro j
  constructor
  · intro h
    cases h with
    | signed h1 h2 =>
      rename_i i
      refine ⟨BitVec.ofInt w i, ?_⟩
      show SVal.int (BitVec.ofInt w i).toInt = _
      have e : (2 : Int) ^ w = 2 * 2 ^ (w - 1) := by
        rw [← Int.pow_succ', Nat.sub_add_cancel hw]
      rw [BitVec.toInt_ofInt, Int.bmod_eq_of_le (by push_cast; omega) (by push_cast; omega)]
  · rintro ⟨v, rfl⟩
    exact .signed (BitVec.le_toInt v) (BitVec.toInt_lt (x := v))

theorem u64_fits : Fits cU64Str.ser .u64 := by
  intro j
  constructor
  · intro h
    cases h with
    | u64 h =>
      rename_i n
      refine ⟨BitVec.ofNat 64 n, ?_⟩
      show SVal.str (Nat.toDigits 10 (BitVec.ofNat 64 n).toNat) = _
      rw [BitVec.toNat_ofNat, Nat.mod_eq_of_lt h]
  · rintro ⟨v, rfl⟩; exact .u64 v.isLt

theorem i64_fits : Fits cI64Str.ser .i64 := by
  intro j
  constructor
  · intro h
    cases h with
    | i64 h =>
      rename_i n
      refine ⟨BitVec.ofInt 64 n, ?_⟩
      show SVal.str (displayInt (BitVec.ofInt 64 n).toInt) = _
      rw [BitVec.toInt_ofInt, Int.bmod_eq_of_le (by omega) (by omega)]
      unfold displayInt
      rw [if_neg (by omega)]; rfl
    | negative h0 h =>
      rename_i n
      refine ⟨BitVec.ofInt 64 (-n), ?_⟩
      show SVal.str (displayInt (BitVec.ofInt 64 (-n)).toInt) = _
      rw [BitVec.toInt_ofInt, Int.bmod_eq_of_le (by omega) (by omega)]
      unfold displayInt
      rw [if_pos (by omega), Int.natAbs_neg]; rfl
  · rintro ⟨v, rfl⟩
    have h1 := BitVec.le_toInt v
    have h2 := BitVec.toInt_lt (x := v)
    simp only [Nat.reduceSub] at h1 h2
    show Has .i64 (.str (displayInt v.toInt))
    unfold displayInt
    split
    · exact .negative (by omega) (by omega)
    · exact .i64 (by omega)

theorem opt_fits {α : Type} {f : α → SVal} {s : Shape} (h : Fits f s) :
    Fits (fun o : Option α => match o with | none => .null | some v => f v) (.opt s) := by
  intro j
  constructor
  · intro hj
    cases hj with
    | absent => exact ⟨none, rfl⟩
    | present hj =>
      obtain ⟨v, rfl⟩ := (h _).1 hj
      exact ⟨some v, rfl⟩
  · rintro ⟨v, rfl⟩
    cases v with
    | none => exact .absent
    | some v => exact .present ((h _).2 ⟨v, rfl⟩)

theorem option_fits {α : Type} {c : Codec α} {s : Shape} (h : Fits c.ser s) :
    Fits (cOption c).ser (.opt s) := by
  intro j
  constructor
  · intro hj
    cases hj with
    | absent => exact ⟨none, rfl⟩
    | present hj =>
      obtain ⟨v, rfl⟩ := (h _).1 hj
      exact ⟨some v, rfl⟩
  · rintro ⟨v, rfl⟩
    cases v with
    | none => exact .absent
    | some v => exact .present ((h _).2 ⟨v, rfl⟩)

theorem seq_fits {α : Type} {f : α → SVal} {s : Shape} (h : Fits f s) :
    Fits (fun xs : List α => .seq (xs.map f)) (.list s) := by
  intro j
  constructor
  · intro hj
    cases hj with
    | list hj =>
      rename_i js
      suffices ∃ xs : List α, xs.map f = js by
        obtain ⟨xs, rfl⟩ := this
        exact ⟨xs, rfl⟩
      induction js with
      | nil => exact ⟨[], rfl⟩
      | cons j js ih =>
        obtain ⟨xs, rfl⟩ := ih fun k hk => hj k (List.mem_cons_of_mem _ hk)
        obtain ⟨x, rfl⟩ := (h _).1 (hj _ (List.mem_cons_self ..))
        exact ⟨x :: xs, rfl⟩
  · rintro ⟨v, rfl⟩
    refine .list fun j hj => ?_
    obtain ⟨x, _, rfl⟩ := List.mem_map.1 hj
    exact (h _).2 ⟨x, rfl⟩

theorem list_fits {α : Type} {c : Codec α} {s : Shape} (h : Fits c.ser s) :
    Fits (cList c).ser (.list s) := seq_fits h

theorem array3_fits {α : Type} {c : Codec α} {s : Shape} (h : Fits c.ser s) :
    Fits (cArray3 c).ser (.tuple [s, s, s]) := by
  intro j
  constructor
  · intro hj
    cases hj with | tuple hj =>
    cases hj with | cons h0 hj =>
    cases hj with | cons h1 hj =>
    cases hj with | cons h2 hj =>
    cases hj
    obtain ⟨a, rfl⟩ := (h _).1 h0
    obtain ⟨b, rfl⟩ := (h _).1 h1
    obtain ⟨d, rfl⟩ := (h _).1 h2
    exact ⟨(a, b, d), rfl⟩
  · rintro ⟨v, rfl⟩
    exact .tuple (.cons ((h _).2 ⟨v.1, rfl⟩) (.cons ((h _).2 ⟨v.2.1, rfl⟩) (.cons ((h _).2 ⟨v.2.2, rfl⟩) .nil)))

/-! ### Header values -/

mutual
theorem serProp_has : ∀ p, Has .prop (serProp p)
  | .array elems => .prop (.head _) (.list (serElems_has elems))
  | .bool _ => .prop (.tail _ (.head _)) .bool
  | .byte _ value => .prop (.tail _ (.tail _ (.head _)))
      (.struct (.cons .text (.cons ((option_fits str_fits _).2 ⟨value, rfl⟩) .nil)))
  | .float _ => .prop (.tail _ (.tail _ (.tail _ (.head _)))) .f32
  | .int i => .prop (.tail _ (.tail _ (.tail _ (.tail _ (.head _)))))
      (.signed (BitVec.le_toInt i) (BitVec.toInt_lt (x := i)))
  | .qword q => .prop (.tail _ (.tail _ (.tail _ (.tail _ (.tail _ (.head _)))))) (.u64 q.isLt)
  | .name _ => .prop (.tail _ (.tail _ (.tail _ (.tail _ (.tail _ (.tail _ (.head _))))))) .text
  | .str _ => .prop (.tail _ (.tail _ (.tail _ (.tail _ (.tail _ (.tail _ (.head _))))))) .text
  | .struct _ fields => .prop (.tail _ (.tail _ (.tail _ (.tail _ (.tail _ (.tail _ (.tail _ (.head _))))))))
      (.struct (.cons .text (.cons (.props (serProps_has fields)) .nil)))
theorem serProps_has : ∀ l, ∀ kv ∈ stringKeys (serProps l), Has .prop kv.2
  | [] => by simp [serProps, stringKeys]
  | (k, v) :: rest => by
    simp only [serProps, stringKeys, List.mem_cons]
    rintro kv (rfl | h)
    · exact serProp_has v
    · exact serProps_has rest kv h
theorem serElems_has : ∀ l, ∀ j ∈ serElems l, Has .props j
  | [] => by simp [serElems]
  | e :: rest => by
    simp only [serElems, List.mem_cons]
    rintro j (rfl | h)
    · exact .props (serProps_has e)
    · exact serElems_has rest j h
end

mutual
theorem prop_of_has : ∀ j, Has .prop j → ∃ p, serProp p = j
  | .null, h => by
    cases h with
    | prop hm h =>
      simp only [propShapes, List.mem_cons, List.not_mem_nil, or_false] at hm
      rcases hm with rfl | rfl | rfl | rfl | rfl | rfl | rfl | rfl <;> cases h
  | .bool b, _ => ⟨.bool b, rfl⟩
  | .int i, h => by
    cases h with
    | prop hm h =>
      simp only [propShapes, List.mem_cons, List.not_mem_nil, or_false] at hm
      rcases hm with rfl | rfl | rfl | rfl | rfl | rfl | rfl | rfl <;> try cases h
      rename_i h1 h2
      obtain ⟨v, hv⟩ := (signed_fits 32 (by decide) _).1 (.signed h1 h2)
      exact ⟨.int v, hv⟩
  | .f32 x, _ => ⟨.float x, rfl⟩
  | .str s, _ => ⟨.str s, rfl⟩
  | .unitVariant n, h => by
    cases h with
    | prop hm h =>
      simp only [propShapes, List.mem_cons, List.not_mem_nil, or_false] at hm
      rcases hm with rfl | rfl | rfl | rfl | rfl | rfl | rfl | rfl <;> cases h
  | .variant n x, h => by
    cases h with
    | prop hm h =>
      simp only [propShapes, List.mem_cons, List.not_mem_nil, or_false] at hm
      rcases hm with rfl | rfl | rfl | rfl | rfl | rfl | rfl | rfl <;> cases h
  | .seq js, h => by
    cases h with
    | prop hm h =>
      simp only [propShapes, List.mem_cons, List.not_mem_nil, or_false] at hm
      rcases hm with rfl | rfl | rfl | rfl | rfl | rfl | rfl | rfl <;> try cases h
      rename_i h
      obtain ⟨l, rfl⟩ := elems_of_has js h
      exact ⟨.array l, by rw [serProp]⟩
  | .map kvs, h => by
    cases h with
    | prop hm h =>
      simp only [propShapes, List.mem_cons, List.not_mem_nil, or_false] at hm
      rcases hm with rfl | rfl | rfl | rfl | rfl | rfl | rfl | rfl <;> try cases h
      · rename_i h
        cases h with | cons h0 h =>
        cases h with | cons h1 h =>
        cases h
        obtain ⟨a, rfl⟩ := (str_fits _).1 h0
        obtain ⟨b, rfl⟩ := (option_fits str_fits _).1 h1
        exact ⟨.byte a b, by rw [serProp]; rfl⟩
      · rename_i h
        cases h with | cons h0 h =>
        cases h with | cons h1 h =>
        cases h
        obtain ⟨a, rfl⟩ := (str_fits _).1 h0
        cases h1 with | props h1 =>
        rename_i kvs
        obtain ⟨l, rfl⟩ := props_of_has kvs h1
        exact ⟨.struct a l, by rw [serProp]; rfl⟩
theorem props_of_has : ∀ kvs : List (String × SVal), (∀ kv ∈ kvs, Has .prop kv.2) →
    ∃ l, stringKeys (serProps l) = kvs
  | [], _ => ⟨[], rfl⟩
  | (k, v) :: rest, h => by
    obtain ⟨p, hp⟩ := prop_of_has v (h _ (List.mem_cons_self ..))
    obtain ⟨l, hl⟩ := props_of_has rest fun kv hkv => h kv (List.mem_cons_of_mem _ hkv)
    exact ⟨(k.toList, p) :: l, by simp [serProps, stringKeys, hp, hl]⟩
theorem elems_of_has : ∀ js : List SVal, (∀ j ∈ js, Has .props j) → ∃ l, serElems l = js
  | [], _ => ⟨[], rfl⟩
  | j :: rest, h => by
    obtain ⟨l, hl⟩ := elems_of_has rest fun kv hkv => h kv (List.mem_cons_of_mem _ hkv)
    have hj := h j (List.mem_cons_self ..)
    match j, hj with
    | .map kvs, hj =>
      cases hj with | props hj =>
      obtain ⟨e, he⟩ := props_of_has kvs hj
      exact ⟨e :: l, by simp [serElems, he, hl]⟩
end

theorem props_fits : Fits (fun l => .map (stringKeys (serProps l))) .props := by
  intro j
  constructor
  · intro h
    cases h with | props h =>
    obtain ⟨l, rfl⟩ := props_of_has _ h
    exact ⟨l, rfl⟩
  · rintro ⟨l, rfl⟩
    exact .props (serProps_has l)

/-! ### Generated -/

set_option maxRecDepth 100000
set_option linter.unusedSimpArgs false

