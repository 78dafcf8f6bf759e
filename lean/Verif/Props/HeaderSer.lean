import Verif.Proofs.HeaderSer
import Verif.Props.Serde
/-!
# C57: what a serialized replay keeps
-/
namespace Boxcars.Props
open Boxcars Spec

/-- C57. Two header values are written alike exactly if they are the same apart from the
kinds of the texts in them. -/
theorem prop_serialized (p q : HeaderProp) : serProp p = serProp q ↔ plainProp p = plainProp q :=
  serProp_eq_iff p q

/-- C57. Two replays are written alike exactly if they are the same apart from the kinds of
the texts in their header values.  In particular the order of properties, repeated keys,
the order and content of all frames and every bit of every float are kept. -/
theorem replay_serialized (r s : Replay) :
    serReplay r = serReplay s ↔ plainReplay r = plainReplay s := serReplay_eq_iff r s

theorem floatIn_elems {x : F32} {xs : List SVal} : FloatIn x (.seq xs) ↔ ∃ s ∈ xs, FloatIn x s := by
  constructor
  · intro h; cases h with | seq h1 h2 => exact ⟨_, h1, h2⟩
  · rintro ⟨s, h1, h2⟩; exact .seq h1 h2

theorem floatIn_map {x : F32} {kvs : List (String × SVal)} :
    FloatIn x (.map kvs) ↔ ∃ p ∈ kvs, FloatIn x p.2 := by
  constructor
  · intro h; cases h with | map h1 h2 => exact ⟨_, h1, h2⟩
  · rintro ⟨⟨k, s⟩, h1, h2⟩; exact .map h1 h2

theorem floatIn_str {x : F32} {s : Str} : FloatIn x (.str s) ↔ False :=
  ⟨fun h => (by cases h), False.elim⟩
theorem floatIn_int {x : F32} {i : Int} : FloatIn x (.int i) ↔ False :=
  ⟨fun h => (by cases h), False.elim⟩
theorem floatIn_bool {x : F32} {b : Bool} : FloatIn x (.bool b) ↔ False :=
  ⟨fun h => (by cases h), False.elim⟩
theorem floatIn_null {x : F32} : FloatIn x .null ↔ False :=
  ⟨fun h => (by cases h), False.elim⟩
theorem floatIn_f32 {x y : F32} : FloatIn x (.f32 y) ↔ x = y :=
  ⟨fun h => by cases h; rfl, fun h => h ▸ .here⟩

theorem floatIn_optStr {x : F32} {v : Option Str} : FloatIn x ((cOption cStr).ser v) ↔ False := by
  cases v
  · exact floatIn_null
  · exact floatIn_str
theorem floatIn_optI32 {x : F32} {v : Option I32} : FloatIn x ((cOption cI32).ser v) ↔ False := by
  cases v
  · exact floatIn_null
  · exact floatIn_int
theorem floatIn_strs {x : F32} {v : List Str} : FloatIn x ((cList cStr).ser v) ↔ False := by
  refine (floatIn_elems (xs := v.map cStr.ser)).trans ⟨?_, False.elim⟩
  rintro ⟨s, h, h'⟩
  obtain ⟨t, _, rfl⟩ := List.mem_map.1 h
  exact floatIn_str.1 h'

mutual
theorem propFloats_iff (x : F32) : ∀ p, FloatIn x (serProp p) ↔ x ∈ propFloats p
  | .array a => by
    simp only [serProp, propFloats, floatIn_elems]
    exact elemsFloats_iff x a
  | .struct n f => by
    simp only [serProp, propFloats, floatIn_map, List.mem_cons, List.not_mem_nil, or_false,
      exists_eq_or_imp, exists_eq_left, floatIn_str, false_or]
    exact propsFloats_iff x f
  | .byte k v => by
    simp only [serProp, propFloats, floatIn_map, List.mem_cons, List.not_mem_nil, or_false,
      exists_eq_or_imp, exists_eq_left, floatIn_str, floatIn_optStr]
  | .bool b => by simp [serProp, propFloats, floatIn_bool]
  | .float f => by simp [serProp, propFloats, floatIn_f32]
  | .int f => by simp [serProp, propFloats, floatIn_int]
  | .qword f => by simp [serProp, propFloats, floatIn_str]
  | .name f => by simp [serProp, propFloats, floatIn_str]
  | .str f => by simp [serProp, propFloats, floatIn_str]
theorem propsFloats_iff (x : F32) : ∀ p, (∃ q ∈ stringKeys (serProps p), FloatIn x q.2) ↔
    x ∈ propsFloats p
  | [] => by simp [serProps, stringKeys, propsFloats]
  | (k, v) :: p => by
    simp only [serProps, stringKeys, propsFloats, List.mem_cons, exists_eq_or_imp, List.mem_append]
    rw [propFloats_iff x v, propsFloats_iff x p]
theorem elemsFloats_iff (x : F32) : ∀ p, (∃ q ∈ serElems p, FloatIn x q) ↔ x ∈ elemsFloats p
  | [] => by simp [serElems, elemsFloats]
  | e :: p => by
    simp only [serElems, elemsFloats, List.mem_cons, exists_eq_or_imp, List.mem_append, floatIn_map]
    rw [propsFloats_iff x e, elemsFloats_iff x p]
end

theorem noFloat_map {α : Type} {x : F32} {f : α → SVal} (h : ∀ a, ¬FloatIn x (f a)) (l : List α) :
    FloatIn x (.seq (l.map f)) ↔ False := by
  refine floatIn_elems.trans ⟨?_, False.elim⟩
  rintro ⟨s, hs, h'⟩
  obtain ⟨t, _, rfl⟩ := List.mem_map.1 hs
  exact h _ h'

theorem floatIn_keyframes {x : F32} {l : List KeyFrame} :
    FloatIn x (.seq (l.map serKeyFrame)) ↔ ∃ k ∈ l, k.time = x := by
  rw [floatIn_elems]
  constructor
  · rintro ⟨s, hs, h'⟩
    obtain ⟨k, hk, rfl⟩ := List.mem_map.1 hs
    simp [serKeyFrame, floatIn_map, floatIn_f32, floatIn_int] at h'
    exact ⟨k, hk, h'.symm⟩
  · rintro ⟨k, hk, rfl⟩
    exact ⟨_, List.mem_map.2 ⟨k, hk, rfl⟩, .map (k := "time") (.head _) .here⟩

/-- The floats of a serialized replay are those of header values, keyframes and frames. -/
theorem replay_floats (x : F32) (r : Replay) : FloatIn x (serReplay r) ↔
    x ∈ propsFloats r.properties ∨ (∃ k ∈ r.keyframes, k.time = x) ∨
      ∃ n, r.networkFrames = some n ∧ FloatIn x ((cList cFrame).ser n.frames) := by
  have h1 : ∀ d : DebugInfo, ¬FloatIn x (serDebugInfo d) := by
    intro d h; simp [serDebugInfo, floatIn_map, floatIn_int, floatIn_str] at h
  have h2 : ∀ d : TickMark, ¬FloatIn x (serTickMark d) := by
    intro d h; simp [serTickMark, floatIn_map, floatIn_int, floatIn_str] at h
  have h3 : ∀ d : ClassIndex, ¬FloatIn x (serClassIndex d) := by
    intro d h; simp [serClassIndex, floatIn_map, floatIn_int, floatIn_str] at h
  have h4 : ∀ d : CacheProp, ¬FloatIn x (serCacheProp d) := by
    intro d h; simp [serCacheProp, floatIn_map, floatIn_int] at h
  have h5 : ∀ d : ClassNetCache, ¬FloatIn x (serClassNetCache d) := by
    intro d h
    simp only [serClassNetCache, floatIn_map, floatIn_int, List.mem_cons, List.not_mem_nil, or_false,
      exists_eq_or_imp, exists_eq_left, noFloat_map h4] at h
  have h6 : FloatIn x (match r.networkFrames with | none => .null | some n => serNetworkFrames n) ↔
      ∃ n, r.networkFrames = some n ∧ FloatIn x ((cList cFrame).ser n.frames) := by
    cases r.networkFrames with
    | none => simp [floatIn_null]
    | some n =>
      simp only [Option.some.injEq, exists_eq_left', serNetworkFrames, floatIn_map, List.mem_singleton,
        exists_eq_left]
  unfold serReplay
  simp only [floatIn_map, List.mem_cons, List.not_mem_nil, or_false, exists_eq_or_imp,
    exists_eq_left, floatIn_int, floatIn_str, floatIn_optI32, floatIn_strs, noFloat_map h1,
    noFloat_map h2, noFloat_map h3, noFloat_map h5, floatIn_keyframes, false_or,
    propsFloats_iff x r.properties]
  exact or_congr_right (or_comm.trans (or_congr_right h6))

/-- C57. Through JSON as well, provided all floats are finite. -/
theorem replay_json (r s : Replay) (hr : ∀ x, FloatIn x (serReplay r) → IsFinite x)
    (hs : ∀ x, FloatIn x (serReplay s) → IsFinite x) :
    toJson (serReplay r) = toJson (serReplay s) ↔ plainReplay r = plainReplay s := by
  rw [(json_safe_iff _).2 hr, (json_safe_iff _).2 hs, replay_serialized]

/-- What is lost: a name, a string and a 64-bit number can be written alike. -/
example : serProp (.name ['5']) = serProp (.str ['5']) ∧ serProp (.qword 5) = serProp (.str ['5']) ∧
    serProp (.name ['5']) ≠ serProp (.int 5) ∧ serProp (.float 0) ≠ serProp (.int 0) := by
  refine ⟨rfl, rfl, ?_, ?_⟩ <;> simp [serProp]

/-- Repeated keys and their order are kept. -/
example (k : Str) : serProp (.struct [] [(k, .int 1), (k, .int 2)]) ≠
    serProp (.struct [] [(k, .int 2), (k, .int 1)]) := by
  rw [Ne, prop_serialized]; simp [plainProp, plainProps]

end Boxcars.Props
