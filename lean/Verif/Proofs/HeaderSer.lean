import Verif.Proofs.Serde
import Verif.Spec.HeaderSer
/-!
# Equality of serialized replays
-/
namespace Boxcars
open Spec

theorem ofList_inj {a b : Str} : String.ofList a = String.ofList b ↔ a = b := by
  constructor
  · intro h
    have := congrArg String.toList h
    simpa using this
  · rintro rfl; rfl

mutual
theorem serProp_eq_iff : ∀ p q : HeaderProp, serProp p = serProp q ↔ plainProp p = plainProp q
  | .array a, q => by
    cases q <;> simp [serProp, plainProp, cOption]
    exact serElems_eq_iff a _
  | .struct n f, q => by
    cases q <;> simp [serProp, plainProp, cOption]
    intro _
    exact serProps_eq_iff f _
  | .bool b, q => by cases q <;> simp [serProp, plainProp, cOption]
  | .byte k v, q => by
    cases q <;> simp [serProp, plainProp, cOption]
    rename_i k' v'
    intro _
    cases v <;> cases v' <;> simp [cStr]
  | .float f, q => by cases q <;> simp [serProp, plainProp, cOption]
  | .int i, q => by
    cases q <;> simp [serProp, plainProp, cOption]
    exact BitVec.toInt_inj
  | .name s, q => by cases q <;> simp [serProp, plainProp, cOption, displayNat]
  | .qword s, q => by cases q <;> simp [serProp, plainProp, cOption, displayNat]
  | .str s, q => by cases q <;> simp [serProp, plainProp, cOption, displayNat]
theorem serProps_eq_iff : ∀ p q : List (Str × HeaderProp),
    stringKeys (serProps p) = stringKeys (serProps q) ↔ plainProps p = plainProps q
  | [], [] => by simp [plainProps]
  | [], (_, _) :: _ => by simp [serProps, stringKeys, plainProps]
  | (_, _) :: _, [] => by simp [serProps, stringKeys, plainProps]
  | (k, v) :: p, (k', v') :: q => by
    simp only [serProps, stringKeys, plainProps, List.cons.injEq, Prod.mk.injEq, ofList_inj]
    rw [serProp_eq_iff v v', serProps_eq_iff p q]
theorem serElems_eq_iff : ∀ p q : List (List (Str × HeaderProp)),
    serElems p = serElems q ↔ plainElems p = plainElems q
  | [], [] => by simp [plainElems]
  | [], _ :: _ => by simp [serElems, plainElems]
  | _ :: _, [] => by simp [serElems, plainElems]
  | e :: p, e' :: q => by
    simp only [serElems, plainElems, List.cons.injEq, SVal.map.injEq]
    rw [serProps_eq_iff e e', serElems_eq_iff p q]
end

theorem ser_inj {α : Type} {c : Codec α} (h : ∀ v, c.de (c.ser v) = some v) {a b : α} :
    c.ser a = c.ser b ↔ a = b := by
  constructor
  · intro e
    have := h a
    rw [e, h b] at this
    exact (Option.some.inj this).symm
  · rintro rfl; rfl

theorem map_inj {α β : Type} {f : α → β} (h : ∀ a b, f a = f b → a = b) {a b : List α} :
    a.map f = b.map f ↔ a = b := by
  constructor
  · intro e
    exact (List.map_inj_right (fun x y hxy => h x y hxy)).1 e
  · rintro rfl; rfl

theorem toNat_cast_inj {w : Nat} {a b : BitVec w} : ((a.toNat : Int) = b.toNat) ↔ a = b := by
  rw [Int.ofNat_inj, BitVec.toNat_inj]

theorem serKeyFrame_inj (a b : KeyFrame) (h : serKeyFrame a = serKeyFrame b) : a = b := by
  cases a; cases b
  simp [serKeyFrame, BitVec.toInt_inj] at h
  simp [h]
theorem serDebugInfo_inj (a b : DebugInfo) (h : serDebugInfo a = serDebugInfo b) : a = b := by
  cases a; cases b
  simp [serDebugInfo, BitVec.toInt_inj] at h
  simp [h]
theorem serTickMark_inj (a b : TickMark) (h : serTickMark a = serTickMark b) : a = b := by
  cases a; cases b
  simp [serTickMark, BitVec.toInt_inj] at h
  simp [h]
theorem serClassIndex_inj (a b : ClassIndex) (h : serClassIndex a = serClassIndex b) : a = b := by
  cases a; cases b
  simp [serClassIndex, BitVec.toInt_inj] at h
  simp [h]
theorem serCacheProp_inj (a b : CacheProp) (h : serCacheProp a = serCacheProp b) : a = b := by
  cases a; cases b
  simp [serCacheProp, BitVec.toInt_inj] at h
  simp [h]
theorem serClassNetCache_inj (a b : ClassNetCache) (h : serClassNetCache a = serClassNetCache b) :
    a = b := by
  cases a; cases b
  simp [serClassNetCache, BitVec.toInt_inj] at h
  obtain ⟨h1, h2, h3, h4⟩ := h
  rw [h1, h2, h3, (map_inj serCacheProp_inj).1 h4]

theorem serFrames_inj {a b : NetworkFrames} : serNetworkFrames a = serNetworkFrames b ↔ a = b := by
  cases a; cases b
  simp only [serNetworkFrames, SVal.map.injEq, List.cons.injEq, Prod.mk.injEq, and_true, true_and,
    NetworkFrames.mk.injEq]
  exact ser_inj (list_ll Frame_ll.opt).rt

theorem serFrames_ne (a : NetworkFrames) : (serNetworkFrames a = .null) = False := by
  simp [serNetworkFrames]
theorem serFrames_ne' (a : NetworkFrames) : (.null = serNetworkFrames a) = False := by
  simp [serNetworkFrames]

theorem serReplay_eq_iff (r s : Replay) : serReplay r = serReplay s ↔ plainReplay r = plainReplay s := by
  obtain ⟨_, _, _, _, _, _, _, _, _, n, _⟩ := r
  obtain ⟨_, _, _, _, _, _, _, _, _, n', _⟩ := s
  cases n <;> cases n' <;>
  simp only [serReplay, plainReplay, SVal.map.injEq, List.cons.injEq, Prod.mk.injEq, true_and,
    and_true, SVal.int.injEq, SVal.str.injEq, SVal.seq.injEq, Replay.mk.injEq, BitVec.toInt_inj,
    toNat_cast_inj, serProps_eq_iff, serFrames_inj, map_inj serKeyFrame_inj,
    map_inj serDebugInfo_inj, map_inj serTickMark_inj, map_inj serClassIndex_inj,
    map_inj serClassNetCache_inj, ser_inj (c := cList cStr) (list_ll str_ll.opt).rt,
    ser_inj (c := cOption cI32) (option_ll i32_ll).rt, serFrames_ne, serFrames_ne', reduceCtorEq,
    Option.some.injEq]

/-! ### Floats -/

end Boxcars
