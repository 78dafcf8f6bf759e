import Verif.Proofs.Serde
import Verif.Props.Frames
/-!
# C44, C45: serialization
-/
namespace Boxcars.Props
open Boxcars Spec

/-! ## C44 -/

/-- C44. A `u64` written in decimal is read back. -/
theorem u64_round_trip (v : U64) : parseU64 (displayNat v.toNat) = some v := u64_rt v

/-- C44. An `i64` written in decimal is read back. -/
theorem i64_round_trip (v : BitVec 64) : parseI64 (displayInt v.toInt) = some v := i64_rt v

/-- What is written is the decimal numeral without superfluous zeros. -/
theorem display_decimal (n : Nat) :
    Decimal (displayNat n) n ∧ (n ≠ 0 → (displayNat n).head? ≠ some '0') :=
  ⟨decimal_display n, display_head n⟩

/-- What is read as `u64`: a decimal numeral below `2^64`, possibly after a plus sign. -/
theorem parseU64_iff (s : Str) (v : U64) :
    parseU64 s = some v ↔ ∃ t, (s = t ∨ s = '+' :: t) ∧ Decimal t v.toNat := by
  have key : ∀ t, ((parseDigits t).bind (fun n =>
      if n < 2 ^ 64 then some (BitVec.ofNat 64 n) else none) = some v ↔ Decimal t v.toNat) := by
    intro t
    constructor
    · intro h
      obtain ⟨n, h1, h2⟩ := Option.bind_eq_some_iff.1 h
      split at h2
      · rename_i hn
        cases h2
        rw [BitVec.toNat_ofNat, Nat.mod_eq_of_lt hn]
        exact (parseDigits_iff _ _).1 h1
      · cases h2
    · intro h
      rw [(parseDigits_iff _ _).2 h]
      have := v.isLt
      simp [this]
  have hplus : ∀ t, ¬Decimal ('+' :: t) v.toNat := by
    intro t h
    obtain ⟨d, u, h1, h2⟩ := decimal_head h
    exact (digitOf_ne h1).1 (List.cons.inj h2).1.symm
  by_cases hs : ∃ t, s = '+' :: t
  · obtain ⟨t, rfl⟩ := hs
    refine (key t).trans ⟨fun h => ⟨t, .inr rfl, h⟩, ?_⟩
    rintro ⟨u, rfl | h, hd⟩
    · exact absurd hd (hplus _)
    · rw [(List.cons.inj h).2]; exact hd
  · have hm : parseU64 s = (parseDigits s).bind (fun n =>
        if n < 2 ^ 64 then some (BitVec.ofNat 64 n) else none) := by
      unfold parseU64
      dsimp only
      split
      · exact absurd ⟨_, rfl⟩ hs
      · rfl
    rw [hm]
    refine (key s).trans ⟨fun h => ⟨s, .inl rfl, h⟩, ?_⟩
    rintro ⟨u, rfl | h, hd⟩
    · exact hd
    · exact absurd ⟨_, h⟩ hs

/-- What is read as `i64`: a decimal numeral, possibly after a sign, in the range. -/
theorem parseI64_iff (s : Str) (v : BitVec 64) :
    parseI64 s = some v ↔ ∃ t n, Decimal t n ∧
      (((s = t ∨ s = '+' :: t) ∧ v.toInt = n) ∨ (s = '-' :: t ∧ v.toInt = -n)) := by
  have pos : ∀ t, ((parseDigits t).bind (fun n =>
      if n < 2 ^ 63 then some (BitVec.ofNat 64 n) else none) = some v ↔
        ∃ n, Decimal t n ∧ v.toInt = (n : Int)) := by
    intro t
    constructor
    · intro h
      obtain ⟨n, h1, h2⟩ := Option.bind_eq_some_iff.1 h
      split at h2
      · rename_i hn
        cases h2
        refine ⟨n, (parseDigits_iff _ _).1 h1, ?_⟩
        rw [BitVec.toInt_ofNat', Int.bmod_eq_of_le (by omega) (by omega)]
      · cases h2
    · rintro ⟨n, h, hn⟩
      rw [(parseDigits_iff _ _).2 h]
      have h2 : n < 2 ^ 63 := by have := BitVec.toInt_lt (x := v); omega
      simp only [Option.bind_some, if_pos h2, Option.some.injEq]
      apply BitVec.eq_of_toInt_eq
      rw [hn, BitVec.toInt_ofNat', Int.bmod_eq_of_le (by omega) (by omega)]
  have neg : ∀ t, ((parseDigits t).bind (fun n =>
      if n ≤ 2 ^ 63 then some (BitVec.ofInt 64 (-n)) else none) = some v ↔
        ∃ n, Decimal t n ∧ v.toInt = -(n : Int)) := by
    intro t
    constructor
    · intro h
      obtain ⟨n, h1, h2⟩ := Option.bind_eq_some_iff.1 h
      split at h2
      · rename_i hn
        cases h2
        refine ⟨n, (parseDigits_iff _ _).1 h1, ?_⟩
        rw [BitVec.toInt_ofInt, Int.bmod_eq_of_le (by omega) (by omega)]
      · cases h2
    · rintro ⟨n, h, hn⟩
      rw [(parseDigits_iff _ _).2 h]
      have h2 : n ≤ 2 ^ 63 := by have := BitVec.le_toInt (x := v); omega
      simp only [Option.bind_some, if_pos h2, Option.some.injEq]
      apply BitVec.eq_of_toInt_eq
      rw [hn, BitVec.toInt_ofInt, Int.bmod_eq_of_le (by omega) (by omega)]
  have noSign : ∀ t n, ¬Decimal ('+' :: t) n ∧ ¬Decimal ('-' :: t) n := by
    intro t n
    constructor
    · intro h
      obtain ⟨d, u, h1, h2⟩ := decimal_head h
      exact (digitOf_ne h1).1 (List.cons.inj h2).1.symm
    · intro h
      obtain ⟨d, u, h1, h2⟩ := decimal_head h
      exact (digitOf_ne h1).2 (List.cons.inj h2).1.symm
  unfold parseI64
  split
  · rename_i t
    refine (neg t).trans ⟨fun ⟨n, h, hn⟩ => ⟨t, n, h, .inr ⟨rfl, hn⟩⟩, ?_⟩
    rintro ⟨u, n, hd, ⟨rfl | h, _⟩ | ⟨h, hn⟩⟩
    · exact absurd hd (noSign _ _).2
    · exact absurd (List.cons.inj h).1 (by decide)
    · cases h; exact ⟨n, hd, hn⟩
  · rename_i t
    refine (pos t).trans ⟨fun ⟨n, h, hn⟩ => ⟨t, n, h, .inl ⟨.inr rfl, hn⟩⟩, ?_⟩
    rintro ⟨u, n, hd, ⟨rfl | h, hn⟩ | ⟨h, _⟩⟩
    · exact absurd hd (noSign _ _).1
    · cases h; exact ⟨n, hd, hn⟩
    · exact absurd (List.cons.inj h).1 (by decide)
  · rename_i h1 h2
    refine (pos s).trans ⟨fun ⟨n, h, hn⟩ => ⟨s, n, h, .inl ⟨.inl rfl, hn⟩⟩, ?_⟩
    rintro ⟨u, n, hd, ⟨rfl | h, hn⟩ | ⟨h, _⟩⟩
    · exact ⟨n, hd, hn⟩
    · exact absurd h (h2 u)
    · exact absurd h (h1 u)

example : displayNat (BitVec.allOnes 64).toNat = "18446744073709551615".toList ∧
    parseU64 "18446744073709551616".toList = none ∧
    displayInt (BitVec.ofNat 64 (2 ^ 63)).toInt = "-9223372036854775808".toList := by
  decide +kernel

/-! ## C45 -/

/-- `x` is one of the floats in a value. -/
inductive FloatIn (x : F32) : SVal → Prop where
  | here : FloatIn x (.f32 x)
  | seq {xs s} : s ∈ xs → FloatIn x s → FloatIn x (.seq xs)
  | map {kvs k s} : (k, s) ∈ kvs → FloatIn x s → FloatIn x (.map kvs)
  | variant {n s} : FloatIn x s → FloatIn x (.variant n s)

mutual
/-- A value survives `serde_json` exactly if its floats are finite. -/
theorem json_safe_iff : (s : SVal) → (toJson s = s ↔ ∀ x, FloatIn x s → IsFinite x)
  | .f32 y => by
    simp only [toJson]
    constructor
    · intro h x hx
      cases hx
      unfold IsFinite fexp
      split at h
      · cases h
      · assumption
    · intro h
      have := h y .here
      unfold IsFinite fexp at this
      rw [if_neg this]
  | .seq xs => by
    simp only [toJson, SVal.seq.injEq]
    rw [plains_iff xs]
    constructor
    · intro h x hx
      cases hx with
      | seq h1 h2 => exact h _ h1 x h2
    · intro h s hs x hx
      exact h x (.seq hs hx)
  | .map kvs => by
    simp only [toJson, SVal.map.injEq]
    rw [plainFields_iff kvs]
    constructor
    · intro h x hx
      cases hx with
      | map h1 h2 => exact h _ _ h1 x h2
    · intro h k s hs x hx
      exact h x (.map hs hx)
  | .variant n s => by
    simp only [toJson, SVal.variant.injEq, true_and]
    rw [json_safe_iff s]
    constructor
    · intro h x hx
      cases hx with
      | variant h2 => exact h x h2
    · intro h x hx
      exact h x (.variant hx)
  | .null => by simp only [toJson]; exact ⟨fun _ _ h => (by cases h), fun _ => trivial⟩
  | .bool _ => by simp only [toJson]; exact ⟨fun _ _ h => (by cases h), fun _ => trivial⟩
  | .int _ => by simp only [toJson]; exact ⟨fun _ _ h => (by cases h), fun _ => trivial⟩
  | .str _ => by simp only [toJson]; exact ⟨fun _ _ h => (by cases h), fun _ => trivial⟩
  | .unitVariant _ => by simp only [toJson]; exact ⟨fun _ _ h => (by cases h), fun _ => trivial⟩

theorem plains_iff : (xs : List SVal) →
    (toJsons xs = xs ↔ ∀ s ∈ xs, ∀ x, FloatIn x s → IsFinite x)
  | [] => by simp [toJsons]
  | s :: xs => by
    simp only [toJsons, List.cons.injEq, List.forall_mem_cons]
    rw [json_safe_iff s, plains_iff xs]

theorem plainFields_iff : (kvs : List (String × SVal)) →
    (toJsonFields kvs = kvs ↔ ∀ k s, (k, s) ∈ kvs → ∀ x, FloatIn x s → IsFinite x)
  | [] => by simp [toJsonFields]
  | (k, s) :: kvs => by
    simp only [toJsonFields, List.cons.injEq, Prod.mk.injEq, true_and]
    rw [json_safe_iff s, plainFields_iff kvs]
    constructor
    · rintro ⟨h1, h2⟩ k' s' hm
      rcases List.mem_cons.1 hm with h | h
      · cases h; exact h1
      · exact h2 k' s' h
    · intro h
      exact ⟨h k s (by simp), fun k' s' hm => h k' s' (by simp [hm])⟩
end

/-- C45. Frames are read back as they were written. -/
theorem frames_round_trip (fs : List Frame) :
    (cList cFrame).de ((cList cFrame).ser fs) = some fs :=
  (list_ll Frame_ll.opt).rt fs

/-- C45. Through JSON, frames are read back exactly if all floats in them are finite. -/
theorem frames_json (fs : List Frame) :
    (cList cFrame).de (toJson ((cList cFrame).ser fs)) = some fs ↔
      ∀ x, FloatIn x ((cList cFrame).ser fs) → IsFinite x :=
  ((list_ll Frame_ll.opt).json fs).trans (json_safe_iff _)

/-- C45. The frames of a parsed replay need not survive JSON: a time difference may be NaN. -/
theorem json_fails : ∃ data r fs, parseWith .always .always Env.default64 data = .ok r ∧
    r.networkFrames = some ⟨fs⟩ ∧ (cList cFrame).de (toJson ((cList cFrame).ser fs)) ≠ some fs := by
  obtain ⟨data, r, fs, _, h1, h2, f, hf, h3, _⟩ := nan_frame
  refine ⟨data, r, fs, h1, h2, fun h => ?_⟩
  exact (frames_json fs).1 h f.delta
    (.seq (List.mem_map.2 ⟨f, hf, rfl⟩) (.map (k := "delta") (.tail _ (.head _)) .here)) h3

/-- A float that is not finite inside an option is not an error but silently lost. -/
theorem json_loses : ∃ v : CamSettings, ∃ w, w ≠ v ∧
    cCamSettings.de (toJson (cCamSettings.ser v)) = some w := by
  refine ⟨⟨0, 0, 0, 0, 0, 0, some 0x7fc00000⟩, ⟨0, 0, 0, 0, 0, 0, none⟩, by decide, ?_⟩
  decide +kernel

/-- Frames with finite floats do survive. -/
example : (cList cFrame).de (toJson ((cList cFrame).ser (demoFrames.take 2))) =
    some (demoFrames.take 2) := by decide +kernel

end Boxcars.Props
