import Verif.Proofs.FnvSign
import Verif.Props.TableSize
/-!
# C87: keys of the hash tables are told apart by their hashes
-/
namespace Boxcars.Props
open Boxcars Spec Fnv

/-- C87. Different object ids and stream ids have different hashes. -/
theorem id_hashes {x y : BitVec 32} (h : i32Hash x = i32Hash y) : x = y := by
  have h1 := four_bytes_inj (le_length 4 _) (le_length 4 _) h
  have h2 := congrArg leNat h1
  rw [leNat_le, leNat_le] at h2
  have hx := x.isLt
  have hy := y.isLt
  exact BitVec.eq_of_toNat_eq (by omega)

theorem ids_forced (ks : List (BitVec 32)) : forced i32Hash [] ks = 0 :=
  forced_different [] ks fun _ _ h => id_hashes h

theorem same_sign_hashes {x y : BitVec 32} (hs : x.msb = y.msb) (h : usizeHash x = usizeHash y) :
    x = y := by
  unfold usizeHash at h
  rw [show (8 : Nat) = 4 + 4 from rfl, le_add, le_add, write_append, write_append] at h
  have e : ∀ z : BitVec 32, (z.signExtend 64).toNat =
      z.toNat + if z.msb = true then 2 ^ 64 - 2 ^ 32 else 0 := by
    intro z
    rw [BitVec.toNat_signExtend, BitVec.toNat_setWidth,
      Nat.mod_eq_of_lt (by have := z.isLt; omega)]
  have hx := x.isLt
  have hy := y.isLt
  have hd : (x.signExtend 64).toNat / 256 ^ 4 = (y.signExtend 64).toNat / 256 ^ 4 := by
    rw [e, e, hs]
    split <;> omega
  rw [hd] at h
  have h1 := four_bytes_inj (le_length 4 _) (le_length 4 _) (write_inj h)
  have h2 := congrArg leNat h1
  rw [leNat_le, leNat_le, e, e, hs] at h2
  apply BitVec.eq_of_toNat_eq
  split at h2 <;> omega

/-- C87. So have the ids of actors and generally numbers as `usize`. -/
theorem key_hashes {x y : BitVec 32} (h : usizeHash x = usizeHash y) : x = y := by
  by_cases hs : x.msb = y.msb
  · exact same_sign_hashes hs h
  exfalso
  have e : ∀ z : BitVec 32, ∃ a b c d : Byte, usizeHash z =
      write start ([a, b, c, d] ++ if z.msb = true then [0xff, 0xff, 0xff, 0xff] else [0, 0, 0, 0]) := by
    intro z
    have hz := z.isLt
    have e4 : ∀ n, ∃ a b c d : Byte, le 4 n = [a, b, c, d] := fun n => ⟨_, _, _, _, rfl⟩
    obtain ⟨a, b, c, d, h4⟩ := e4 (z.signExtend 64).toNat
    refine ⟨a, b, c, d, ?_⟩
    unfold usizeHash
    have h8 : ∀ n, le 8 n = le 4 n ++ le 4 (n / 256 ^ 4) := le_add 4 4
    rw [h8, h4, BitVec.toNat_signExtend, BitVec.toNat_setWidth, Nat.mod_eq_of_lt (by omega)]
    cases z.msb
    · rw [if_neg (by decide), if_neg (by decide), show (z.toNat + 0) / 256 ^ 4 = 0 by omega]
      rfl
    · rw [if_pos rfl, if_pos rfl, show (z.toNat + (2 ^ 64 - 2 ^ 32)) / 256 ^ 4 = 2 ^ 32 - 1 by omega]
      rfl
  obtain ⟨a, b, c, d, hx⟩ := e x
  obtain ⟨a', b', c', d', hy⟩ := e y
  rw [hx, hy] at h
  cases hxs : x.msb <;> cases hys : y.msb <;> rw [hxs, hys] at h
  · exact hs (hxs.trans hys.symm)
  · exact sign_apart _ _ _ _ _ _ _ _ _ h
  · exact sign_apart _ _ _ _ _ _ _ _ _ h.symm
  · exact hs (hxs.trans hys.symm)

theorem keys_forced (ks : List (BitVec 32)) : forced usizeHash [] ks = 0 :=
  forced_different [] ks fun _ _ h => key_hashes h

/-- C87 fails for names: two that are known to have the same hash. -/
theorem names_collide : "8yn0iYCKYHlIj4-BwPqk".toList ≠ "GReLUrM4wMqfg9yzV3KQ".toList ∧
    strHash "8yn0iYCKYHlIj4-BwPqk".toList = strHash "GReLUrM4wMqfg9yzV3KQ".toList := by
  decide +kernel

/-- Published values of the hash. -/
example : write start [] = 0xcbf29ce484222325 ∧ write start (utf8 "a".toList) = 0xaf63dc4c8601ec8c ∧
    write start (utf8 "foobar".toList) = 0x85944171f73967e8 := by
  decide +kernel

example : i32Hash 5 = 0x2d401a55eec16520 ∧ usizeHash 300 ≠ usizeHash (-300) ∧
    strHash "a".toList = 0x89bc907b544c769 ∧
    forced strHash [] ["8yn0iYCKYHlIj4-BwPqk".toList, "a".toList, "GReLUrM4wMqfg9yzV3KQ".toList,
      "a".toList] = 1 := by
  decide +kernel

/-! ## A file with many such names -/

def collideBody (names : List Str) : ReplayBody :=
  { levels := [], keyframes := [], debugInfo := [], tickMarks := [], packages := [],
    objects := names, names := [], classIndices := [], netCache := [], networkData := [] }

theorem collideBody_ok {names : List Str} (hn : names.length ≤ 25000)
    (hx : ∀ x ∈ names, x.length = 14 ∧ ∀ c ∈ x, 48 ≤ c.toNat ∧ c.toNat < 112) :
    BodyOk (collideBody names) := by
  have h1 : ListOk TextOk names := by
    refine ⟨hn, fun x h => ?_⟩
    obtain ⟨h2, h3⟩ := hx x h
    unfold TextOk
    split
    · rw [h2]; omega
    · rw [utf16_length_of fun c hc => by have := h3 c hc; omega, h2]; omega
  unfold BodyOk collideBody
  refine ⟨?_, ?_, ?_, ?_, ?_, ?_, h1, ?_, ?_, ?_⟩ <;> simp [ListOk]

theorem collide_length {names : List Str}
    (hx : ∀ x ∈ names, x.length = 14 ∧ ∀ c ∈ x, 48 ≤ c.toNat ∧ c.toNat < 112) :
    (encFile crowdHeader (collideBody names)).length ≤ 34 * names.length + 100 := by
  have e1 : (encHeader crowdHeader).length = 22 := by decide +kernel
  have e2 : (encList encText names).length ≤ 4 + 34 * names.length := by
    unfold encList
    rw [List.length_append, word_length]
    have := flatMap_length_le (f := encText) (k := 34) (l := names) (by
      intro x h
      obtain ⟨h2, h3⟩ := hx x h
      have := encText_length_le (s := x) fun c hc => by have := h3 c hc; omega
      omega)
    omega
  have e4 : (encBody (collideBody names)).length ≤ 50 + 34 * names.length := by
    unfold encBody collideBody
    simp only [List.length_append, word_length, List.length_nil]
    have z : ∀ {α : Type} (f : α → Bytes), (encList f []).length = 4 := by
      intro α f; simp [encList]
    simp only [z]
    omega
  unfold encFile encSection
  simp only [List.length_append, word_length]
  omega

/-- C87 fails: for each `n` up to the limit of lists there is a file of less than `34 * n + 100`
bytes that is accepted, and entering the names of its `n` objects takes `n * (n - 1) / 2`
comparisons. -/
theorem names_quadratic (env : Env) (check : CrcCheck) (n : Nat) (hn : n ≤ 25000) :
    ∃ data r, data.length ≤ 34 * n + 100 ∧ parseWith check .always env data = .ok r ∧
      r.objects.length = n ∧ r.objects.Nodup ∧
      2 * forced strHash [] r.objects + n = n * n := by
  obtain ⟨names, h1, h2, h3, h, h4⟩ := many_collide n hn
  have hlen := collide_length h3
  have hl : names.length ≤ 2 ^ 31 := by omega
  obtain ⟨spawns, hs, _⟩ := spawn_inheritance_partial env names hl
  obtain ⟨caches, hc, _⟩ := cacheTable_run env names hl [] (by intro c hc; cases hc)
  have hnum : crowdHeader.numFrames = none := by decide +kernel
  have hp : Network.parse env crowdHeader (collideBody names) = .ok ⟨[]⟩ := by
    unfold Network.parse
    rw [hnum]
    show (Network.spawnTable env names >>= fun _ =>
      (Network.cacheTable env names [] >>= fun _ => _)) = _
    rw [hs, hc]
    rfl
  have hr := file_round_trip_network check .always env crowdHeader (collideBody names) crowdHeader_ok
    (collideBody_ok (by omega) h3) [] (by omega)
    (Room.of_lt (by rw [List.append_nil]; omega)).1 ⟨[]⟩ hp (by simp)
  rw [List.append_nil] at hr
  refine ⟨_, _, by rw [← h1]; exact hlen, hr, h1, h2, ?_⟩
  have := forced_same (hash := strHash) [] names (by intro x hx; cases hx) h4 h2
    (by intro x _ hx; cases hx)
  rw [h1, List.length_nil, Nat.zero_mul, Nat.mul_zero, Nat.zero_add] at this
  exact this

/-- C87 is false of the code: the comparisons are not bounded by the length of the file times 300. -/
theorem names_linear_false (env : Env) :
    ¬ ∀ data r, parseWith .onError .always env data = .ok r →
      forced strHash [] r.objects ≤ 300 * data.length := by
  intro h
  obtain ⟨data, r, h1, h2, _, _, h3⟩ := names_quadratic env .onError 25000 (Nat.le_refl _)
  have := h data r h2
  omega

/-- C87, what holds.  The full statement is that different keys of the tables have different hashes.
It does for ids and numbers, so that entering them takes no comparison; it does not for names
(`names_collide`), but a replay has no more than 25000 of them, and entering them takes no more than
312487500 comparisons. -/
theorem hashes_partial (env : Env) (check : CrcCheck) (np : NetworkParse) :
    (∀ x y, i32Hash x = i32Hash y → x = y) ∧
    (∀ x y : BitVec 32, usizeHash x = usizeHash y → x = y) ∧
    ∀ data r, data.length ≤ env.isizeMax → parseWith check np env data = .ok r →
      forced strHash [] r.objects ≤ 312487500 := by
  refine ⟨fun _ _ => id_hashes, fun _ _ => key_hashes, fun data r hs h => ?_⟩
  have h1 : r.objects.length ≤ 25000 := (replay_list_lengths env check np data hs r h).2.2.2.2.2.2.1
  have h2 := forced_le (hash := strHash) [] r.objects
  rw [List.length_nil, Nat.zero_mul, Nat.mul_zero, Nat.zero_add] at h2
  have h3 : r.objects.length * (r.objects.length - 1) ≤ 25000 * 24999 :=
    Nat.mul_le_mul h1 (by omega)
  rw [Nat.mul_sub, Nat.mul_one] at h3
  omega

end Boxcars.Props
