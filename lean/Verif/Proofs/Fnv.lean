import Verif.Model.Fnv
import Verif.Spec.Collide
import Verif.Proofs.Grammar
import Mathlib.Combinatorics.Pigeonhole
/-!
# Collisions of FNV-1a
-/
namespace Boxcars.Fnv
open Boxcars Spec

/-! ## The start determines the hash, and the hash the start -/

theorem mul_inj {a b : BitVec 64} (h : a * 0x100000001b3#64 = b * 0x100000001b3#64) : a = b := by
  have e : ∀ x : BitVec 64, x * 0x100000001b3#64 * 0xce965057aff6957b#64 = x := by
    intro x
    rw [BitVec.mul_assoc, show 0x100000001b3#64 * 0xce965057aff6957b#64 = 1#64 by decide,
      BitVec.mul_one]
  rw [← e a, ← e b, h]

theorem step_inj {a b : BitVec 64} {c : Byte} (h : step a c = step b c) : a = b := by
  have := mul_inj h
  have e : ∀ x y : BitVec 64, x ^^^ y ^^^ y = x := by
    intro x y
    rw [BitVec.xor_assoc, BitVec.xor_self, BitVec.xor_zero]
  rw [← e a (c.setWidth 64), ← e b (c.setWidth 64), this]

theorem write_inj {a b : BitVec 64} {bs : List Byte} (h : write a bs = write b bs) : a = b := by
  induction bs generalizing a b with
  | nil => exact h
  | cons c bs ih => exact step_inj (ih h)

theorem write_append (a : BitVec 64) (bs cs : List Byte) :
    write a (bs ++ cs) = write (write a bs) cs := List.foldl_append

/-! ## Four bytes -/

theorem xor_low (h : BitVec 64) (b : Byte) :
    (h ^^^ b.setWidth 64).toNat / 256 = h.toNat / 256 := by
  have hb := b.isLt
  rw [BitVec.toNat_xor, BitVec.toNat_setWidth, Nat.mod_eq_of_lt (by omega),
    show (256 : Nat) = 2 ^ 8 from rfl, ← Nat.shiftRight_eq_div_pow, ← Nat.shiftRight_eq_div_pow,
    Nat.shiftRight_xor_distrib, Nat.shiftRight_eq_div_pow b.toNat, Nat.div_eq_of_lt hb, Nat.xor_zero]

theorem mul_eq (a : BitVec 64) :
    ∃ k : Int, ((a * 0x100000001b3#64).toNat : Int) = a.toNat * 0x100000001b3 - 2 ^ 64 * k := by
  refine ⟨((a.toNat * 0x100000001b3) / 2 ^ 64 : Nat), ?_⟩
  rw [BitVec.toNat_mul]
  have : (0x100000001b3#64).toNat = 0x100000001b3 := rfl
  rw [this]
  omega

theorem low_solution {a b c : Int} (hb : -510 ≤ b ∧ b ≤ 510) (hc : -510 ≤ c ∧ c ≤ 510)
    (h : 189225 * a + 435 * b + c = 0) : (a = -1 ∨ a = 0 ∨ a = 1) ∧ (c = -435 ∨ c = 0 ∨ c = 435) := by
  have h1 : -1 ≤ a := by omega
  have h2 : a ≤ 1 := by omega
  obtain ⟨m, rfl⟩ : ∃ m, c = 435 * m := ⟨-435 * a - b, by omega⟩
  exact ⟨by omega, by omega⟩

/-- The equation of a collision has no other solution in small numbers. -/
theorem small_solution {a b c d K : Int} (ha : -255 ≤ a ∧ a ≤ 255) (hb : -510 ≤ b ∧ b ≤ 510)
    (hc : -510 ≤ c ∧ c ≤ 510) (hd : -255 ≤ d ∧ d ≤ 255)
    (h : ((a * 0x100000001b3 + b) * 0x100000001b3 + c) * 0x100000001b3 + d = 2 ^ 64 * K) :
    a = 0 ∧ b = 0 ∧ c = 0 ∧ d = 0 := by
  have h0 : 82312875 * a + 189225 * b + 435 * c + d =
      2 ^ 40 * (2 ^ 24 * K - 1208925821049491849521531 * a - 1099511628646 * b - c) := by omega
  generalize hM : 2 ^ 24 * K - 1208925821049491849521531 * a - 1099511628646 * b - c = M at h0
  clear h
  have h1 : M = 0 := by omega
  subst h1
  have h2 : d = 0 := by omega
  subst h2
  have h3 : 189225 * a + 435 * b + c = 0 := by omega
  clear h0
  obtain ⟨h4, h5⟩ := low_solution hb hc h3
  rcases h4 with rfl | rfl | rfl <;> rcases h5 with rfl | rfl | rfl <;> omega

theorem four_inj {s : BitVec 64} {a b c d a' b' c' d' : Byte}
    (h : write s [a, b, c, d] = write s [a', b', c', d']) :
    write s [a, b, c] = write s [a', b', c'] ∧ write s [a, b] = write s [a', b'] ∧
      write s [a] = write s [a'] := by
  have e0 := xor_low s a
  have e0' := xor_low s a'
  obtain ⟨k1, m1⟩ := mul_eq (s ^^^ a.setWidth 64)
  obtain ⟨k1', m1'⟩ := mul_eq (s ^^^ a'.setWidth 64)
  have e1 := xor_low (step s a) b
  have e1' := xor_low (step s a') b'
  obtain ⟨k2, m2⟩ := mul_eq (step s a ^^^ b.setWidth 64)
  obtain ⟨k2', m2'⟩ := mul_eq (step s a' ^^^ b'.setWidth 64)
  have e2 := xor_low (step (step s a) b) c
  have e2' := xor_low (step (step s a') b') c'
  obtain ⟨k3, m3⟩ := mul_eq (step (step s a) b ^^^ c.setWidth 64)
  obtain ⟨k3', m3'⟩ := mul_eq (step (step s a') b' ^^^ c'.setWidth 64)
  have e3 := xor_low (step (step (step s a) b) c) d
  have e3' := xor_low (step (step (step s a') b') c') d'
  have h : step (step (step (step s a) b) c) d = step (step (step (step s a') b') c') d' := h
  have hx := mul_inj h
  have l1 := (step s a).isLt
  have l1' := (step s a').isLt
  have l2 := (step (step s a) b).isLt
  have l2' := (step (step s a') b').isLt
  have l3 := (step (step (step s a) b) c).isLt
  have l3' := (step (step (step s a') b') c').isLt
  rw [hx] at e3
  change ((step s a).toNat : Int) = _ at m1
  change ((step s a').toNat : Int) = _ at m1'
  change ((step (step s a) b).toNat : Int) = _ at m2
  change ((step (step s a') b').toNat : Int) = _ at m2'
  change ((step (step (step s a) b) c).toNat : Int) = _ at m3
  change ((step (step (step s a') b') c').toNat : Int) = _ at m3'
  show step (step (step s a) b) c = step (step (step s a') b') c' ∧
    step (step s a) b = step (step s a') b' ∧ step s a = step s a'
  generalize (s ^^^ a.setWidth 64).toNat = x0 at *
  generalize (s ^^^ a'.setWidth 64).toNat = x0' at *
  generalize (step s a ^^^ b.setWidth 64).toNat = x1 at *
  generalize (step s a' ^^^ b'.setWidth 64).toNat = x1' at *
  generalize (step (step s a) b ^^^ c.setWidth 64).toNat = x2 at *
  generalize (step (step s a') b' ^^^ c'.setWidth 64).toNat = x2' at *
  rw [← BitVec.toNat_inj, ← BitVec.toNat_inj, ← BitVec.toNat_inj]
  generalize (step (step (step s a) b) c).toNat = y3 at *
  generalize (step (step (step s a') b') c').toNat = y3' at *
  generalize (step (step s a) b).toNat = y2 at *
  generalize (step (step s a') b').toNat = y2' at *
  generalize (step s a).toNat = y1 at *
  generalize (step s a').toNat = y1' at *
  have key := small_solution (a := x0 - x0') (b := (x1 - y1) - (x1' - y1'))
    (c := (x2 - y2) - (x2' - y2')) (d := y3' - y3)
    (K := 0x100000001b3 ^ 2 * (k1 - k1') + 0x100000001b3 * (k2 - k2') + (k3 - k3'))
    (by omega) (by omega) (by omega) (by omega) (by omega)
  obtain ⟨r0, r1, r2, r3⟩ := key
  have q1 : y1 = y1' := by omega
  have q2 : y2 = y2' := by omega
  exact ⟨by omega, q2, q1⟩

theorem byte_inj {s : BitVec 64} {a b : Byte} (h : step s a = step s b) : a = b := by
  have h1 := mul_inj h
  have h2 : s ^^^ (s ^^^ a.setWidth 64) = s ^^^ (s ^^^ b.setWidth 64) := by rw [h1]
  rw [← BitVec.xor_assoc, ← BitVec.xor_assoc, BitVec.xor_self, BitVec.zero_xor, BitVec.zero_xor] at h2
  have h3 := congrArg BitVec.toNat h2
  have ha := a.isLt
  have hb := b.isLt
  rw [BitVec.toNat_setWidth, BitVec.toNat_setWidth, Nat.mod_eq_of_lt (by omega),
    Nat.mod_eq_of_lt (by omega)] at h3
  exact BitVec.eq_of_toNat_eq h3

/-- Four bytes after the same start are told apart. -/
theorem four_bytes_inj {s : BitVec 64} {bs cs : List Byte} (hb : bs.length = 4) (hc : cs.length = 4)
    (h : write s bs = write s cs) : bs = cs := by
  obtain ⟨b0, b1, b2, b3, rfl⟩ : ∃ b0 b1 b2 b3, bs = [b0, b1, b2, b3] := by
    match bs, hb with
    | [b0, b1, b2, b3], _ => exact ⟨b0, b1, b2, b3, rfl⟩
  obtain ⟨c0, c1, c2, c3, rfl⟩ : ∃ c0 c1 c2 c3, cs = [c0, c1, c2, c3] := by
    match cs, hc with
    | [b0, b1, b2, b3], _ => exact ⟨b0, b1, b2, b3, rfl⟩
  obtain ⟨h3, h2, h1⟩ := four_inj h
  have h : step (write s [b0, b1, b2]) b3 = step (write s [c0, c1, c2]) c3 := h
  rw [h3] at h
  have h3 : step (write s [b0, b1]) b2 = step (write s [c0, c1]) c2 := h3
  rw [h2] at h3
  have h2 : step (write s [b0]) b1 = step (write s [c0]) c1 := h2
  rw [h1] at h2
  rw [byte_inj (show step s b0 = step s c0 from h1), byte_inj h2, byte_inj h3, byte_inj h]

theorem le_add (j k n : Nat) : le (j + k) n = le j n ++ le k (n / 256 ^ j) := by
  induction j generalizing n with
  | zero => rw [Nat.zero_add, le, Nat.pow_zero, Nat.div_one]; rfl
  | succ j ih =>
    rw [show j + 1 + k = (j + k) + 1 by omega, le, le, ih, Nat.div_div_eq_div_mul, Nat.pow_succ',
      List.cons_append]

/-! ## Many texts with one hash -/

/-- Texts of a number of letters, by their number. -/
def nameOf : Nat → Nat → Str
  | 0, _ => []
  | l + 1, k => Char.ofNat (48 + k % 64) :: nameOf l (k / 64)

theorem letter_toNat (k : Nat) : (Char.ofNat (48 + k % 64)).toNat = 48 + k % 64 := by
  have h : (48 + k % 64).isValidChar := .inl (by omega)
  rw [Char.ofNat, dif_pos h]
  rfl

theorem nameOf_length (l k : Nat) : (nameOf l k).length = l := by
  induction l generalizing k with
  | zero => rfl
  | succ l ih => rw [nameOf, List.length_cons, ih]

theorem nameOf_chars {l k : Nat} {c : Char} (h : c ∈ nameOf l k) : 48 ≤ c.toNat ∧ c.toNat < 112 := by
  induction l generalizing k with
  | zero => cases h
  | succ l ih =>
    rw [nameOf] at h
    rcases List.mem_cons.1 h with rfl | h
    · rw [letter_toNat]; omega
    · exact ih h

theorem nameOf_inj {l j k : Nat} (hj : j < 64 ^ l) (hk : k < 64 ^ l) (h : nameOf l j = nameOf l k) :
    j = k := by
  induction l generalizing j k with
  | zero => omega
  | succ l ih =>
    rw [nameOf, nameOf, List.cons.injEq] at h
    have h1 := congrArg Char.toNat h.1
    rw [letter_toNat, letter_toNat] at h1
    rw [Nat.pow_succ] at hj hk
    have := ih (by omega) (by omega) h.2
    omega

/-- By counting, some hash is shared by many texts of fourteen letters. -/
theorem many_collide (n : Nat) (hn : n ≤ 25000) :
    ∃ names : List Str, names.length = n ∧ names.Nodup ∧
      (∀ x ∈ names, x.length = 14 ∧ ∀ c ∈ x, 48 ≤ c.toNat ∧ c.toNat < 112) ∧
      ∃ h, ∀ x ∈ names, strHash x = h := by
  obtain ⟨y, _, hy⟩ := Finset.exists_lt_card_fiber_of_mul_lt_card_of_maps_to
    (s := Finset.range (64 ^ 14)) (t := Finset.range (2 ^ 64)) (n := 25000)
    (f := fun k => (strHash (nameOf 14 k)).toNat)
    (fun k _ => Finset.mem_range.2 (BitVec.isLt _))
    (by rw [Finset.card_range, Finset.card_range]; omega)
  generalize hF : (Finset.range (64 ^ 14)).filter
    (fun k => (strHash (nameOf 14 k)).toNat = y) = F at hy
  have hm : ∀ k ∈ F.toList.take n, k < 64 ^ 14 ∧ (strHash (nameOf 14 k)).toNat = y := by
    intro k hk
    have := Finset.mem_toList.1 (List.mem_of_mem_take hk)
    rw [← hF, Finset.mem_filter, Finset.mem_range] at this
    exact this
  refine ⟨(F.toList.take n).map (nameOf 14), ?_, ?_, ?_, BitVec.ofNat 64 y, ?_⟩
  · rw [List.length_map, List.length_take, Finset.length_toList]
    omega
  · refine List.Nodup.map_on (fun j hj k hk e => ?_) ((List.take_sublist _ _).nodup F.nodup_toList)
    exact nameOf_inj (hm j hj).1 (hm k hk).1 e
  · intro x hx
    obtain ⟨k, _, rfl⟩ := List.mem_map.1 hx
    exact ⟨nameOf_length 14 k, fun c hc => nameOf_chars hc⟩
  · intro x hx
    obtain ⟨k, hk, rfl⟩ := List.mem_map.1 hx
    rw [← (hm k hk).2, BitVec.ofNat_toNat, BitVec.setWidth_eq]

/-! ## Comparisons -/

variable {α : Type} [DecidableEq α] {hash : α → BitVec 64}

theorem forced_le (held ks : List α) :
    2 * forced hash held ks + ks.length ≤ 2 * (held.length * ks.length) + ks.length * ks.length := by
  induction ks generalizing held with
  | nil => exact Nat.le_refl _
  | cons k ks ih =>
    rw [forced]
    simp only [List.length_cons, Nat.mul_add, Nat.add_mul, Nat.mul_one, Nat.one_mul]
    split
    · have := ih held
      omega
    · have h1 := ih (k :: held)
      have h2 := List.length_filter_le (fun x => decide (hash x = hash k)) held
      rw [List.length_cons, Nat.add_mul, Nat.one_mul] at h1
      omega

theorem forced_same {h : BitVec 64} (held ks : List α) (hh : ∀ x ∈ held, hash x = h)
    (hk : ∀ x ∈ ks, hash x = h) (hd : ks.Nodup) (hn : ∀ x ∈ ks, x ∉ held) :
    2 * forced hash held ks + ks.length = 2 * (held.length * ks.length) + ks.length * ks.length := by
  induction ks generalizing held with
  | nil => rfl
  | cons k ks ih =>
    rw [List.nodup_cons] at hd
    have hkk := hk k List.mem_cons_self
    rw [forced, if_neg (hn k List.mem_cons_self), List.length_cons]
    simp only [Nat.mul_add, Nat.add_mul, Nat.mul_one, Nat.one_mul]
    have h1 := ih (k :: held) (by
        intro x hx
        rcases List.mem_cons.1 hx with rfl | hx
        · exact hkk
        · exact hh x hx)
      (fun x hx => hk x (List.mem_cons_of_mem k hx)) hd.2 (by
        intro x hx hm
        rcases List.mem_cons.1 hm with rfl | hm
        · exact hd.1 hx
        · exact hn x (List.mem_cons_of_mem k hx) hm)
    have h2 : held.filter (fun x => decide (hash x = hash k)) = held :=
      List.filter_eq_self.2 fun x hx => by rw [decide_eq_true_eq, hh x hx, hkk]
    rw [List.length_cons, Nat.add_mul, Nat.one_mul] at h1
    rw [h2]
    omega

theorem forced_different (held ks : List α) (hi : ∀ x y, hash x = hash y → x = y) :
    forced hash held ks = 0 := by
  induction ks generalizing held with
  | nil => rfl
  | cons k ks ih =>
    rw [forced]
    split
    · exact ih _
    · rename_i hk
      rw [ih, Nat.add_zero, List.length_eq_zero_iff, List.filter_eq_nil_iff]
      intro x hx e
      rw [decide_eq_true_eq] at e
      exact hk (hi _ _ e ▸ hx)

end Boxcars.Fnv
