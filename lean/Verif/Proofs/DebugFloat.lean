import Verif.Model.DebugFloat
import Verif.Proofs.DebugSize
import Verif.Props.FloatText
/-!
# The text of floats in messages: what is assumed of it holds
-/
namespace Boxcars.Debug
open Boxcars Spec Json

theorem layout_head (point : Bool) (lo hi : Int) (d : Nat) (k : Int) :
    ∃ c t, layout point lo hi d k = c :: t ∧ isDigit c = true := by
  obtain ⟨c, t, hc, e⟩ := decimal_head (decimal_display d)
  have hd := display_digits d
  rw [e] at hd
  have hc := hd _ (.head _)
  unfold layout
  simp only [e]
  generalize digitOf c = c at *
  split
  · split
    · exact ⟨_, _, rfl, hc⟩
    split
    · rename_i h
      obtain ⟨n, hn⟩ : ∃ n, ((List.length (c :: t) : Int) + k).toNat = n + 1 :=
        Nat.exists_eq_succ_of_ne_zero (by omega)
      rw [hn]
      exact ⟨_, _, rfl, hc⟩
    · exact ⟨_, _, rfl, by decide⟩
  split
  · exact ⟨_, _, rfl, hc⟩
  · exact ⟨_, _, rfl, hc⟩

theorem layout_abs (lo hi : Int) (d : Nat) (k : Int) :
    absVal (layout true lo hi d k) = (d : ℚ) * 10 ^ k := by
  have hd := display_digits d
  have hv := display_val d
  have hl : 0 < (displayNat d).length := digitCount_pos d
  have ht : ∀ n, ∀ c ∈ (displayNat d).take n, isDigit c = true := fun n c hc => hd c (List.mem_of_mem_take hc)
  have hr : ∀ n, ∀ c ∈ (displayNat d).drop n, isDigit c = true := fun n c hc => hd c (List.mem_of_mem_drop hc)
  have hn : ∀ c, ([] : Str).head? = some c → isDigit c = false := fun c h => by cases h
  have he : ∀ r c, ('e' :: r : Str).head? = some c → isDigit c = false := fun r c h => by cases h; decide
  unfold layout
  simp only
  split
  · split
    · rename_i h
      have := absVal_point (e := []) (digits_append hd (zeros_digits k.toNat))
        (show ∀ c ∈ ['0'], isDigit c = true by decide) hn
      rw [List.append_nil] at this
      rw [if_pos trivial, this, digitsVal_append, digitsVal_append, hv, digitsVal_zeros,
        List.length_replicate]
      obtain ⟨n, rfl⟩ := Int.eq_ofNat_of_zero_le h
      show ((((d * 10 ^ n + 0) * 10 ^ 1 + 0 : ℕ)) : ℚ) * 10 ^ (0 - (1 : ℤ)) = (d : ℚ) * 10 ^ ((n : ℕ) : ℤ)
      rw [zpow_natCast]
      push_cast
      norm_num
      ring
    split
    · have := absVal_point (e := []) (ht ((displayNat d).length + k).toNat)
        (hr ((displayNat d).length + k).toNat) hn
      rw [List.append_nil] at this
      rw [this, List.take_append_drop, hv, List.length_drop]
      show (d : ℚ) * 10 ^ (0 - (((displayNat d).length - ((displayNat d).length + k).toNat : ℕ) : ℤ)) = _
      congr 2
      omega
    · have := absVal_point (e := []) (show ∀ c ∈ ['0'], isDigit c = true by decide)
        (digits_append (zeros_digits (-((displayNat d).length + k)).toNat) hd) hn
      rw [List.append_nil] at this
      rw [show ['0', '.'] ++ List.replicate (-((displayNat d).length + k)).toNat '0' ++ displayNat d =
        ['0'] ++ '.' :: (List.replicate (-((displayNat d).length + k)).toNat '0' ++ displayNat d) from rfl,
        this, digitsVal_append, digitsVal_append, hv, digitsVal_zeros, List.length_append,
        List.length_replicate]
      rw [show digitsVal ['0'] = 0 from rfl, Nat.zero_mul, Nat.zero_add, Nat.zero_mul, Nat.zero_add]
      show (d : ℚ) * 10 ^ (0 - (((-((displayNat d).length + k)).toNat + (displayNat d).length : ℕ) : ℤ)) = _
      congr 2
      omega
  split
  · rw [absVal_exp hd, hv, expVal_display]
    congr 2
    omega
  · have := absVal_point (e := 'e' :: displayInt ((displayNat d).length + k - 1)) (ht 1) (hr 1) (he _)
    rw [List.append_assoc, List.cons_append, this, List.take_append_drop, hv, expVal_display,
      List.length_drop]
    congr 2
    omega

theorem sign_val (f : F32) (lo hi : Int) (d : Nat) (k : Int) :
    numberVal (sign f ++ layout true lo hi d k) = decVal (fneg f) d k := by
  unfold decVal sign
  obtain ⟨c, t, h, hc⟩ := layout_head true lo hi d k
  cases fneg f
  · rw [← layout_abs lo hi, if_neg (by decide), if_neg (by decide), List.nil_append, h]
    unfold numberVal
    split
    · rename_i e; cases e; cases hc
    · rfl
  · rw [← layout_abs lo hi]
    rfl

theorem digit_atomChar {c : Char} (h : isDigit c = true) : AtomChar c := by
  have h := (digit_iff c).1 h
  refine .inl ?_
  have h1 : c.isDigit = true := by
    simp only [Char.isDigit, Bool.and_eq_true, decide_eq_true_eq, UInt32.le_iff_toNat_le,
      show '0'.val.toNat = 48 from rfl, show '9'.val.toNat = 57 from rfl]
    exact h
  rw [Char.isAlphanum, h1, Bool.or_true]

theorem layout_chars (point : Bool) (lo hi : Int) (d : Nat) (k : Int) :
    ∀ c ∈ layout point lo hi d k, AtomChar c := by
  have hd := displayNat_atom d
  have hi' := displayInt_atom
  have hz : ∀ n, ∀ c ∈ List.replicate n '0', AtomChar c := fun n c hc => by
    rw [(List.mem_replicate.1 hc).2]; decide
  have ht : ∀ n, ∀ c ∈ (displayNat d).take n, AtomChar c := fun n c hc => hd c (List.mem_of_mem_take hc)
  have hr : ∀ n, ∀ c ∈ (displayNat d).drop n, AtomChar c := fun n c hc => hd c (List.mem_of_mem_drop hc)
  have hc : ∀ (x : Char) (t : Str), AtomChar x → (∀ c ∈ t, AtomChar c) → ∀ c ∈ x :: t, AtomChar c := by
    intro x t hx ht c hc
    rcases List.mem_cons.1 hc with rfl | hc
    · exact hx
    · exact ht c hc
  unfold layout
  simp only
  split
  · split
    · exact all_append (all_append hd (hz _)) (by cases point <;> decide)
    split
    · exact all_append (ht _) (hc _ _ (by decide) (hr _))
    · exact all_append (all_append (by decide) (hz _)) hd
  split
  · exact all_append hd (hc _ _ (by decide) (hi' _))
  · exact all_append (all_append (ht _) (hc _ _ (by decide) (hr _))) (hc _ _ (by decide) (hi' _))

theorem layout_short (point : Bool) (lo hi : Int) {d : Nat} {k : Int} (h9 : digitCount d ≤ 9)
    (h1 : -46 < (digitCount d : Int) + k) (h2 : (digitCount d : Int) + k < 40) :
    (layout point lo hi d k).length ≤ 60 := by
  have hl : 0 < digitCount d := digitCount_pos d
  have e : digitCount d = (displayNat d).length := rfl
  rw [e] at h9 h1 h2 hl
  have hx := displayInt_length (z := (displayNat d).length + k - 1) (by omega) (by omega)
  have hp : (if point then ['.', '0'] else [] : Str).length ≤ 2 := by cases point <;> decide
  unfold layout
  simp only
  split
  · split
    · simp only [List.length_append, List.length_replicate]; omega
    split
    · simp only [List.length_append, List.length_take, List.length_drop, List.length_cons]; omega
    · simp only [List.length_append, List.length_replicate, List.length_cons, List.length_nil]; omega
  split
  · simp only [List.length_append, List.length_cons]; omega
  · simp only [List.length_append, List.length_take, List.length_drop, List.length_cons]; omega

theorem shortest_range {f : F32} (hf : IsFinite f) (h0 : fval f ≠ 0) {d : Nat} {k : Int}
    (hs : Shortest f d k) : -46 < (digitCount d : Int) + k ∧ (digitCount d : Int) + k < 40 := by
  obtain ⟨hd, _, _⟩ := Props.shortest_digits hf h0 hs
  obtain ⟨hr1, hr2⟩ := decVal_range h0 hs.reads
  have hlo : (10 : ℚ) ^ ((digitCount d : ℤ) + k - 1) ≤ (d : ℚ) * 10 ^ k := by
    have h1 : ((10 ^ (digitCount d - 1) : ℕ) : ℚ) ≤ d := by exact_mod_cast pow_digitCount_le hd
    have h2 := digitCount_pos d
    rw [show (digitCount d : ℤ) + k - 1 = ((digitCount d - 1 : ℕ) : ℤ) + k by omega,
      zpow_add₀ (by norm_num), zpow_natCast]
    push_cast at h1
    exact mul_le_mul_of_nonneg_right h1 (by positivity)
  have hhi : (d : ℚ) * 10 ^ k < 10 ^ ((digitCount d : ℤ) + k) := by
    have h1 : (d : ℚ) < ((10 ^ digitCount d : ℕ) : ℚ) := by exact_mod_cast lt_pow_digitCount d
    rw [zpow_add₀ (by norm_num), zpow_natCast]
    push_cast at h1
    exact mul_lt_mul_of_pos_right h1 (by positivity)
  have hk1 : -46 < (digitCount d : ℤ) + k :=
    (zpow_lt_zpow_iff_right₀ (by norm_num)).1 (hr1.trans hhi)
  have hk2 : (digitCount d : ℤ) + k - 1 < 39 :=
    (zpow_lt_zpow_iff_right₀ (by norm_num)).1 (lt_of_le_of_lt hlo hr2)
  omega

theorem sign_chars (f : F32) : ∀ c ∈ sign f, AtomChar c := by
  unfold sign; cases fneg f <;> decide

theorem sign_short (f : F32) : (sign f).length ≤ 1 := by
  unfold sign; cases fneg f <;> decide

/-- The text after the sign. -/
theorem debug_shape {s : Std} (h : StdText s) (f : F32) : ∃ t, s.debug f = (if IsNaN f then [] else sign f) ++ t ∧
    t ≠ [] ∧ (∀ c ∈ t, AtomChar c) ∧ t.length ≤ 60 ∧
    (IsNaN f → t.head? = some 'N') ∧ (¬IsNaN f → ¬IsFinite f → t.head? = some 'i') ∧
    (IsFinite f → ∃ c, t.head? = some c ∧ isDigit c = true) := by
  have nan : IsNaN f → IsFinite f → False := fun h1 h2 => h2 h1.1
  by_cases hn : IsNaN f
  · exact ⟨_, by rw [if_pos hn]; exact (h.nan f hn).1, by decide, by decide, by decide, fun _ => rfl,
      fun h => absurd hn h, fun h => (nan hn h).elim⟩
  rw [if_neg hn]
  by_cases hf : IsFinite f
  · by_cases h0 : fval f = 0
    · exact ⟨_, (h.zero f hf h0).1, by decide, by decide, by decide, fun h => absurd h hn,
        fun _ h => absurd hf h, fun _ => ⟨_, rfl, by decide⟩⟩
    · obtain ⟨d, k, hs, e, _⟩ := h.other f hf h0
      obtain ⟨c, t, hc, hd⟩ := layout_head true (-3) 16 d k
      obtain ⟨_, h9, _⟩ := Props.shortest_digits hf h0 hs
      obtain ⟨h1, h2⟩ := shortest_range hf h0 hs
      exact ⟨_, e, by rw [hc]; exact List.cons_ne_nil _ _, layout_chars _ _ _ _ _,
        layout_short _ _ _ h9 h1 h2, fun h => absurd h hn, fun _ h => absurd hf h,
        fun _ => ⟨c, by rw [hc]; rfl, hd⟩⟩
  · exact ⟨_, (h.inf f hn hf).1, by decide, by decide, by decide, fun h => absurd h hn,
      fun _ _ => rfl, fun h => absurd h hf⟩

theorem debug_read {s : Std} (h : StdText s) {f : F32} (hf : IsFinite f) :
    ReadsAs (numberVal (s.debug f)) f := by
  by_cases h0 : fval f = 0
  · rw [(h.zero f hf h0).1]
    have hv : numberVal (sign f ++ ['0', '.', '0']) = 0 := by
      have : absVal ['0', '.', '0'] = 0 := by
        have := absVal_point (i := ['0']) (f := ['0']) (e := []) (by decide) (by decide) (by simp)
        rw [show ['0'] ++ '.' :: (['0'] ++ []) = ['0', '.', '0'] from rfl] at this
        rw [this, show digitsVal (['0'] ++ ['0']) = 0 from rfl, Nat.cast_zero, zero_mul]
      unfold sign
      cases fneg f
      · exact this
      · show -absVal ['0', '.', '0'] = 0
        rw [this, neg_zero]
    rw [hv]
    refine ⟨⟨hf, fun g _ => ?_⟩, by norm_num⟩
    rw [h0, sub_zero, sub_zero, abs_zero]
    by_cases hg : fval g = 0
    · exact .inr ⟨by rw [hg, abs_zero], .inl hg.symm⟩
    · exact .inl (abs_pos.2 hg)
  · obtain ⟨d, k, hs, e, _⟩ := h.other f hf h0
    rw [e, sign_val]
    exact hs.reads

theorem inf_eq {f g : F32} (h1 : ¬IsNaN f) (h2 : ¬IsFinite f) (h3 : ¬IsNaN g) (h4 : ¬IsFinite g)
    (h : fneg f = fneg g) : f = g := by
  have key : ∀ f : F32, ¬IsNaN f → ¬IsFinite f → f = if fneg f then 0xff800000 else 0x7f800000 := by
    intro f h1 h2
    have e : fexp f = 255 := Classical.byContradiction h2
    have r : ffrac f = 0 := Classical.byContradiction fun hr => h1 ⟨e, hr⟩
    have := f.isLt
    unfold fexp at e
    unfold ffrac at r
    unfold fneg
    apply BitVec.eq_of_toNat_eq
    by_cases hs : 2 ^ 31 ≤ f.toNat
    · rw [decide_eq_true hs, if_pos rfl]
      show f.toNat = 0xff800000
      omega
    · rw [decide_eq_false hs, if_neg (by decide)]
      show f.toNat = 0x7f800000
      omega
  rw [key f h1 h2, key g h3 h4, h]

theorem sign_cancel {f g : F32} {c d : Char} {t u : Str} (hc : c ≠ '-') (hd : d ≠ '-')
    (h : sign f ++ c :: t = sign g ++ d :: u) : fneg f = fneg g ∧ c = d ∧ t = u := by
  unfold sign at h
  cases hf : fneg f <;> cases hg : fneg g <;> rw [hf, hg] at h <;> simp at h
  · exact ⟨rfl, h⟩
  · exact absurd h.1 hc
  · exact absurd h.1.symm hd
  · exact ⟨rfl, h⟩

/-- What is assumed of the text of floats follows from how the standard library is documented to
write them. -/
theorem floatDebug {s : Std} (h : StdText s) : FloatDebug 64 s.debug where
  same x y := by
    constructor
    · intro e
      obtain ⟨t, ht, ht0, _, _, tn, ti, tf⟩ := debug_shape h x
      obtain ⟨u, hu, hu0, _, _, un, ui, uf⟩ := debug_shape h y
      have e0 := e
      rw [ht, hu] at e
      obtain ⟨c, t', rfl⟩ := List.exists_cons_of_ne_nil ht0
      obtain ⟨d, u', rfl⟩ := List.exists_cons_of_ne_nil hu0
      have hcN : ∀ {f : F32} {c : Char} {t : Str}, (IsNaN f → (c :: t).head? = some 'N') →
          (¬IsNaN f → ¬IsFinite f → (c :: t).head? = some 'i') →
          (IsFinite f → ∃ c', (c :: t).head? = some c' ∧ isDigit c' = true) → c ≠ '-' ∧
          (c = 'N' ↔ IsNaN f) ∧ (isDigit c = true ↔ IsFinite f) := by
        intro f c t h1 h2 h3
        have nf : IsNaN f → ¬IsFinite f := fun h1 h2 => h2 h1.1
        by_cases hn : IsNaN f
        · have : c = 'N' := Option.some.inj (h1 hn)
          subst this
          exact ⟨by decide, iff_of_true rfl hn, iff_of_false (by decide) (nf hn)⟩
        by_cases hf : IsFinite f
        · obtain ⟨c', e, hc⟩ := h3 hf
          have : c = c' := Option.some.inj e
          subst this
          refine ⟨?_, iff_of_false ?_ hn, iff_of_true hc hf⟩ <;> rintro rfl <;> cases hc
        · have : c = 'i' := Option.some.inj (h2 hn hf)
          subst this
          exact ⟨by decide, iff_of_false (by decide) hn, iff_of_false (by decide) hf⟩
      obtain ⟨c1, c2, c3⟩ := hcN tn ti tf
      obtain ⟨d1, d2, d3⟩ := hcN un ui uf
      by_cases hx : IsNaN x
      · by_cases hy : IsNaN y
        · exact .inr ⟨hx, hy⟩
        · rw [if_pos hx, if_neg hy, c2.2 hx, List.nil_append] at e
          unfold sign at e
          cases hg : fneg y <;> rw [hg] at e <;> simp at e
          exact absurd (d2.1 e.1.symm) hy
      · by_cases hy : IsNaN y
        · rw [if_neg hx, if_pos hy, d2.2 hy, List.nil_append] at e
          unfold sign at e
          cases hg : fneg x <;> rw [hg] at e <;> simp at e
          exact absurd (c2.1 e.1) hx
        · rw [if_neg hx, if_neg hy] at e
          obtain ⟨e1, e2, _⟩ := sign_cancel c1 d1 e
          left
          by_cases fx : IsFinite x
          · have fy : IsFinite y := d3.1 (e2 ▸ c3.2 fx)
            have h1 := debug_read h fx
            have h2 := debug_read h fy
            rw [e0] at h1
            exact nearest_unique h1.nearest h2.nearest e1
          · have fy : ¬IsFinite y := fun fy => fx (c3.1 (e2 ▸ d3.2 fy))
            exact inf_eq hx fx hy fy e1
    · rintro (rfl | ⟨hx, hy⟩)
      · rfl
      · rw [(h.nan x hx).1, (h.nan y hy).1]
  chars x := by
    obtain ⟨t, ht, ht0, hc, _⟩ := debug_shape h x
    rw [ht]
    refine ⟨fun e => ht0 (List.append_eq_nil_iff.1 e).2, all_append ?_ hc⟩
    split
    · intro c hc; cases hc
    · exact sign_chars x
  short x := by
    obtain ⟨t, ht, _, _, hl, _⟩ := debug_shape h x
    have := sign_short x
    rw [ht, List.length_append]
    split
    · simp only [List.length_nil]; omega
    · omega

theorem display_chars {s : Std} (h : StdText s) (f : F32) :
    (∀ c ∈ s.display f, AtomChar c) ∧ (s.display f).length ≤ 64 := by
  have := sign_short f
  by_cases hn : IsNaN f
  · rw [(h.nan f hn).2]; exact ⟨by decide, by decide⟩
  by_cases hf : IsFinite f
  · by_cases h0 : fval f = 0
    · rw [(h.zero f hf h0).2]
      refine ⟨all_append (sign_chars f) (by decide), ?_⟩
      rw [List.length_append]
      simp only [List.length_cons, List.length_nil]; omega
    · obtain ⟨d, k, hs, _, e⟩ := h.other f hf h0
      obtain ⟨_, h9, _⟩ := Props.shortest_digits hf h0 hs
      obtain ⟨h1, h2⟩ := shortest_range hf h0 hs
      have := layout_short false (-100) 100 h9 h1 h2
      rw [e]
      refine ⟨all_append (sign_chars f) (layout_chars _ _ _ _ _), ?_⟩
      rw [List.length_append]
      omega
  · rw [(h.inf f hn hf).2]
    refine ⟨all_append (sign_chars f) (by decide), ?_⟩
    rw [List.length_append]
    simp only [List.length_cons, List.length_nil]; omega

end Boxcars.Debug
