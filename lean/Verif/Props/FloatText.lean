import Verif.Proofs.FloatText
import Verif.Props.Json
import Verif.Props.JsonSize
/-!
# C92: floats are written in full
-/
namespace Boxcars.Props
open Boxcars Spec

variable {fmt : F32 → Str}

/-- A shortest number has digits, at most nine, and no zero at the end. -/
theorem shortest_digits {f : F32} (hf : IsFinite f) (h0 : fval f ≠ 0) {d : Nat} {k : Int}
    (h : Shortest f d k) : d ≠ 0 ∧ digitCount d ≤ 9 ∧ d % 10 ≠ 0 := by
  have hr := decVal_range h0 h.reads
  have hd : d ≠ 0 := by
    rintro rfl
    have := hr.1
    rw [Nat.cast_zero, zero_mul] at this
    exact absurd this (not_lt.2 (by positivity))
  refine ⟨hd, ?_, fun h10 => ?_⟩
  · obtain ⟨d', e', hl, hr'⟩ := nine_digits hf h0
    exact (h.least d' e' hr').trans (digitCount_le (by decide) hl)
  · obtain ⟨j, rfl⟩ : ∃ j, d = j * 10 := ⟨d / 10, by omega⟩
    have e : decVal (fneg f) j (k + 1) = decVal (fneg f) (j * 10) k := by
      unfold decVal
      rw [zpow_add₀ (by norm_num)]
      push_cast
      split <;> ring
    have h1 := h.least j (k + 1) (e ▸ h.reads)
    have h4 := digitCount_pos j
    have h6 : digitCount (j * 10) ≤ digitCount j := h1
    have h8 := pow_digitCount_le (show j ≠ 0 by omega)
    have h9 := lt_pow_digitCount (j * 10)
    have h10 : 10 ^ digitCount (j * 10) ≤ 10 ^ digitCount j := Nat.pow_le_pow_right (by decide) h6
    have h11 : 10 ^ digitCount j = 10 ^ (digitCount j - 1) * 10 := by
      rw [← Nat.pow_succ]; congr 1; omega
    omega

/-- C92. The text of a finite float, read as a decimal number and rounded, is that float. -/
theorem float_read_back (h : RyuText fmt) {f : F32} (hf : IsFinite f) :
    ReadsAs (numberVal (fmt f)) f ∧ ((fmt f).head? = some '-' ↔ fneg f = true) := by
  by_cases h0 : fval f = 0
  · rw [h.zero f hf h0]
    have hv : numberVal (if fneg f then ['-', '0', '.', '0'] else ['0', '.', '0']) = 0 := by
      have : absVal ['0', '.', '0'] = 0 := by
        have := absVal_point (i := ['0']) (f := ['0']) (e := []) (by decide) (by decide) (by simp)
        rw [show ['0'] ++ '.' :: (['0'] ++ []) = ['0', '.', '0'] from rfl] at this
        rw [this, show digitsVal (['0'] ++ ['0']) = 0 from rfl, Nat.cast_zero, zero_mul]
      cases fneg f
      · exact this
      · show -absVal ['0', '.', '0'] = 0
        rw [this, neg_zero]
    rw [hv]
    refine ⟨⟨⟨hf, fun g _ => ?_⟩, by norm_num⟩, ?_⟩
    · rw [h0, sub_zero, sub_zero, abs_zero]
      by_cases hg : fval g = 0
      · exact .inr ⟨by rw [hg, abs_zero], .inl hg.symm⟩
      · exact .inl (abs_pos.2 hg)
    · cases fneg f
      · exact ⟨fun h => (by cases h), fun h => (by cases h)⟩
      · exact ⟨fun _ => rfl, fun _ => rfl⟩
  · obtain ⟨d, k, hs, e⟩ := h.other f hf h0
    rw [e, layout_val]
    refine ⟨hs.reads, ?_⟩
    obtain ⟨c, t, hc, hd⟩ := absLayout_head d k
    rw [floatLayout_eq, hc]
    cases fneg f
    · refine ⟨fun h => ?_, fun h => (by cases h)⟩
      cases h; cases hd
    · exact ⟨fun _ => rfl, fun _ => rfl⟩

/-- C92. Floats are told apart by their texts, which are JSON numbers and no integers. -/
theorem float_text (h : RyuText fmt) : Json.FloatText fmt where
  number f hf := by
    by_cases h0 : fval f = 0
    · rw [h.zero f hf h0]
      have hd : Json.Digits ['0'] := ⟨by decide, fun c hc => by
        rw [List.mem_singleton.1 hc]; exact ⟨by decide, by decide⟩⟩
      cases fneg f
      · exact ⟨[], ['0'], ['.', '0'], [], .inl rfl, .inl rfl, .inr ⟨['0'], hd, rfl⟩, .inl rfl, rfl⟩
      · exact ⟨['-'], ['0'], ['.', '0'], [], .inr rfl, .inl rfl, .inr ⟨['0'], hd, rfl⟩, .inl rfl, rfl⟩
    · obtain ⟨d, k, hs, e⟩ := h.other f hf h0
      rw [e]
      exact layout_number _ (shortest_digits hf h0 hs).1 _
  mark f hf := by
    by_cases h0 : fval f = 0
    · rw [h.zero f hf h0]
      refine ⟨'.', ?_, .inl rfl⟩
      cases fneg f <;> decide
    · obtain ⟨d, k, hs, e⟩ := h.other f hf h0
      rw [e]
      exact layout_mark _ _ _
  inj f g hf hg e := by
    obtain ⟨h1, h2⟩ := float_read_back h hf
    obtain ⟨h3, h4⟩ := float_read_back h hg
    rw [e] at h1 h2
    have hs : fneg f = fneg g := by
      rw [Bool.eq_iff_iff, ← h2, ← h4]
    exact nearest_unique h1.nearest h3.nearest hs

/-- C92. At most 16 bytes are written. -/
theorem float_length (h : RyuText fmt) {f : F32} (hf : IsFinite f) : (utf8 (fmt f)).length ≤ 16 := by
  have ascii : ∀ t : Str, (∀ c ∈ t, c.toNat < 128) → (utf8 t).length = t.length := by
    intro t ht
    induction t with
    | nil => rfl
    | cons c t ih =>
      have h1 := Boxcars.Json.len_cons c t
      rw [Boxcars.Json.len_ascii (ht c (.head _))] at h1
      have h2 := ih fun c hc => ht c (.tail _ hc)
      have e : ∀ t, Boxcars.Json.len t = (utf8 t).length := fun _ => rfl
      rw [e, e, h2] at h1
      rw [h1, List.length_cons, Nat.add_comm]
  by_cases h0 : fval f = 0
  · rw [h.zero f hf h0]
    cases fneg f <;> decide +kernel
  · obtain ⟨d, k, hs, e⟩ := h.other f hf h0
    obtain ⟨hd, h9, _⟩ := shortest_digits hf h0 hs
    rw [e, ascii _ (layout_ascii _ _ _)]
    obtain ⟨hr1, hr2⟩ := decVal_range h0 hs.reads
    have hlo : (10 : ℚ) ^ ((digitCount d : ℤ) + k - 1) ≤ (d : ℚ) * 10 ^ k := by
      have h1 : ((10 ^ (digitCount d - 1) : ℕ) : ℚ) ≤ d := by exact_mod_cast pow_digitCount_le hd
      have h2 := digitCount_pos d
      rw [show (digitCount d : ℤ) + k - 1 = ((digitCount d - 1 : ℕ) : ℤ) + k by omega,
        zpow_add₀ (by norm_num), zpow_natCast]
      push_cast at h1
      exact mul_le_mul_of_nonneg_right h1 (by positivity)
    have hhi : (d : ℚ) * 10 ^ k < 10 ^ ((digitCount d : ℤ) + k) := by
      have h1 : (d : ℚ) < ((10 ^ digitCount d : ℕ) : ℚ) := by exact_mod_cast lt_pow_digitCount d
      rw [zpow_add₀ (by norm_num), zpow_natCast]
      push_cast at h1
      exact mul_lt_mul_of_pos_right h1 (by positivity)
    have hk1 : -46 < (digitCount d : ℤ) + k :=
      (zpow_lt_zpow_iff_right₀ (by norm_num)).1 (hr1.trans hhi)
    have hk2 : (digitCount d : ℤ) + k - 1 < 39 :=
      (zpow_lt_zpow_iff_right₀ (by norm_num)).1 (lt_of_le_of_lt hlo hr2)
    refine layout_length _ h9 (fun h5 => ?_) (by omega) (by omega)
    rw [h5] at hlo hhi
    have one : ∀ e : Int, ReadsAs (decVal (fneg f) 1 e) f → digitCount d ≤ 8 := fun e h =>
      (hs.least 1 e h).trans (by decide)
    by_cases h6 : fabs f < 10 ^ (-6 : ℤ)
    · refine one (-6) (decVal_between hs.reads (.inl ?_))
      rw [Nat.cast_one, one_mul]
      exact ⟨h6.le, hlo⟩
    by_cases h7 : fabs f < 10 ^ (-5 : ℤ)
    · obtain ⟨d', e', hl, hr'⟩ := eight_digits hf (not_lt.1 h6) h7
      exact (hs.least d' e' hr').trans (digitCount_le (by decide) hl)
    · refine one (-5) (decVal_between hs.reads (.inr ?_))
      rw [Nat.cast_one, one_mul]
      exact ⟨hhi.le, not_lt.1 h7⟩

/-- There is such a way of writing. -/
theorem ryu_exists : ∃ fmt, RyuText fmt := by
  classical
  refine ⟨fun f => if h : IsFinite f ∧ fval f ≠ 0 then
    floatLayout (fneg f) (shortest_exists h.1 h.2).choose (shortest_exists h.1 h.2).choose_spec.choose
    else if fneg f then ['-', '0', '.', '0'] else ['0', '.', '0'], ?_, ?_⟩
  · intro f _ h0
    rw [dif_neg (fun h => h.2 h0)]
  · intro f hf h0
    rw [dif_pos ⟨hf, h0⟩]
    exact ⟨_, _, (shortest_exists hf h0).choose_spec.choose_spec, rfl⟩

/-! ## JSON -/

/-- C92 with C72: frames whose floats are finite are told apart by their JSON texts. -/
theorem json_frames_ryu (h : RyuText fmt) (fs gs : List Frame)
    (hf : ∀ x, FloatIn x ((cList cFrame).ser fs) → IsFinite x)
    (hg : ∀ x, FloatIn x ((cList cFrame).ser gs) → IsFinite x) :
    Boxcars.Json.compact fmt ((cList cFrame).ser fs) = Boxcars.Json.compact fmt ((cList cFrame).ser gs) ↔
      fs = gs := json_frames (float_text h) fs gs hf hg

/-- C92 with C84: the JSON text of a replay is linear in its file. -/
theorem json_linear_ryu (h : RyuText fmt) {env : Env} {data : List Byte} {check : CrcCheck}
    {np : NetworkParse} {r : Replay} (hs : data.length ≤ env.isizeMax)
    (hp : parseWith check np env data = .ok r) :
    (utf8 (Boxcars.Json.compact fmt (serReplay r))).length ≤ 7680 * data.length + 700 :=
  json_linear (fun _ => float_length h) hs hp

/-! ## In use -/

/-- The float next to a tenth. -/
theorem tenth_shortest : Shortest 0x3dcccccd 1 (-1) := by
  have hv : fval 0x3dcccccd = 13421773 / 134217728 := by
    unfold fval fabs
    rw [show fneg 0x3dcccccd = false by decide, show fexp 0x3dcccccd = 123 by decide,
      show ffrac 0x3dcccccd = 5033165 by decide]
    norm_num
  refine ⟨readsAs_of_close (by show fexp _ ≠ 255; decide) ?_, fun d' _ _ => digitCount_pos d'⟩
  rw [hv, show fneg 0x3dcccccd = false by decide]
  unfold decVal
  norm_num [abs_of_pos, abs_of_neg]

example : [floatLayout false 1 (-1), floatLayout true 1234 7, floatLayout false 1234 (-2),
    floatLayout false 1234 (-6), floatLayout true 1 30, floatLayout false 34028235 31].map String.ofList =
    ["0.1", "-12340000000.0", "12.34", "0.001234", "-1e30", "3.4028235e38"] := by decide +kernel

example : numberVal ['-', '1', '.', '5', 'e', '-', '3'] = -3 / 2000 := by
  have h := absVal_point (i := ['1']) (f := ['5']) (e := ['e', '-', '3']) (by decide) (by decide)
    (by rintro c ⟨⟩; decide)
  show -absVal (['1'] ++ '.' :: (['5'] ++ ['e', '-', '3'])) = _
  rw [h, show digitsVal (['1'] ++ ['5']) = 15 by decide, show expVal ['e', '-', '3'] = -3 by decide]
  norm_num

end Boxcars.Props
