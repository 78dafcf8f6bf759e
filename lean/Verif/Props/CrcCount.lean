import Verif.Props.CrcErrors
import Verif.Props.CrcForge
import Mathlib.Data.Fintype.BigOperators
import Mathlib.SetTheory.Cardinal.Finite
/-!
# C99: how many changes the checksum misses
-/
namespace Boxcars.Props
open Boxcars Spec

theorem byte_card : Nat.card (BitVec 8) = 256 := by
  have e : BitVec 8 ≃ Fin (2 ^ 8) :=
    ⟨BitVec.toFin, BitVec.ofFin, fun _ => rfl, fun _ => rfl⟩
  rw [Nat.card_congr e, Nat.card_eq_fintype_card, Fintype.card_fin]
  rfl

/-- There are `256^n` messages of `n` bytes. -/
theorem bytes_card (n : Nat) : Nat.card {d : Bytes // d.length = n} = 256 ^ n := by
  have hf : Finite (BitVec 8) := Nat.finite_of_card_ne_zero (by rw [byte_card]; decide)
  have : Fintype (BitVec 8) := Fintype.ofFinite _
  have h : Nat.card (List.Vector (BitVec 8) n) = 256 ^ n := by
    rw [Nat.card_eq_fintype_card, card_vector, ← Nat.card_eq_fintype_card, byte_card]
  exact h

/-- C99. Of the messages of `n + 4` bytes, `256^n` have a given checksum, one in `2^32`. -/
theorem crc_count (n : Nat) (c : BitVec 32) :
    Nat.card {d : Bytes // d.length = n + 4 ∧ Boxcars.Crc.calcCrc d = c} = 256 ^ n := by
  rw [← bytes_card n]
  refine Nat.card_congr (Equiv.ofBijective (fun d => ⟨d.1.take n, by
    rw [List.length_take, d.2.1]; omega⟩) ⟨?_, ?_⟩)
  · rintro ⟨d, h1, h2⟩ ⟨d', h1', h2'⟩ h
    have e : d.take n = d'.take n := congrArg Subtype.val h
    obtain ⟨w, _, hu⟩ := crc_patch (d.take n) [] c
    have k1 := hu (d.drop n) (by rw [List.length_drop]; omega)
      (by rw [List.append_nil, List.take_append_drop]; exact h2)
    have k2 := hu (d'.drop n) (by rw [List.length_drop]; omega)
      (by rw [List.append_nil, e, List.take_append_drop]; exact h2')
    apply Subtype.ext
    show d = d'
    rw [← List.take_append_drop n d, ← List.take_append_drop n d', e, k1, k2]
  · rintro ⟨p, hp⟩
    obtain ⟨w, ⟨hw, hc⟩, _⟩ := crc_patch p [] c
    rw [List.append_nil] at hc
    refine ⟨⟨p ++ w, by rw [List.length_append, hp, hw], hc⟩, Subtype.ext ?_⟩
    exact List.take_left' hp

/-- C99. Messages of up to four bytes have different checksums. -/
theorem crc_short {a b : Bytes} (hl : a.length = b.length) (h4 : a.length ≤ 4)
    (h : Boxcars.Crc.calcCrc a = Boxcars.Crc.calcCrc b) : a = b := by
  obtain ⟨w, _, hu⟩ := crc_patch [] [] (Boxcars.Crc.calcCrc (a ++ List.replicate (4 - a.length) 0))
  have k1 := hu (a ++ List.replicate (4 - a.length) 0)
    (by rw [List.length_append, List.length_replicate]; omega)
    (by rw [List.nil_append, List.append_nil])
  have k2 := hu (b ++ List.replicate (4 - a.length) 0)
    (by rw [List.length_append, List.length_replicate]; omega)
    (by rw [List.nil_append, List.append_nil]; exact ((crc_append _ _ _).2 h).symm)
  exact List.append_cancel_right (k1.trans k2.symm)

/-- C99. How many messages of the same length have the checksum of a message. -/
theorem crc_collisions (a : Bytes) :
    Nat.card {d : Bytes // d.length = a.length ∧
      Boxcars.Crc.calcCrc d = Boxcars.Crc.calcCrc a} = 256 ^ (a.length - 4) := by
  by_cases h : 4 ≤ a.length
  · obtain ⟨n, e⟩ : ∃ n, a.length = n + 4 := ⟨a.length - 4, by omega⟩
    rw [e, crc_count]
    rfl
  · rw [show a.length - 4 = 0 by omega, pow_zero, Nat.card_eq_one_iff_unique]
    refine ⟨⟨?_⟩, ⟨a, rfl, rfl⟩⟩
    rintro ⟨d, h1, h2⟩ ⟨d', h1', h2'⟩
    exact Subtype.ext (crc_short (h1.trans h1'.symm) (by show d.length ≤ 4; omega) (h2.trans h2'.symm))

/-! ### Changes of sections -/

/-- A mismatch of a section is reported only if there is one. -/
theorem section_mismatch {α : Type} {m : P α} (hm : PlainErr m) (n1 n2 n3 n4 : String) {T : Nat}
    (env : Env) (hT : Room env T) (s s' : CoreSt) (hi : CoreInv env T s) (c a : U32)
    (h : section_ .always n1 n2 n3 n4 m env s = .err (.crcMismatch c a) s') :
    SecMismatch c a s.data := by
  rcases section_cases m n1 n2 n3 n4 env hT s hi with
    ⟨size, crc, d1, hd, hf, hrun⟩ | ⟨⟨e, s1, hrun⟩, _⟩
  · rw [hrun] at h
    simp only [bind, P.bind, crcSection] at h
    rw [calcCrc_eq_spec] at h
    by_cases hne : Crc.crc (d1.take size.toNat) ≠ crc
    · cases hx : m env ⟨d1, BitVec.ofNat 32 (T - d1.length)⟩ with
      | ok x s2 =>
        rw [hx] at h
        simp only at h
        rw [if_pos hne] at h
        cases h
        exact ⟨size, d1, hd, hf, rfl, hne⟩
      | err e s2 =>
        rw [hx] at h
        simp only at h
        rw [if_pos hne] at h
        cases h
        exact ⟨size, d1, hd, hf, rfl, hne⟩
      | fault f => rw [hx] at h; cases h
    · cases hx : m env ⟨d1, BitVec.ofNat 32 (T - d1.length)⟩ with
      | ok x s2 =>
        rw [hx] at h
        simp only at h
        rw [if_neg hne] at h
        cases h
      | err e s2 =>
        rw [hx] at h
        simp only at h
        rw [if_neg hne] at h
        cases h
        exact (hm _ _ _ _ hx).elim
      | fault f => rw [hx] at h; cases h
  · have h1 := hrun .always
    rw [h] at h1
    cases h1
    exact ((PlainErr.section_ hm n1 n2 n3 n4) env s _ _ (hrun .never)).elim

variable (np : NetworkParse) (env : Env)

/-- A mismatch is reported only if the header has one, or the body of a file with an accepted
header has one. -/
theorem mismatch_cause (data : Bytes) (hl : Room env data.length) (c a : U32)
    (h : parseWith .always np env data = .err (.crcMismatch c a)) :
    SecMismatch c a data ∨ ∃ size crc hd bs d2, HeaderSec hd bs ∧
      data = word size ++ (word crc ++ (bs ++ d2)) ∧ SecMismatch c a d2 := by
  rw [parseWith_eq] at h
  unfold front at h
  simp only [bind, P.bind] at h
  cases h1 : section_ .always "header size" "header crc" "header data" "header" parseHeader env
      (CoreSt.init data) with
  | fault f => rw [h1] at h; cases h
  | err e s1 =>
    rw [h1] at h
    cases h
    exact .inl (section_mismatch PlainErr.parseHeader _ _ _ _ env hl _ _ CoreInv.init c a h1)
  | ok x s1 =>
    rw [h1] at h
    simp only at h
    obtain ⟨⟨bs, hb, hd, _, _⟩, hi⟩ := ((section_spec .always _ _ _ _ parseHeader_spec).okIff
      data.length env (CoreSt.init data) hl.1 CoreInv.init (Nat.le_refl _) x s1).1 h1
    cases h2 : section_ .always "content size" "content crc" "content data" "body" parseBody env
        s1 with
    | fault f => rw [h2] at h; cases h
    | err e s2 =>
      rw [h2] at h
      cases h
      exact .inr ⟨_, _, _, bs, s1.data, hb, hd,
        section_mismatch PlainErr.parseBody _ _ _ _ env hl _ _ hi c a h2⟩
    | ok y s2 =>
      rw [h2] at h
      simp only [pure, P.pure] at h
      unfold networkStep at h
      cases np with
      | never => cases h
      | always =>
        simp only at h
        split at h
        · cases h
        · rename_i hn
          split at hn <;> cases hn
          cases h
        · cases h
      | ignoreOnError =>
        simp only at h
        split at h
        · cases h
        · rename_i hn
          split at hn <;> cases hn
        · cases h

/-- Not answered with a checksum mismatch. -/
def Unnoticed (data : Bytes) : Prop :=
  ¬∃ c a, parseWith .always np env data = .err (.crcMismatch c a)

/-- C99. In an accepted file the declared bytes of the header can be replaced by at most
`256^(n - 4)` others, themselves included, without a mismatch being reported. -/
theorem header_unnoticed (hsize hcrc : BitVec 32) (d t : Bytes) (r : Replay)
    (hl : Room env (word hsize ++ (word hcrc ++ (d ++ t))).length) (hd : d.length = hsize.toNat)
    (h : parseWith .always np env (word hsize ++ (word hcrc ++ (d ++ t))) = .ok r) :
    Nat.card {d' : Bytes // d'.length = d.length ∧
      Unnoticed np env (word hsize ++ (word hcrc ++ (d' ++ t)))} ≤ 256 ^ (d.length - 4) := by
  rw [← crc_collisions d]
  have hfin : Finite {d' : Bytes // d'.length = d.length ∧
      Boxcars.Crc.calcCrc d' = Boxcars.Crc.calcCrc d} :=
    Nat.finite_of_card_ne_zero (by rw [crc_collisions]; exact Nat.pos_iff_ne_zero.1 (Nat.pow_pos (by decide)))
  refine Nat.card_le_card_of_injective (fun d' => ⟨d'.1, d'.2.1, ?_⟩) ?_
  · refine Classical.byContradiction fun hne => d'.2.2 ⟨_, _, header_change_detected np env hsize hcrc
      d d'.1 t r hl hd ⟨d'.2.1.symm, fun e => hne ?_⟩ h⟩
    rw [calcCrc_eq_spec, calcCrc_eq_spec, e]
  · intro x y hxy
    have e : x.1 = y.1 := (Subtype.mk.injEq _ _ _ _).mp hxy
    exact Subtype.ext e

theorem header_split {T : Nat} (hT : Room env T) {h h' : Header} {b b' x y : Bytes}
    (hb : HeaderSec h b) (hb' : HeaderSec h' b') (he : b ++ x = b' ++ y) (hlen : (b ++ x).length ≤ T) :
    x = y := by
  have r1 := parseHeader_spec.run hT hlen hb
  have r2 := parseHeader_spec.run hT (by rw [← he]; exact hlen) hb'
  rw [← he, r1] at r2
  exact congrArg CoreSt.data (PRes.ok.inj r2).2

/-- C99. In an accepted file whose declared header does not reach into the body, the declared bytes
of the body can be replaced by exactly `256^(n - 4)` others, themselves included, without a mismatch
being reported. -/
theorem body_unnoticed (hsize hcrc csize ccrc : BitVec 32) (hdr : Header) (bh d t : Bytes) (r : Replay)
    (hl : Room env
      (word hsize ++ (word hcrc ++ (bh ++ (word csize ++ (word ccrc ++ (d ++ t)))))).length)
    (hh : HeaderSec hdr bh) (hs : hsize.toNat ≤ bh.length) (hd : d.length = csize.toNat)
    (h : parseWith .always np env
      (word hsize ++ (word hcrc ++ (bh ++ (word csize ++ (word ccrc ++ (d ++ t)))))) = .ok r) :
    Nat.card {d' : Bytes // d'.length = d.length ∧ Unnoticed np env
      (word hsize ++ (word hcrc ++ (bh ++ (word csize ++ (word ccrc ++ (d' ++ t))))))} =
        256 ^ (d.length - 4) := by
  rw [← crc_collisions d]
  refine Nat.card_congr (Equiv.subtypeEquivRight fun d' => and_congr_right fun hlen => ?_)
  constructor
  · intro hu
    refine Classical.byContradiction fun hne => hu (body_change_detected np env hsize hcrc csize ccrc
      hdr bh d d' t r hl hh hd ⟨hlen.symm, fun e => hne ?_⟩ h)
    rw [calcCrc_eq_spec, calcCrc_eq_spec, e]
  · rintro hc ⟨c, a, hp⟩
    have hl' : Room env
        (word hsize ++ (word hcrc ++ (bh ++ (word csize ++ (word ccrc ++ (d' ++ t)))))).length :=
      hl.mono (by simp only [List.length_append]; omega)
    obtain ⟨x, rest, net, ⟨bx, bb, h1, h2, h3, h4, h5, h6⟩, _, rfl⟩ := parseWith_ok_of hl.1 h
    obtain ⟨hc1, hc2⟩ := h6 (by decide)
    obtain ⟨e2, e3⟩ := word_append_inj h3
    obtain ⟨e4, e5⟩ := word_append_inj e3
    have e6 := header_split env hl hh h1 e5 (by simp only [List.length_append]; omega)
    obtain ⟨e7, e8⟩ := word_append_inj e6
    obtain ⟨e9, e10⟩ := word_append_inj e8
    rw [← e10, ← e7, ← e9, List.take_left' hd] at hc2
    rw [← e5, ← e2, ← e4, List.take_append_of_le_length hs] at hc1
    rcases mismatch_cause np env _ hl' c a hp with hm | ⟨size, crc, hd2, bs, d2, g1, g2, hm⟩
    · obtain ⟨size, d1, g1, _, g2, g3⟩ := hm
      obtain ⟨rfl, g4⟩ := word_append_inj g1
      obtain ⟨rfl, rfl⟩ := word_append_inj g4
      rw [List.take_append_of_le_length hs, hc1] at g2
      exact g3 g2.symm
    · obtain ⟨rfl, g4⟩ := word_append_inj g2
      obtain ⟨rfl, g5⟩ := word_append_inj g4
      have g6 := header_split env hl' hh g1 g5 (by simp only [List.length_append]; omega)
      obtain ⟨size', d1, q1, _, q2, q3⟩ := hm
      rw [← g6] at q1
      obtain ⟨rfl, q4⟩ := word_append_inj q1
      obtain ⟨rfl, rfl⟩ := word_append_inj q4
      rw [List.take_left' (by omega)] at q2
      rw [calcCrc_eq_spec, calcCrc_eq_spec] at hc
      exact q3 (by rw [← q2, hc, hc2])

/-! ### Instances -/

/-- 256 messages of five bytes have the checksum 0, and among those of three bytes no two have the same
checksum. -/
example : Nat.card {d : Bytes // d.length = 5 ∧ Boxcars.Crc.calcCrc d = 0} = 256 ∧
    Nat.card {d : Bytes // d.length = 3 ∧
      Boxcars.Crc.calcCrc d = Boxcars.Crc.calcCrc [1, 2, 3]} = 1 :=
  ⟨crc_count 1 0, crc_collisions [1, 2, 3]⟩

set_option maxRecDepth 100000 in
/-- In the sample file the 40 bytes of the body have `256^36` replacements that are not reported, one
of `2^32`. -/
example : Nat.card {d' : Bytes // d'.length = 40 ∧
    Unnoticed .always Env.default64 (sample.take 78 ++ d')} = 256 ^ 36 := by
  obtain ⟨r, h⟩ := sample_ok
  have hb : sampleBodyBytes.length = 40 := by decide
  have e : ∀ d' : Bytes, sample.take 78 ++ d' = word 62 ++ (word 0xd007b860 ++ (sampleHeaderBytes ++
      (word 40 ++ (word 0x13899af5 ++ (d' ++ []))))) := by
    intro d'
    rw [show sample.take 78 = word 62 ++ (word 0xd007b860 ++ (sampleHeaderBytes ++
      (word 40 ++ word 0x13899af5))) by decide +kernel]
    simp only [List.append_assoc, List.append_nil]
  have es : sample = sample.take 78 ++ sampleBodyBytes := (List.take_append_drop 78 sample).symm
  rw [es, e] at h
  have k := body_unnoticed .always Env.default64 62 0xd007b860 40 0x13899af5 sampleHeader
    sampleHeaderBytes sampleBodyBytes [] r (Room.of_lt (by decide)) sample_headerSec (by decide)
    (by decide) h
  simp only [← e, hb] at k
  exact k

end Boxcars.Props
