import Verif.Props.CrcCount
/-!
# C100: how many files the checksums admit
-/
namespace Boxcars.Props
open Boxcars Spec

theorem word_card : Nat.card (BitVec 32) = 2 ^ 32 := by
  have e : BitVec 32 ≃ Fin (2 ^ 32) :=
    ⟨BitVec.toFin, BitVec.ofFin, fun _ => rfl, fun _ => rfl⟩
  rw [Nat.card_congr e, Nat.card_eq_fintype_card, Fintype.card_fin]

/-- `parse` succeeds. -/
def Accepts (check : CrcCheck) (np : NetworkParse) (env : Env) (data : Bytes) : Prop :=
  ∃ r, parseWith check np env data = .ok r

/-- A file without its checksums: the size of the header, the header, the size of the body and all
that follows. -/
abbrev Unsealed := BitVec 32 × Bytes × BitVec 32 × Bytes

/-- The file with these checksums. -/
def sealed (p : Unsealed) (w : BitVec 32 × BitVec 32) : Bytes :=
  word p.1 ++ (word w.1 ++ (p.2.1 ++ (word p.2.2.1 ++ (word w.2 ++ p.2.2.2))))

theorem sealed_length (p : Unsealed) (w : BitVec 32 × BitVec 32) :
    (sealed p w).length = 16 + p.2.1.length + p.2.2.2.length := by
  simp only [sealed, List.length_append, word_length]; omega

/-- The checksums that belong to a file: first that of the body, then that of the header, in whose
declared bytes the checksum of the body may be. -/
def bodySeal (p : Unsealed) : BitVec 32 := Crc.crc (p.2.2.2.take p.2.2.1.toNat)
def headerSeal (p : Unsealed) : BitVec 32 :=
  Crc.crc ((p.2.1 ++ (word p.2.2.1 ++ (word (bodySeal p) ++ p.2.2.2))).take p.1.toNat)

/-- The second component is a header. -/
def HasHeader (p : Unsealed) : Prop := ∃ h, HeaderSec h p.2.1

theorem header_split' {h h' : Header} {b b' x y : Bytes} (hb : HeaderSec h b) (hb' : HeaderSec h' b')
    (he : b ++ x = b' ++ y) (hlen : (b ++ x).length < 2 ^ 63) : b = b' ∧ x = y := by
  have hx : x = y := header_split { Env.default64 with checks := false } (T := (b ++ x).length)
    ⟨by show _ ≤ 2 ^ 63 - 1; omega, fun h => Bool.noConfusion h⟩ hb hb' he (Nat.le_refl _)
  subst hx
  exact ⟨List.append_cancel_right he, rfl⟩

theorem sealed_inj {p q : Unsealed} {w v : BitVec 32 × BitVec 32} (hp : HasHeader p)
    (hq : HasHeader q) (hl : (sealed p w).length < 2 ^ 63) (h : sealed p w = sealed q v) :
    p = q ∧ w = v := by
  obtain ⟨hd, hh⟩ := hp
  obtain ⟨hd', hh'⟩ := hq
  obtain ⟨p1, p2, p3, p4⟩ := p
  obtain ⟨q1, q2, q3, q4⟩ := q
  obtain ⟨w1, w2⟩ := w
  obtain ⟨v1, v2⟩ := v
  unfold sealed at h hl
  simp only at h hh hh' hl
  obtain ⟨rfl, h1⟩ := word_append_inj h
  obtain ⟨rfl, h2⟩ := word_append_inj h1
  obtain ⟨rfl, h3⟩ := header_split' hh hh' h2 (by
    rw [List.length_append, List.length_append] at hl; omega)
  obtain ⟨rfl, h4⟩ := word_append_inj h3
  obtain ⟨rfl, rfl⟩ := word_append_inj h4
  exact ⟨rfl, rfl⟩

variable (np : NetworkParse) (env : Env)

theorem accepts_header {check : CrcCheck} {data : Bytes} (hl : data.length ≤ env.isizeMax)
    (h : Accepts check np env data) : ∃ p w, HasHeader p ∧ data = sealed p w := by
  obtain ⟨r, h⟩ := h
  obtain ⟨x, rest, net, ⟨bh, bb, h1, _, h3, _⟩, _⟩ := parseWith_ok_of hl h
  exact ⟨(x.headerSize, bh, x.contentSize, bb ++ rest), (x.headerCrc, x.contentCrc), ⟨_, h1⟩, h3⟩

/-- C100. Without `always_check_crc` the checksums make no difference to whether a file is
accepted; with it they have to be the right ones. -/
theorem accepts_sealed (p : Unsealed) (w v : BitVec 32 × BitVec 32) (hp : HasHeader p)
    (hl : (sealed p w).length ≤ env.isizeMax) :
    (Accepts .never np env (sealed p w) ↔ Accepts .never np env (sealed p v)) ∧
    (Accepts .always np env (sealed p w) ↔
      Accepts .never np env (sealed p w) ∧ w = (headerSeal p, bodySeal p)) := by
  have hlt := isizeMax_lt env
  have read : ∀ check u, Accepts check np env (sealed p u) →
      ∃ (x : Sections) (bb rest : Bytes) (net : Option NetworkFrames), HeaderSec x.header p.2.1 ∧
        BodySec x.body bb ∧ p.1 = x.headerSize ∧ p.2.2.1 = x.contentSize ∧ p.2.2.2 = bb ++ rest ∧
        Fits p.1 (16 - 8 + p.2.1.length + p.2.2.2.length) ∧ Fits p.2.2.1 p.2.2.2.length ∧
        Within env (sealed p u) rest ∧ NetOutcome env np x.header x.body net ∧
        (check = .always → u = (headerSeal p, bodySeal p)) := by
    rintro check u ⟨r, h⟩
    have hlu : (sealed p u).length ≤ env.isizeMax := by rw [sealed_length] at hl ⊢; exact hl
    obtain ⟨x, rest, net, ⟨bh, bb, h1, h2, h3, h4, h5, h6⟩, hw, hn, rfl⟩ :=
      (parseWith_ok_iff_all _ _ _ _ hlu _).1 h
    have h7 : sealed p u = sealed (x.headerSize, bh, x.contentSize, bb ++ rest)
      (x.headerCrc, x.contentCrc) := h3
    obtain ⟨e1, e2⟩ := sealed_inj hp ⟨_, h1⟩ (by omega) h7
    rw [e1]
    refine ⟨x, bb, rest, net, h1, h2, rfl, rfl, rfl, ?_, h5, ?_, hn, fun hc => ?_⟩
    · refine ⟨h4.1, ?_⟩
      have := h4.2
      simp only [List.length_append, word_length] at this ⊢
      omega
    · rw [← e1]; exact hw
    · obtain ⟨c1, c2⟩ := h6 (by rw [hc]; rfl)
      rw [e2]
      refine Prod.ext ?_ c2.symm
      simp only [headerSeal, bodySeal]
      rw [c2]
      exact c1.symm
  have write : ∀ check u (x : Sections) (bb rest : Bytes) (net : Option NetworkFrames),
      HeaderSec x.header p.2.1 → BodySec x.body bb → p.1 = x.headerSize → p.2.2.1 = x.contentSize →
      p.2.2.2 = bb ++ rest → Fits p.1 (16 - 8 + p.2.1.length + p.2.2.2.length) →
      Fits p.2.2.1 p.2.2.2.length → Within env (sealed p w) rest →
      NetOutcome env np x.header x.body net →
      (check = .always → u = (headerSeal p, bodySeal p)) → Accepts check np env (sealed p u) := by
    intro check u x bb rest net h1 h2 e1 e2 e3 h4 h5 hw hn hc
    have hlu : (sealed p u).length ≤ env.isizeMax := by rw [sealed_length] at hl ⊢; exact hl
    refine ⟨_, (parseWith_ok_iff_all _ _ _ _ hlu _).2
      ⟨⟨p.1, u.1, x.header, p.2.2.1, u.2, x.body⟩, rest, net, ⟨p.2.1, bb, h1, h2, ?_, ?_, ?_, ?_⟩,
        ?_, hn, rfl⟩⟩
    · simp only [sealed, e3]
    · refine ⟨h4.1, ?_⟩
      have := h4.2
      rw [e3] at this
      simp only [List.length_append, word_length] at this ⊢
      omega
    · simp only [← e3]; exact h5
    · intro hd
      have he := hc (by simpa using hd)
      rw [he]
      simp only [← e3]
      exact ⟨rfl, rfl⟩
    · intro hcheck
      have := hw hcheck
      rw [sealed_length] at this ⊢
      exact this
  have len : ∀ u rest, Within env (sealed p u) rest → Within env (sealed p w) rest := by
    intro u rest h hc
    have := h hc
    rw [sealed_length] at this ⊢
    exact this
  have move : ∀ check check' u u', (check' = .always → u' = (headerSeal p, bodySeal p)) →
      Accepts check np env (sealed p u) → Accepts check' np env (sealed p u') := by
    intro check check' u u' hc h
    obtain ⟨x, bb, rest, net, a1, a2, a3, a4, a5, a6, a7, a8, a9, _⟩ := read check u h
    exact write check' u' x bb rest net a1 a2 a3 a4 a5 a6 a7 (len u rest a8) a9 hc
  refine ⟨⟨move _ _ _ _ (fun h => nomatch h), move _ _ _ _ (fun h => nomatch h)⟩, ?_, ?_⟩
  · intro h
    obtain ⟨_, _, _, _, _, _, _, _, _, _, _, _, _, hc⟩ := read _ _ h
    exact ⟨move _ _ _ _ (fun h => nomatch h) h, hc rfl⟩
  · rintro ⟨h, hw⟩
    exact move _ _ _ _ (fun _ => hw) h

/-- The accepted files of a size, by their parts. -/
theorem accepted_parts (check : CrcCheck) (N : Nat) (hN : N ≤ env.isizeMax) :
    Nat.card {data : Bytes // data.length = N ∧ Accepts check np env data} =
    Nat.card {t : Unsealed × (BitVec 32 × BitVec 32) // HasHeader t.1 ∧
      (sealed t.1 t.2).length = N ∧ Accepts check np env (sealed t.1 t.2)} := by
  have hlt := isizeMax_lt env
  refine (Nat.card_congr (Equiv.ofBijective
    (fun t => ⟨sealed t.1.1 t.1.2, t.2.2.1, t.2.2.2⟩) ⟨?_, ?_⟩)).symm
  · rintro ⟨⟨p, w⟩, h1, h2, h3⟩ ⟨⟨q, v⟩, g1, g2, g3⟩ h
    have e : sealed p w = sealed q v := (Subtype.mk.injEq _ _ _ _).mp h
    have h2 : (sealed p w).length = N := h2
    obtain ⟨rfl, rfl⟩ := sealed_inj h1 g1 (by show (sealed p w).length < _; omega) e
    rfl
  · rintro ⟨d, h1, h2⟩
    obtain ⟨p, w, hp, rfl⟩ := accepts_header np env (by omega) h2
    exact ⟨⟨(p, w), hp, h1, h2⟩, rfl⟩

/-- C100. Of the files of any size that are accepted without looking at the checksums, exactly one in
`2^64` is accepted by `always_check_crc`. -/
theorem accepted_ratio (N : Nat) (hN : N ≤ env.isizeMax) :
    Nat.card {data : Bytes // data.length = N ∧ Accepts .never np env data} =
      2 ^ 64 * Nat.card {data : Bytes // data.length = N ∧ Accepts .always np env data} := by
  rw [accepted_parts np env .never N hN, accepted_parts np env .always N hN]
  have e1 : {t : Unsealed × (BitVec 32 × BitVec 32) // HasHeader t.1 ∧
      (sealed t.1 t.2).length = N ∧ Accepts .never np env (sealed t.1 t.2)} ≃
      {p : Unsealed // HasHeader p ∧ (sealed p (0, 0)).length = N ∧
        Accepts .never np env (sealed p (0, 0))} × (BitVec 32 × BitVec 32) :=
    { toFun := fun t => (⟨t.1.1, t.2.1, by
          have := t.2.2.1; rw [sealed_length] at this ⊢; exact this,
          ((accepts_sealed np env t.1.1 t.1.2 (0, 0) t.2.1 (by rw [t.2.2.1]; exact hN)).1.1 t.2.2.2)⟩,
          t.1.2)
      invFun := fun t => ⟨(t.1.1, t.2), t.1.2.1, by
          have := t.1.2.2.1; rw [sealed_length] at this ⊢; exact this,
          ((accepts_sealed np env t.1.1 (0, 0) t.2 t.1.2.1 (by rw [t.1.2.2.1]; exact hN)).1.1
            t.1.2.2.2)⟩
      left_inv := fun t => rfl
      right_inv := fun t => rfl }
  have e2 : {t : Unsealed × (BitVec 32 × BitVec 32) // HasHeader t.1 ∧
      (sealed t.1 t.2).length = N ∧ Accepts .always np env (sealed t.1 t.2)} ≃
      {p : Unsealed // HasHeader p ∧ (sealed p (0, 0)).length = N ∧
        Accepts .never np env (sealed p (0, 0))} :=
    { toFun := fun t => ⟨t.1.1, t.2.1, by
          have := t.2.2.1; rw [sealed_length] at this ⊢; exact this,
          (accepts_sealed np env t.1.1 t.1.2 (0, 0) t.2.1 (by rw [t.2.2.1]; exact hN)).1.1
            ((accepts_sealed np env t.1.1 t.1.2 (0, 0) t.2.1 (by rw [t.2.2.1]; exact hN)).2.1
              t.2.2.2).1⟩
      invFun := fun p => ⟨(p.1, (headerSeal p.1, bodySeal p.1)), p.2.1, by
          have := p.2.2.1; rw [sealed_length] at this ⊢; exact this, by
          have hl : (sealed p.1 (headerSeal p.1, bodySeal p.1)).length ≤ env.isizeMax := by
            have := p.2.2.1
            rw [sealed_length] at this ⊢
            omega
          exact (accepts_sealed np env p.1 _ (0, 0) p.2.1 hl).2.2
            ⟨(accepts_sealed np env p.1 _ (0, 0) p.2.1 hl).1.2 p.2.2.2, rfl⟩⟩
      left_inv := by
        rintro ⟨⟨p, w⟩, h1, h2, h3⟩
        have := ((accepts_sealed np env p w (0, 0) h1 (by have h2 : (sealed p w).length = N := h2; omega)).2.1 h3).2
        subst this
        rfl
      right_inv := fun p => rfl }
  rw [Nat.card_congr e1, Nat.card_congr e2, Nat.card_prod, Nat.card_prod, word_card, Nat.mul_comm]
  rfl

/-- C100. At most one in `2^64` of the byte strings of any size is accepted by `always_check_crc`. -/
theorem accepted_few (N : Nat) (hN : N ≤ env.isizeMax) :
    2 ^ 64 * Nat.card {data : Bytes // data.length = N ∧ Accepts .always np env data} ≤ 256 ^ N := by
  rw [← accepted_ratio np env N hN, ← bytes_card N]
  have hf : Finite {d : Bytes // d.length = N} :=
    Nat.finite_of_card_ne_zero (by
      rw [bytes_card]; exact Nat.pos_iff_ne_zero.1 (Nat.pow_pos (by decide)))
  refine Nat.card_le_card_of_injective (fun d => ⟨d.1, d.2.1⟩) ?_
  intro x y h
  have e : x.1 = y.1 := (Subtype.mk.injEq _ _ _ _).mp h
  exact Subtype.ext e

/-- The sample is accepted, and with other checksums only if they are not looked at. -/
example (w : BitVec 32 × BitVec 32) :
    Accepts .never .always Env.default64 (sealed (62, sampleHeaderBytes, 40, sampleBodyBytes) w) ∧
    (Accepts .always .always Env.default64 (sealed (62, sampleHeaderBytes, 40, sampleBodyBytes) w) ↔
      w = (0xd007b860, 0x13899af5)) := by
  have e : sample = sealed (62, sampleHeaderBytes, 40, sampleBodyBytes) (0xd007b860, 0x13899af5) := by
    decide +kernel
  have hs : Accepts .always .always Env.default64
    (sealed (62, sampleHeaderBytes, 40, sampleBodyBytes) (0xd007b860, 0x13899af5)) := e ▸ sample_ok
  have hl : ∀ v, (sealed (62, sampleHeaderBytes, 40, sampleBodyBytes) v).length ≤
      Env.default64.isizeMax := by
    intro v
    rw [sealed_length]
    decide
  have k := fun v v' => accepts_sealed .always Env.default64 (62, sampleHeaderBytes, 40,
    sampleBodyBytes) v v' ⟨_, sample_headerSec⟩ (hl v)
  obtain ⟨h1, h2⟩ := (k _ w).2.1 hs
  have h3 := (k _ w).1.1 h1
  refine ⟨h3, ?_⟩
  rw [(k w w).2, ← h2]
  exact ⟨fun h => h.2, fun h => ⟨h3, h⟩⟩

/-- There are accepted files of the size of the sample, so the numbers of `accepted_ratio` are not zero. -/
example : 0 < Nat.card {data : Bytes // data.length = sample.length ∧
    Accepts .always .always Env.default64 data} := by
  have hf : Finite {d : Bytes // d.length = sample.length} :=
    Nat.finite_of_card_ne_zero (by
      rw [bytes_card]; exact Nat.pos_iff_ne_zero.1 (Nat.pow_pos (by decide)))
  have : Finite {data : Bytes // data.length = sample.length ∧
      Accepts .always .always Env.default64 data} :=
    Finite.of_injective (β := {d : Bytes // d.length = sample.length}) (fun d => ⟨d.1, d.2.1⟩)
      fun x y h => Subtype.ext ((Subtype.mk.injEq _ _ _ _).mp h)
  have : Nonempty {data : Bytes // data.length = sample.length ∧
      Accepts .always .always Env.default64 data} := ⟨⟨sample, rfl, sample_ok⟩⟩
  exact Nat.card_pos

end Boxcars.Props
