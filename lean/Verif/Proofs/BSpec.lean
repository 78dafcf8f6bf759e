import Verif.Model.NetModels
import Verif.Spec.Bits
/-!
# A specification calculus for the bit reader

`BSpec N m R` says everything that is proved about a decoder `m` on readers with at
most `N` unread bits: it succeeds exactly on the inputs described by the relation
`R value before after`, never faults, leaves a suffix of its input, and neither its
outcome nor the bits it leaves depend on the environment or on what is buffered.
-/
namespace Boxcars

/-- A relation between a decoded value, the unread bits before and after. -/
abbrev BRel (α : Type) := α → List Bool → List Bool → Prop

/-- The lookahead holds bits that exist, at most 63 of them. -/
def Reader.Valid (r : Reader) : Prop := r.look ≤ r.bits.length ∧ r.look ≤ 63

/-- No fault; the reader left is valid and at a later position. -/
def BRes.Good {ε α : Type} (r : Reader) : BRes ε α → Prop
  | .ok _ r' => r'.Valid ∧ r'.bits <:+ r.bits
  | .err _ r' => r'.Valid ∧ r'.bits <:+ r.bits
  | .fault _ => False

/-- The same outcome up to buffering. -/
def BRes.Same {ε α : Type} : BRes ε α → BRes ε α → Prop
  | .ok a r, .ok a' r' => a = a' ∧ r.bits = r'.bits
  | .err e r, .err e' r' => e = e' ∧ r.bits = r'.bits
  | _, _ => False

/-- See the module comment. -/
structure BSpec {ε α : Type} (N : Nat) (m : BM ε α) (R : BRel α) : Prop where
  good : ∀ env r, r.Valid → r.bits.length ≤ N → (m env r).Good r
  okIff : ∀ env r, r.Valid → r.bits.length ≤ N → ∀ a o,
    (∃ r', m env r = .ok a r' ∧ r'.bits = o) ↔ R a r.bits o
  agn : ∀ env env' r r', r.Valid → r'.Valid → r.bits.length ≤ N → r.bits = r'.bits →
    (m env r).Same (m env' r')

/-- A grammar as a relation: the value is written at the start of the input. -/
def ofB {α : Type} (g : α → List Bool → Prop) : BRel α := fun a i o => ∃ bs, g a bs ∧ i = bs ++ o

namespace BSpec

variable {ε ε' α β : Type} {N : Nat}

theorem mono {m : BM ε α} {R : BRel α} {N' : Nat} (h : BSpec N m R) (hN : N' ≤ N) :
    BSpec N' m R where
  good env r hv hl := h.good env r hv (by omega)
  okIff env r hv hl := h.okIff env r hv (by omega)
  agn env env' r r' hv hv' hl := h.agn env env' r r' hv hv' (by omega)

theorem congr {m : BM ε α} {R R' : BRel α} (h : BSpec N m R)
    (hR : ∀ a i o, i.length ≤ N → (R a i o ↔ R' a i o)) : BSpec N m R' where
  good := h.good
  okIff env r hv hl a o := by rw [h.okIff env r hv hl, hR _ _ _ hl]
  agn := h.agn

theorem ok_rel {m : BM ε α} {R : BRel α} (h : BSpec N m R) {env : Env} {r r' : Reader} {a : α}
    (hv : r.Valid) (hl : r.bits.length ≤ N) (hm : m env r = .ok a r') : R a r.bits r'.bits :=
  (h.okIff env r hv hl a _).1 ⟨r', hm, rfl⟩

theorem ok_valid {m : BM ε α} {R : BRel α} (h : BSpec N m R) {env : Env} {r r' : Reader} {a : α}
    (hv : r.Valid) (hl : r.bits.length ≤ N) (hm : m env r = .ok a r') : r'.Valid := by
  have := h.good env r hv hl
  rw [hm] at this
  exact this.1

theorem ok_suffix {m : BM ε α} {R : BRel α} (h : BSpec N m R) {env : Env} {r r' : Reader} {a : α}
    (hv : r.Valid) (hl : r.bits.length ≤ N) (hm : m env r = .ok a r') : r'.bits <:+ r.bits := by
  have := h.good env r hv hl
  rw [hm] at this
  exact this.2

/-- The outcome described by a result and the bits it leaves. -/
def den (d : Except ε α × List Bool) (look : Nat) : BRes ε α :=
  match d.1 with
  | .ok a => .ok a ⟨d.2, look⟩
  | .error e => .err e ⟨d.2, look⟩

/-- Building a specification from a function on bit lists. -/
theorem ofFun {m : BM ε α} (d : List Bool → Except ε α × List Bool)
    (h : ∀ env r, r.Valid → r.bits.length ≤ N → ∃ look, look ≤ 63 ∧
      look ≤ (d r.bits).2.length ∧ (d r.bits).2 <:+ r.bits ∧
      m env r = den (d r.bits) look) :
    BSpec N m (fun a i o => d i = (.ok a, o)) where
  good env r hv hl := by
    obtain ⟨look, h1, h2, h3, h4⟩ := h env r hv hl
    rw [h4]
    unfold den
    cases (d r.bits).1 <;> exact ⟨⟨h2, h1⟩, h3⟩
  okIff env r hv hl a o := by
    obtain ⟨look, h1, h2, h3, h4⟩ := h env r hv hl
    rw [h4]
    unfold den
    rcases hd : d r.bits with ⟨x, y⟩
    cases x with
    | ok b =>
      simp only [hd] at *
      constructor
      · rintro ⟨r', hr, rfl⟩
        cases hr
        rfl
      · intro hx
        cases hx
        exact ⟨_, rfl, rfl⟩
    | error e =>
      simp only [hd] at *
      constructor
      · rintro ⟨r', hr, _⟩; cases hr
      · intro hx; cases hx
  agn env env' r r' hv hv' hl he := by
    obtain ⟨look, h1, h2, h3, h4⟩ := h env r hv hl
    obtain ⟨look', h1', h2', h3', h4'⟩ := h env' r' hv' (he ▸ hl)
    rw [h4, h4', ← he]
    unfold den
    cases (d r.bits).1 <;> exact ⟨rfl, rfl⟩

theorem pure (a : α) : BSpec N (Pure.pure a : BM ε α) (fun b i o => b = a ∧ i = o) where
  good env r hv hl := ⟨hv, List.suffix_refl _⟩
  okIff env r hv hl b o := by
    show (∃ r', BRes.ok a r = BRes.ok b r' ∧ _) ↔ _
    constructor
    · rintro ⟨r', h, rfl⟩; cases h; exact ⟨rfl, rfl⟩
    · rintro ⟨rfl, h⟩; exact ⟨r, rfl, h⟩
  agn env env' r r' hv hv' hl he := ⟨rfl, he⟩

theorem fail (e : ε) : BSpec N (BM.fail e : BM ε α) (fun _ _ _ => False) where
  good env r hv hl := ⟨hv, List.suffix_refl _⟩
  okIff env r hv hl b o := by
    show (∃ r', BRes.err e r = BRes.ok b r' ∧ _) ↔ _
    constructor
    · rintro ⟨r', h, rfl⟩; cases h
    · intro h; exact h.elim
  agn env env' r r' hv hv' hl he := ⟨rfl, he⟩

theorem bind {m : BM ε α} {f : α → BM ε β} {R : BRel α} {R' : α → BRel β}
    (h : BSpec N m R)
    (hf : ∀ a i o, i.length ≤ N → R a i o → BSpec o.length (f a) (R' a)) :
    BSpec N (m >>= f) (fun b i o => ∃ a j, R a i j ∧ R' a b j o) where
  good env r hv hl := by
    show (BM.bind m f env r).Good r
    have hg := h.good env r hv hl
    unfold BM.bind
    cases hm : m env r with
    | ok a r1 =>
      rw [hm] at hg
      have hs := hf a _ _ hl (h.ok_rel hv hl hm)
      have := hs.good env r1 hg.1 (Nat.le_refl _)
      simp only
      revert this
      cases f a env r1 with
      | ok b r2 => exact fun this => ⟨this.1, this.2.trans hg.2⟩
      | err e r2 => exact fun this => ⟨this.1, this.2.trans hg.2⟩
      | fault x => exact fun this => this
    | err e r1 => rw [hm] at hg; exact hg
    | fault x => rw [hm] at hg; exact hg
  okIff env r hv hl b o := by
    show (∃ r', BM.bind m f env r = _ ∧ _) ↔ _
    unfold BM.bind
    constructor
    · rintro ⟨r', hx, ho⟩
      cases hm : m env r with
      | ok a r1 =>
        rw [hm] at hx
        have hr := h.ok_rel hv hl hm
        exact ⟨a, r1.bits, hr, ((hf a _ _ hl hr).okIff env r1 (h.ok_valid hv hl hm)
          (Nat.le_refl _) b o).1 ⟨r', hx, ho⟩⟩
      | err e r1 => rw [hm] at hx; cases hx
      | fault x => rw [hm] at hx; cases hx
    · rintro ⟨a, j, h1, h2⟩
      obtain ⟨r1, hm, rfl⟩ := (h.okIff env r hv hl a j).2 h1
      rw [hm]
      exact ((hf a _ _ hl h1).okIff env r1 (h.ok_valid hv hl hm) (Nat.le_refl _) b o).2 h2
  agn env env' r r' hv hv' hl he := by
    show (BM.bind m f env r).Same (BM.bind m f env' r')
    have hs := h.agn env env' r r' hv hv' hl he
    have hg := h.good env r hv hl
    have hg' := h.good env' r' hv' (he ▸ hl)
    unfold BM.bind
    cases hm : m env r with
    | ok a r1 =>
      rw [hm] at hs hg
      cases hm' : m env' r' with
      | ok a' r1' =>
        rw [hm'] at hs hg'
        obtain ⟨rfl, hb⟩ := hs
        exact (hf a _ _ hl (h.ok_rel hv hl hm)).agn env env' r1 r1' hg.1 hg'.1 (Nat.le_refl _) hb
      | err e r1' => rw [hm'] at hs; exact hs.elim
      | fault x => rw [hm'] at hs; exact hs.elim
    | err e r1 =>
      rw [hm] at hs
      cases hm' : m env' r' with
      | ok a' r1' => rw [hm'] at hs; exact hs.elim
      | err e' r1' => rw [hm'] at hs; exact hs
      | fault x => rw [hm'] at hs; exact hs.elim
    | fault x => rw [hm] at hg; exact hg.elim

/-- `bind` when the continuation has a specification for every value. -/
theorem bind' {m : BM ε α} {f : α → BM ε β} {R : BRel α} {R' : α → BRel β}
    (h : BSpec N m R) (hf : ∀ a, BSpec N (f a) (R' a)) :
    BSpec N (m >>= f) (fun b i o => ∃ a j, R a i j ∧ R' a b j o) := by
  refine BSpec.bind h ?_
  intro a i o hi hr
  refine (hf a).mono ?_
  obtain ⟨r', hm, ho⟩ := (h.okIff Env.default64 ⟨i, 0⟩ ⟨by simp, by simp⟩ hi a o).2 hr
  have := (h.ok_suffix (r := ⟨i, 0⟩) ⟨by simp, by simp⟩ hi hm).length_le
  rw [ho] at this
  simp only at this
  omega

theorem suffix {m : BM ε α} {R : BRel α} (h : BSpec N m R) {a : α} {i o : List Bool}
    (hi : i.length ≤ N) (hr : R a i o) : o <:+ i := by
  obtain ⟨r', hm, ho⟩ := (h.okIff Env.default64 ⟨i, 0⟩ ⟨by simp, by simp⟩ hi a o).2 hr
  have := h.ok_suffix (r := ⟨i, 0⟩) ⟨by simp, by simp⟩ hi hm
  rwa [ho] at this

theorem mapErr {m : BM ε α} {R : BRel α} (f : ε → ε') (h : BSpec N m R) :
    BSpec N (BM.mapErr f m) R where
  good env r hv hl := by
    have hg := h.good env r hv hl
    unfold BM.mapErr
    revert hg
    cases m env r <;> exact fun hg => hg
  okIff env r hv hl a o := by
    rw [← h.okIff env r hv hl]
    unfold BM.mapErr
    cases m env r with
    | ok b r1 =>
      constructor <;>
      · rintro ⟨r', hx, ho⟩; cases hx; exact ⟨_, rfl, ho⟩
    | err e r1 => constructor <;> · rintro ⟨r', hx, ho⟩; cases hx
    | fault x => constructor <;> · rintro ⟨r', hx, ho⟩; cases hx
  agn env env' r r' hv hv' hl he := by
    have hs := h.agn env env' r r' hv hv' hl he
    unfold BM.mapErr
    cases hm : m env r with
    | ok a r1 =>
      rw [hm] at hs
      cases hm' : m env' r' <;> rw [hm'] at hs <;> exact hs
    | err e r1 =>
      rw [hm] at hs
      cases hm' : m env' r' with
      | err e' r1' => rw [hm'] at hs; exact ⟨congrArg f hs.1, hs.2⟩
      | ok a r1' => rw [hm'] at hs; exact hs
      | fault x => rw [hm'] at hs; exact hs
    | fault x => rw [hm] at hs; exact hs.elim

theorem okOr {m : BM Unit α} {R : BRel α} (e : ε) (h : BSpec N m R) :
    BSpec N (BM.okOr e m) R := h.mapErr _

theorem toOption {m : BM ε α} {R : BRel α} (h : BSpec N m R) :
    BSpec N (BM.toOption m) R := h.mapErr _

theorem ite {c : Prop} [Decidable c] {m m' : BM ε α} {R R' : BRel α}
    (h : c → BSpec N m R) (h' : ¬c → BSpec N m' R') :
    BSpec N (if c then m else m') (if c then R else R') := by
  by_cases hc : c
  · rw [if_pos hc, if_pos hc]; exact h hc
  · rw [if_neg hc, if_neg hc]; exact h' hc

/-- Two-sided uniqueness: the relation of a specification is functional. -/
theorem func {m : BM ε α} {R : BRel α} (h : BSpec N m R) {a a' : α} {i o o' : List Bool}
    (hi : i.length ≤ N) (hr : R a i o) (hr' : R a' i o') : a = a' ∧ o = o' := by
  obtain ⟨r1, hm, rfl⟩ := (h.okIff Env.default64 ⟨i, 0⟩ ⟨by simp, by simp⟩ hi a o).2 hr
  obtain ⟨r2, hm', rfl⟩ := (h.okIff Env.default64 ⟨i, 0⟩ ⟨by simp, by simp⟩ hi a' o').2 hr'
  rw [hm] at hm'
  cases hm'
  exact ⟨rfl, rfl⟩

end BSpec
end Boxcars
