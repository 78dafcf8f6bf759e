import Verif.Proofs.BSpec
import Verif.Proofs.BitModels
/-!
# Specifying the errors of the bit reader as well

`ESpec N m E` says that on readers with at most `N` unread bits `m` fails with error `e`
exactly on the inputs with `E e input`.  It goes together with a `BSpec`.
-/
namespace Boxcars
open Spec

/-- See the module comment. -/
def ESpec {ε α : Type} (N : Nat) (m : BM ε α) (E : ε → List Bool → Prop) : Prop :=
  ∀ env r, r.Valid → r.bits.length ≤ N → ∀ e, (∃ r', m env r = .err e r') ↔ E e r.bits

namespace ESpec

variable {ε ε' α β : Type} {N : Nat}

theorem mono {m : BM ε α} {E} {N' : Nat} (h : ESpec N m E) (hN : N' ≤ N) : ESpec N' m E :=
  fun env r hv hl => h env r hv (by omega)

theorem congr {m : BM ε α} {E E'} (h : ESpec N m E)
    (hE : ∀ e i, i.length ≤ N → (E e i ↔ E' e i)) : ESpec N m E' :=
  fun env r hv hl e => by rw [h env r hv hl, hE _ _ hl]

/-- A decoder either succeeds or fails. -/
theorem total {m : BM ε α} {R : BRel α} {E} (hs : BSpec N m R) (h : ESpec N m E) {i : List Bool}
    (hi : i.length ≤ N) : (∃ e, E e i) ↔ ∀ a o, ¬R a i o := by
  have hv : (Reader.mk i 0).Valid := ⟨by simp, by simp⟩
  have hg := hs.good Env.default64 ⟨i, 0⟩ hv hi
  constructor
  · rintro ⟨e, he⟩ a o hr
    obtain ⟨r', h1⟩ := (h Env.default64 ⟨i, 0⟩ hv hi e).2 he
    obtain ⟨r'', h2, _⟩ := (hs.okIff Env.default64 ⟨i, 0⟩ hv hi a o).2 hr
    rw [h1] at h2
    cases h2
  · intro hn
    cases hm : m Env.default64 ⟨i, 0⟩ with
    | ok a r' => exact (hn a _ (hs.ok_rel hv hi hm)).elim
    | err e r' => exact ⟨e, (h Env.default64 ⟨i, 0⟩ hv hi e).1 ⟨r', hm⟩⟩
    | fault x => rw [hm] at hg; exact hg.elim

/-- The error is unique. -/
theorem func {m : BM ε α} {E} (h : ESpec N m E) {i : List Bool} {e e' : ε}
    (hi : i.length ≤ N) (h1 : E e i) (h2 : E e' i) : e = e' := by
  have hv : (Reader.mk i 0).Valid := ⟨by simp, by simp⟩
  obtain ⟨r', h1⟩ := (h Env.default64 ⟨i, 0⟩ hv hi e).2 h1
  obtain ⟨r'', h2⟩ := (h Env.default64 ⟨i, 0⟩ hv hi e').2 h2
  rw [h1] at h2
  cases h2
  rfl

theorem pure (a : α) : ESpec N (Pure.pure a : BM ε α) (fun _ _ => False) := by
  intro env r hv hl e
  constructor
  · rintro ⟨r', h⟩; cases h
  · exact False.elim

theorem fail (e : ε) : ESpec N (BM.fail e : BM ε α) (fun e' _ => e' = e) := by
  intro env r hv hl e'
  constructor
  · rintro ⟨r', h⟩; cases h; rfl
  · rintro rfl; exact ⟨r, rfl⟩

theorem okOr {m : BM Unit α} {R : BRel α} (e : ε) (h : BSpec N m R) :
    ESpec N (BM.okOr e m) (fun e' i => e' = e ∧ ∀ a o, ¬R a i o) := by
  intro env r hv hl e'
  have hg := h.good env r hv hl
  unfold BM.okOr BM.mapErr
  constructor
  · rintro ⟨r', hx⟩
    cases hm : m env r with
    | ok a r1 => rw [hm] at hx; cases hx
    | err u r1 =>
      rw [hm] at hx
      cases hx
      refine ⟨rfl, fun a o hr => ?_⟩
      obtain ⟨r2, h2, _⟩ := (h.okIff env r hv hl a o).2 hr
      rw [hm] at h2
      cases h2
    | fault x => rw [hm] at hx; cases hx
  · rintro ⟨rfl, hn⟩
    cases hm : m env r with
    | ok a r1 => exact (hn a _ (h.ok_rel hv hl hm)).elim
    | err u r1 => exact ⟨r1, rfl⟩
    | fault x => rw [hm] at hg; exact hg.elim

theorem mapErr {m : BM ε α} {E} (f : ε → ε') (h : ESpec N m E) :
    ESpec N (BM.mapErr f m) (fun e' i => ∃ e, E e i ∧ e' = f e) := by
  intro env r hv hl e'
  unfold BM.mapErr
  constructor
  · rintro ⟨r', hx⟩
    cases hm : m env r with
    | ok a r1 => rw [hm] at hx; cases hx
    | err e r1 =>
      rw [hm] at hx
      cases hx
      exact ⟨e, (h env r hv hl e).1 ⟨_, hm⟩, rfl⟩
    | fault x => rw [hm] at hx; cases hx
  · rintro ⟨e, he, rfl⟩
    obtain ⟨r', hm⟩ := (h env r hv hl e).2 he
    rw [hm]
    exact ⟨r', rfl⟩

theorem bind {m : BM ε α} {f : α → BM ε β} {R : BRel α} {E}
    {E' : α → ε → List Bool → Prop} (hs : BSpec N m R) (h : ESpec N m E)
    (hf : ∀ a i o, i.length ≤ N → R a i o → ESpec o.length (f a) (E' a)) :
    ESpec N (m >>= f) (fun e i => E e i ∨ ∃ a j, R a i j ∧ E' a e j) := by
  intro env r hv hl e
  show (∃ r', BM.bind m f env r = _) ↔ _
  unfold BM.bind
  constructor
  · rintro ⟨r', hx⟩
    cases hm : m env r with
    | ok a r1 =>
      rw [hm] at hx
      have hr := hs.ok_rel hv hl hm
      exact .inr ⟨a, r1.bits, hr, ((hf a _ _ hl hr) env r1 (hs.ok_valid hv hl hm)
        (Nat.le_refl _) e).1 ⟨r', hx⟩⟩
    | err e' r1 => rw [hm] at hx; cases hx; exact .inl ((h env r hv hl _).1 ⟨_, hm⟩)
    | fault x => rw [hm] at hx; cases hx
  · rintro (h1 | ⟨a, j, h1, h2⟩)
    · obtain ⟨r1, hm⟩ := (h env r hv hl e).2 h1
      rw [hm]
      exact ⟨r1, rfl⟩
    · obtain ⟨r1, hm, rfl⟩ := (hs.okIff env r hv hl a j).2 h1
      rw [hm]
      exact ((hf a _ _ hl h1) env r1 (hs.ok_valid hv hl hm) (Nat.le_refl _) e).2 h2

theorem bind' {m : BM ε α} {f : α → BM ε β} {R : BRel α} {E}
    {E' : α → ε → List Bool → Prop} (hs : BSpec N m R) (h : ESpec N m E)
    (hf : ∀ a, ESpec N (f a) (E' a)) :
    ESpec N (m >>= f) (fun e i => E e i ∨ ∃ a j, R a i j ∧ E' a e j) :=
  bind hs h fun a _ _ hi hr => (hf a).mono (Nat.le_trans (hs.suffix hi hr).length_le hi)

/-- A decoder that cannot fail. -/
theorem never {m : BM ε α} (hn : ∀ env r e r', m env r ≠ .err e r') :
    ESpec N m (fun _ _ => False) := by
  intro env r hv hl e
  constructor
  · rintro ⟨r', hx⟩; exact hn _ _ _ _ hx
  · exact False.elim

/-- A decoder whose only error is `e`. -/
theorem single {m : BM ε α} {R : BRel α} (e : ε) (h : BSpec N m R)
    (hn : ∀ env r e' r', r.Valid → m env r = .err e' r' → e' = e) :
    ESpec N m (fun e' i => e' = e ∧ ∀ a o, ¬R a i o) := by
  intro env r hv hl e'
  have hg := h.good env r hv hl
  constructor
  · rintro ⟨r', hx⟩
    refine ⟨hn _ _ _ _ hv hx, fun a o hr => ?_⟩
    obtain ⟨r2, h2, _⟩ := (h.okIff env r hv hl a o).2 hr
    rw [hx] at h2
    cases h2
  · rintro ⟨rfl, hn'⟩
    cases hm : m env r with
    | ok a r1 => exact (hn' a _ (h.ok_rel hv hl hm)).elim
    | err e1 r1 => rw [hn _ _ _ _ hv hm]; exact ⟨r1, rfl⟩
    | fault x => rw [hm] at hg; exact hg.elim

/-- The errors of a decoder, whatever they are. -/
def errs (m : BM ε α) (e : ε) (i : List Bool) : Prop :=
  ∃ env r r', r.Valid ∧ r.bits = i ∧ m env r = .err e r'

theorem self {m : BM ε α} {R : BRel α} (h : BSpec N m R) : ESpec N m (errs m) := by
  intro env r hv hl e
  constructor
  · rintro ⟨r', hx⟩; exact ⟨env, r, r', hv, rfl, hx⟩
  · rintro ⟨env', r1, r', hv', he, hx⟩
    have := h.agn env env' r r1 hv hv' hl he.symm
    rw [hx] at this
    cases hm : m env r with
    | ok a r1 => rw [hm] at this; exact this.elim
    | err e1 r1 => rw [hm] at this; rw [this.1]; exact ⟨r1, rfl⟩
    | fault x => rw [hm] at this; exact this.elim

/-- A check in front of unchecked reads. -/
theorem gateFail {n : Nat} {m : BM ε α} {R : BRel α} (e : ε) (hn : n ≤ 56) (h : Peek n m R) :
    ESpec N (do refill; let look ← lookaheadBits; if look < n then BM.fail e else m)
      (fun e' i => e' = e ∧ i.length < n) := by
  refine (single e (Peek.gateFail e hn h) ?_).congr ?_
  · intro env r e' r' hv hx
    obtain ⟨l, h1, h2, h3, h4⟩ := refill_run (ε := ε) env r hv
    rw [BM.bind_ok h4, BM.bind_ok (show lookaheadBits env ⟨r.bits, l⟩ = .ok l ⟨r.bits, l⟩ from rfl)] at hx
    split at hx
    · cases hx; rfl
    · obtain ⟨a, k, _, hm, _⟩ := h env r.bits l (by omega) h3
      rw [hm] at hx
      cases hx
  · intro e' i _
    constructor
    · rintro ⟨rfl, h1⟩
      refine ⟨rfl, Nat.lt_of_not_le fun hc => ?_⟩
      obtain ⟨a, k, _, _, hR⟩ := h Env.default64 i i.length hc (Nat.le_refl _)
      exact h1 a _ ⟨hc, (hR a _).2 ⟨rfl, rfl⟩⟩
    · rintro ⟨rfl, h1⟩
      exact ⟨rfl, fun a o h2 => by omega⟩

end ESpec
end Boxcars
