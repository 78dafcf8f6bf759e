import Verif.Model.Core
/-!
# A specification calculus for the byte parser

`PSpec N m R` says everything that is proved about a parser `m` on states with at
most `N` unread bytes: it succeeds exactly on the inputs described by the relation
`R value before after`, never faults, reports the current offset in its errors and
does not depend on the environment except for the width of `usize`.
-/
namespace Boxcars

/-- A relation between a parsed value, the unread bytes before and after. -/
abbrev PRel (α : Type) := α → List Byte → List Byte → Prop

/-- The inputs on which nothing can overflow: a slice has at most `isize::MAX` bytes, and
with overflow checks the offsets must fit in the `i32` offset counter. -/
def Room (env : Env) (T : Nat) : Prop :=
  T ≤ env.isizeMax ∧ (env.checks = true → T < 2 ^ 31)

/-- The parser is at some position of an input of `T` bytes and `col` is that
position, which with overflow checks fits in an `i32`. -/
def CoreInv (env : Env) (T : Nat) (s : CoreSt) : Prop :=
  s.data.length ≤ T ∧ s.col = BitVec.ofNat 32 (T - s.data.length) ∧
    (env.checks = true → T - s.data.length < 2 ^ 31)

/-- Every offset mentioned in a parse error is `col`. -/
def ErrAt (col : I32) : ParseError → Prop
  | .parseError _ off e => off = col ∧ ErrAt col e
  | .corruptReplay _ e => ErrAt col e
  | _ => True

/-- See the module comment. -/
structure PSpec {α : Type} (N : Nat) (m : P α) (R : PRel α) : Prop where
  suffix : ∀ a d d', d.length ≤ N → R a d d' → d' <:+ d
  noFault : ∀ T env s, Room env T → CoreInv env T s → s.data.length ≤ N →
    ∀ f, m env s ≠ .fault f
  okIff : ∀ T env s, T ≤ env.isizeMax → CoreInv env T s → s.data.length ≤ N →
    ∀ a s', m env s = .ok a s' ↔ (R a s.data s'.data ∧ CoreInv env T s')
  errInv : ∀ T env s, T ≤ env.isizeMax → CoreInv env T s → s.data.length ≤ N →
    ∀ e s', m env s = .err e s' → CoreInv env T s' ∧ s'.data <:+ s.data ∧ ErrAt s'.col e
  agn : ∀ T env env' s, Room env T → Room env' T → CoreInv env T s → s.data.length ≤ N →
    env'.usizeBits = env.usizeBits → m env' s = m env s

theorem isizeMax_ge (env : Env) : 2 ^ 31 - 1 ≤ env.isizeMax := by
  unfold Env.isizeMax
  rcases env.usizeBits_eq with h | h <;> rw [h] <;> decide

/-- Inputs below 2 GiB are small enough everywhere. -/
theorem Room.of_lt {env : Env} {T : Nat} (h : T < 2 ^ 31) : Room env T :=
  ⟨by have := isizeMax_ge env; omega, fun _ => h⟩

theorem Room.mono {env : Env} {T T' : Nat} (h : Room env T) (h' : T' ≤ T) : Room env T' :=
  ⟨by have := h.1; omega, fun hc => by have := h.2 hc; omega⟩

theorem CoreInv.ext {env : Env} {T : Nat} {s s' : CoreSt} (h : CoreInv env T s)
    (h' : CoreInv env T s') (hd : s.data = s'.data) : s = s' := by
  cases s; cases s'
  simp only [CoreInv] at h h'
  simp only at hd
  subst hd
  rw [h.2.1, h'.2.1]

/-- Later positions when nothing can overflow. -/
theorem CoreInv.of_suffix {env : Env} {T : Nat} {s : CoreSt} (hT : Room env T)
    (h : CoreInv env T s) {d : List Byte} (hd : d <:+ s.data) :
    CoreInv env T ⟨d, BitVec.ofNat 32 (T - d.length)⟩ := by
  have := hd.length_le
  exact ⟨by have := h.1; simp only; omega, rfl, fun hc => by have := hT.2 hc; simp only; omega⟩

/-- A position between two positions. -/
theorem CoreInv.between {env : Env} {T : Nat} {s s' : CoreSt} (h : CoreInv env T s)
    (h' : CoreInv env T s') {d : List Byte} (hd : d <:+ s.data) (hd' : s'.data <:+ d) :
    CoreInv env T ⟨d, BitVec.ofNat 32 (T - d.length)⟩ := by
  have h1 := hd.length_le
  have h2 := hd'.length_le
  exact ⟨by have := h.1; simp only; omega, rfl, fun hc => by
    have := h'.2.2 hc; simp only; omega⟩

theorem CoreInv.init {env : Env} {data : List Byte} :
    CoreInv env data.length (CoreSt.init data) := by
  simp [CoreInv, CoreSt.init]

/-- The position as a number. -/
theorem CoreInv.col_toInt {env : Env} {T : Nat} {s : CoreSt} (hT : T < 2 ^ 31)
    (h : CoreInv env T s) : s.col.toInt = (T - s.data.length : Nat) := by
  rw [h.2.1, BitVec.toInt_ofNat']
  have : (T - s.data.length) < 2 ^ 31 := by omega
  rw [Int.bmod_eq_of_le] <;> omega

namespace PSpec

variable {α β : Type} {N : Nat}

theorem mono {m : P α} {R : PRel α} {N' : Nat} (h : PSpec N m R) (hN : N' ≤ N) :
    PSpec N' m R where
  suffix a d d' hd := h.suffix a d d' (by omega)
  noFault T env s hT hi hd := h.noFault T env s hT hi (by omega)
  okIff T env s hT hi hd := h.okIff T env s hT hi (by omega)
  errInv T env s hT hi hd := h.errInv T env s hT hi (by omega)
  agn T env env' s hT hT' hi hd := h.agn T env env' s hT hT' hi (by omega)

theorem congr {m : P α} {R R' : PRel α} (h : PSpec N m R)
    (hR : ∀ a d d', d.length ≤ N → (R a d d' ↔ R' a d d')) : PSpec N m R' where
  suffix a d d' hd hr := h.suffix a d d' hd ((hR a d d' hd).2 hr)
  noFault := h.noFault
  okIff T env s hT hi hd a s' := by
    rw [h.okIff T env s hT hi hd, hR _ _ _ hd]
  errInv := h.errInv
  agn := h.agn

theorem pure (a : α) : PSpec N (Pure.pure a : P α) (fun b d d' => b = a ∧ d' = d) where
  suffix b d d' _ h := by rw [h.2]; exact List.suffix_refl d
  noFault T env s hT hi hd f := by intro h; cases h
  okIff T env s hT hi hd b s' := by
    show PRes.ok a s = PRes.ok b s' ↔ _
    constructor
    · intro h; cases h; exact ⟨⟨rfl, rfl⟩, hi⟩
    · rintro ⟨⟨rfl, h⟩, hi'⟩
      rw [hi'.ext hi h]
  errInv T env s hT hi hd e s' h := by cases h
  agn T env env' s hT hT' hi hd he := rfl

theorem bind {m : P α} {f : α → P β} {R : PRel α} {R' : α → PRel β}
    (h : PSpec N m R)
    (hf : ∀ a d d', d.length ≤ N → R a d d' → PSpec d'.length (f a) (R' a)) :
    PSpec N (m >>= f) (fun b d d'' => ∃ a d', R a d d' ∧ R' a b d' d'') where
  suffix b d d'' hd := by
    rintro ⟨a, d', h1, h2⟩
    exact ((hf a d d' hd h1).suffix b d' d'' (Nat.le_refl _) h2).trans (h.suffix a d d' hd h1)
  noFault T env s hT hi hd x := by
    show P.bind m f env s ≠ _
    unfold P.bind
    intro hx
    cases hm : m env s with
    | ok a s1 =>
      rw [hm] at hx
      obtain ⟨hr, hi1⟩ := (h.okIff T env s hT.1 hi hd a s1).1 hm
      exact (hf a _ _ hd hr).noFault T env s1 hT hi1 (Nat.le_refl _) x hx
    | err e s1 => rw [hm] at hx; cases hx
    | fault y => exact h.noFault T env s hT hi hd y hm
  okIff T env s hT hi hd b s' := by
    show P.bind m f env s = _ ↔ _
    unfold P.bind
    constructor
    · intro hx
      cases hm : m env s with
      | ok a s1 =>
        rw [hm] at hx
        obtain ⟨hr, hi1⟩ := (h.okIff T env s hT hi hd a s1).1 hm
        have := ((hf a _ _ hd hr).okIff T env s1 hT hi1 (Nat.le_refl _) b s').1 hx
        exact ⟨⟨a, s1.data, hr, this.1⟩, this.2⟩
      | err e s1 => rw [hm] at hx; cases hx
      | fault y => rw [hm] at hx; cases hx
    · rintro ⟨⟨a, d', h1, h2⟩, hi'⟩
      have hs := h.suffix a _ _ hd h1
      have hi1 := hi.between hi' hs ((hf a _ _ hd h1).suffix b _ _ (Nat.le_refl _) h2)
      have := (h.okIff T env s hT hi hd a _).2 ⟨h1, hi1⟩
      rw [this]
      exact ((hf a _ _ hd h1).okIff T env _ hT hi1 (Nat.le_refl _) b s').2 ⟨h2, hi'⟩
  errInv T env s hT hi hd e s' := by
    show P.bind m f env s = _ → _
    unfold P.bind
    intro hx
    cases hm : m env s with
    | ok a s1 =>
      rw [hm] at hx
      obtain ⟨hr, hi1⟩ := (h.okIff T env s hT hi hd a s1).1 hm
      obtain ⟨h1, h2, h3⟩ := (hf a _ _ hd hr).errInv T env s1 hT hi1 (Nat.le_refl _) e s' hx
      exact ⟨h1, h2.trans (h.suffix a _ _ hd hr), h3⟩
    | err e1 s1 =>
      rw [hm] at hx; cases hx
      exact h.errInv T env s hT hi hd e s' hm
    | fault y => rw [hm] at hx; cases hx
  agn T env env' s hT hT' hi hd he := by
    show P.bind m f env' s = P.bind m f env s
    unfold P.bind
    rw [h.agn T env env' s hT hT' hi hd he]
    cases hm : m env s with
    | ok a s1 =>
      obtain ⟨hr, hi1⟩ := (h.okIff T env s hT.1 hi hd a s1).1 hm
      exact (hf a _ _ hd hr).agn T env env' s1 hT hT' hi1 (Nat.le_refl _) he
    | err e s1 => rfl
    | fault y => rfl

/-- Sequencing when the continuation is specified for all shorter inputs. -/
theorem bind' {m : P α} {f : α → P β} {R : PRel α} {R' : α → PRel β}
    (h : PSpec N m R) (hf : ∀ a, PSpec N (f a) (R' a)) :
    PSpec N (m >>= f) (fun b d d'' => ∃ a d', R a d d' ∧ R' a b d' d'') :=
  h.bind fun a d d' hd hr => (hf a).mono (by have := (h.suffix a d d' hd hr).length_le; omega)

theorem wrap {m : P α} {R : PRel α} (sec : String) (h : PSpec N m R) :
    PSpec N (P.wrap sec m) R where
  suffix := h.suffix
  noFault T env s hT hi hd x := by
    unfold P.wrap
    intro hx
    cases hm : m env s with
    | ok a s1 => rw [hm] at hx; cases hx
    | err e s1 => rw [hm] at hx; cases hx
    | fault y => exact h.noFault T env s hT hi hd y hm
  okIff T env s hT hi hd b s' := by
    unfold P.wrap
    rw [← h.okIff T env s hT hi hd]
    cases m env s <;> simp
  errInv T env s hT hi hd e s' := by
    unfold P.wrap
    intro hx
    cases hm : m env s with
    | ok a s1 => rw [hm] at hx; cases hx
    | err e1 s1 =>
      rw [hm] at hx; cases hx
      have := h.errInv T env s hT hi hd e1 s' hm
      exact ⟨this.1, this.2.1, rfl, this.2.2⟩
    | fault y => rw [hm] at hx; cases hx
  agn T env env' s hT hT' hi hd he := by
    unfold P.wrap
    rw [h.agn T env env' s hT hT' hi hd he]

theorem fail (e : ParseError) (he : ∀ c, ErrAt c e) :
    PSpec N (P.fail e : P α) (fun _ _ _ => False) where
  suffix a d d' _ h := h.elim
  noFault T env s hT hi hd f h := by cases h
  okIff T env s hT hi hd a s' := by simp [P.fail]
  errInv T env s hT hi hd e' s' h := by
    cases h
    exact ⟨hi, List.suffix_refl _, he _⟩
  agn T env env' s hT hT' hi hd he := rfl

theorem addCol_col {T : Nat} {s : CoreSt} {env : Env} {n : Nat} (h : CoreInv env T s)
    (hn : n ≤ s.data.length) :
    s.col + i32OfNat n = BitVec.ofNat 32 (T - (s.data.length - n)) := by
  have hl := h.1
  rw [h.2.1, i32OfNat, ← BitVec.ofNat_add]
  congr 1
  omega

theorem addCol_ok {T : Nat} {s : CoreSt} {env : Env} {n : Nat}
    (h : CoreInv env T s) (hn : n ≤ s.data.length)
    (hb : env.checks = true → T - (s.data.length - n) < 2 ^ 31) :
    addCol env s.col n = some (BitVec.ofNat 32 (T - (s.data.length - n))) := by
  have hl := h.1
  unfold addCol
  simp only [addCol_col h hn]
  rw [if_neg]
  intro hc
  rw [Bool.and_eq_true] at hc
  obtain ⟨hc, hov⟩ := hc
  have hT := hb hc
  have h1 : s.col.toInt = (T - s.data.length : Nat) := by
    rw [h.2.1, BitVec.toInt_ofNat', Int.bmod_eq_of_le] <;> omega
  have h2 : (i32OfNat n).toInt = n := by
    rw [i32OfNat, BitVec.toInt_ofNat', Int.bmod_eq_of_le] <;> omega
  revert hov
  simp only [BitVec.saddOverflow, h1, h2]
  simp only [Bool.or_eq_true, decide_eq_true_eq, not_or, ge_iff_le, imp_false]
  omega

/-- The counter overflows when the position does. -/
theorem addCol_some {T : Nat} {s : CoreSt} {env : Env} {n : Nat} (hn' : n < 2 ^ 31)
    (h : CoreInv env T s) (hn : n ≤ s.data.length) {c : I32} (ha : addCol env s.col n = some c)
    (hc : env.checks = true) : T - (s.data.length - n) < 2 ^ 31 := by
  have hl := h.1
  have hT := h.2.2 hc
  unfold addCol at ha
  have h1 : s.col.toInt = (T - s.data.length : Nat) := by
    rw [h.2.1, BitVec.toInt_ofNat', Int.bmod_eq_of_le] <;> omega
  have h2 : (i32OfNat n).toInt = n := by
    rw [i32OfNat, BitVec.toInt_ofNat', Int.bmod_eq_of_le] <;> omega
  simp only [hc, Bool.true_and, BitVec.saddOverflow, h1, h2] at ha
  split at ha
  · cases ha
  · rename_i h3
    simp only [Bool.or_eq_true, decide_eq_true_eq, not_or, ge_iff_le] at h3
    omega

/-- `takeData` of a size that fits in an `i32`, or of more than there is. -/
theorem takeData (n : Nat) (hn : n < 2 ^ 31 ∨ N < n) : PSpec N (Boxcars.takeData n)
    (fun a d d' => d = a ++ d' ∧ a.length = n) where
  suffix a d d' _ h := by rw [h.1]; exact List.suffix_append a d'
  noFault T env s hT hi hd f := by
    unfold Boxcars.takeData
    split
    · rename_i hn
      rw [addCol_ok hi hn (fun hc => by have := hT.2 hc; omega)]; simp
    · simp
  okIff T env s hT hi hd a s' := by
    unfold Boxcars.takeData
    split
    · rename_i hle
      have hn : n < 2 ^ 31 := by omega
      constructor
      · intro h
        cases hc : addCol env s.col n with
        | none => rw [hc] at h; cases h
        | some c =>
          have hb := addCol_some hn hi hle hc
          rw [addCol_ok hi hle hb] at h
          cases h
          refine ⟨⟨(List.take_append_drop _ _).symm, by simp [hle]⟩, ?_, ?_, ?_⟩
          · have := hi.1; simp only [List.length_drop]; omega
          · simp only [List.length_drop]
          · simpa only [List.length_drop] using hb
      · rintro ⟨⟨h1, h2⟩, hi'⟩
        have e1 : s.data.take n = a := by rw [h1, ← h2, List.take_left]
        have e2 : s.data.drop n = s'.data := by rw [h1, ← h2, List.drop_left]
        have hl : s'.data.length = s.data.length - n := by rw [← e2, List.length_drop]
        rw [addCol_ok hi hle (by rw [← hl]; exact hi'.2.2), e1, e2, ← hl, ← hi'.2.1]
    · rename_i hn
      simp only [false_iff, reduceCtorEq]
      rintro ⟨⟨h1, h2⟩, _⟩
      apply hn
      rw [h1, List.length_append]; omega
  errInv T env s hT hi hd e s' h := by
    unfold Boxcars.takeData at h
    split at h
    · split at h <;> cases h
    · cases h
      exact ⟨hi, List.suffix_refl _, trivial⟩
  agn T env env' s hT hT' hi hd he := by
    unfold Boxcars.takeData
    split
    · rename_i hn
      have hi' : CoreInv env' T s := ⟨hi.1, hi.2.1, fun hc => by have := hT'.2 hc; omega⟩
      rw [addCol_ok hi hn (fun hc => by have := hT.2 hc; omega),
        addCol_ok hi' hn (fun hc => by have := hT'.2 hc; omega)]
    · rfl

end PSpec
end Boxcars
