import Verif.Model.Header
import Verif.Model.Body
import Verif.Proofs.PSpec
import Verif.Proofs.Text
import Verif.Spec.File
/-!
# The byte parser accepts exactly the file grammar
-/
namespace Boxcars
open Spec

/-- A grammar as a relation between the unread bytes before and after. -/
def ofG {α : Type} (g : α → Bytes → Prop) : PRel α :=
  fun a d d' => ∃ bs, g a bs ∧ d = bs ++ d'

namespace PSpec

variable {α β : Type} {N : Nat}

theorem congrG {m : P α} {g g' : α → Bytes → Prop} (h : PSpec N m (ofG g))
    (hg : ∀ a bs, g a bs ↔ g' a bs) : PSpec N m (ofG g') :=
  h.congr fun a d d' _ => by simp only [ofG, hg]

theorem seq {m : P α} {f : α → P β} {g : α → Bytes → Prop} {g' : α → β → Bytes → Prop}
    (h : PSpec N m (ofG g))
    (hf : ∀ a bs, bs.length ≤ N → g a bs → PSpec (N - bs.length) (f a) (ofG (g' a))) :
    PSpec N (m >>= f) (ofG fun b bs => ∃ a b1 b2, g a b1 ∧ g' a b b2 ∧ bs = b1 ++ b2) := by
  refine (h.bind (R' := fun a => ofG (g' a)) ?_).congr ?_
  · rintro a d d' hd ⟨bs, hg, rfl⟩
    rw [List.length_append] at hd
    exact (hf a bs (by omega) hg).mono (by omega)
  · intro b d d'' _
    constructor
    · rintro ⟨a, d', ⟨b1, h1, rfl⟩, b2, h2, rfl⟩
      exact ⟨b1 ++ b2, ⟨a, b1, b2, h1, h2, rfl⟩, (List.append_assoc ..).symm⟩
    · rintro ⟨_, ⟨a, b1, b2, h1, h2, rfl⟩, rfl⟩
      exact ⟨a, b2 ++ d'', ⟨b1, h1, List.append_assoc ..⟩, b2, h2, rfl⟩

theorem seq' {m : P α} {f : α → P β} {g : α → Bytes → Prop} {g' : α → β → Bytes → Prop}
    (h : PSpec N m (ofG g)) (hf : ∀ a, PSpec N (f a) (ofG (g' a))) :
    PSpec N (m >>= f) (ofG fun b bs => ∃ a b1 b2, g a b1 ∧ g' a b b2 ∧ bs = b1 ++ b2) :=
  h.seq fun a _ _ _ => (hf a).mono (Nat.sub_le _ _)

theorem pureG (a : α) : PSpec N (Pure.pure a : P α) (ofG fun b bs => b = a ∧ bs = []) :=
  (PSpec.pure a).congr fun b d d' _ => by
    constructor
    · rintro ⟨rfl, rfl⟩; exact ⟨[], ⟨rfl, rfl⟩, rfl⟩
    · rintro ⟨_, ⟨rfl, rfl⟩, rfl⟩; exact ⟨rfl, rfl⟩

theorem failG (e : ParseError) (he : ∀ c, ErrAt c e) :
    PSpec N (P.fail e : P α) (ofG fun _ _ => False) :=
  (PSpec.fail e he).congr fun b d d' _ => by simp [ofG]

theorem mapG {m : P α} {g : α → Bytes → Prop} (f : α → β) (h : PSpec N m (ofG g)) :
    PSpec N (f <$> m) (ofG fun b bs => ∃ a, g a bs ∧ b = f a) := by
  have : (f <$> m) = (m >>= fun a => Pure.pure (f a)) := rfl
  rw [this]
  refine (h.seq' fun a => pureG (f a)).congrG fun b bs => ?_
  constructor
  · rintro ⟨a, b1, b2, h1, ⟨rfl, rfl⟩, rfl⟩
    exact ⟨a, by rwa [List.append_nil], rfl⟩
  · rintro ⟨a, h1, rfl⟩
    exact ⟨a, bs, [], h1, ⟨rfl, rfl⟩, (List.append_nil _).symm⟩

theorem takeDataG (n : Nat) (hn : n < 2 ^ 31 ∨ N < n) :
    PSpec N (Boxcars.takeData n) (ofG fun a bs => a = bs ∧ bs.length = n) :=
  (PSpec.takeData n hn).congr fun a d d' _ => by
    constructor
    · rintro ⟨h1, h2⟩; exact ⟨a, ⟨rfl, h2⟩, h1⟩
    · rintro ⟨_, ⟨rfl, h2⟩, h1⟩; exact ⟨h1, h2⟩

theorem usizeOfI32_nonneg (env : Env) (x : I32) (h : 0 ≤ x.toInt) :
    env.usizeOfI32 x = x.toNat := by
  unfold Env.usizeOfI32; rw [if_neg (by omega)]

theorem usizeOfI32_neg (env : Env) (x : I32) (h : x.toInt < 0) :
    2 ^ 31 ≤ env.usizeOfI32 x := by
  unfold Env.usizeOfI32
  rw [if_pos h]
  have h1 := BitVec.le_toInt x
  have h2 : 2 ^ 32 ≤ 2 ^ env.usizeBits := by
    rcases env.usizeBits_eq with h | h <;> rw [h] <;> decide
  have h3 : x.toInt.natAbs ≤ 2 ^ 31 := by
    simp only [Nat.reduceSub] at h1
    have : (2:Int)^31 = 2147483648 := rfl
    omega
  omega

/-- A negative size becomes larger than any slice. -/
theorem usizeOfI32_big (env : Env) (x : I32) (h : x.toInt < 0) :
    env.isizeMax < env.usizeOfI32 x := by
  unfold Env.usizeOfI32 Env.isizeMax
  rw [if_pos h]
  have h1 := BitVec.le_toInt x
  have h3 : x.toInt.natAbs ≤ 2 ^ 31 := by
    simp only [Nat.reduceSub] at h1
    have : (2:Int)^31 = 2147483648 := rfl
    omega
  rcases env.usizeBits_eq with h | h <;> rw [h] <;> simp only [Nat.reduceSub, Nat.reducePow] <;>
    omega

theorem toNat_lt_of_nonneg {x : I32} (h : 0 ≤ x.toInt) : x.toNat < 2 ^ 31 := by
  have := x.isLt
  rw [BitVec.toInt_eq_toNat_cond] at h
  split at h <;> omega

theorem usize_cases (env : Env) (x : I32) {M : Nat} (hM : M ≤ env.isizeMax) :
    env.usizeOfI32 x < 2 ^ 31 ∨ M < env.usizeOfI32 x := by
  by_cases hx : 0 ≤ x.toInt
  · left; rw [usizeOfI32_nonneg env x hx]; exact toNat_lt_of_nonneg hx
  · right; have := usizeOfI32_big env x (by omega); omega

/-- A size field used as `usize`: a negative one becomes at least `2^31`, more than
any remaining input. -/
theorem usize {f : Nat → P β} {R : Nat → PRel β} (x : I32)
    (h : ∀ n M, M ≤ N → (n < 2 ^ 31 ∨ M < n) → PSpec M (f n) (R n))
    (hbig : ∀ n, 2 ^ 31 ≤ n → ∀ a d d', d.length < n → ¬ R n a d d') :
    PSpec N (P.usize x >>= f) (fun a d d' => 0 ≤ x.toInt ∧ R x.toNat a d d') where
  suffix a d d' hd hr :=
    (h x.toNat N (Nat.le_refl _) (.inl (toNat_lt_of_nonneg hr.1))).suffix a d d' hd hr.2
  noFault T env s hT hi hd := (h (env.usizeOfI32 x) s.data.length hd
    (usize_cases env x (Nat.le_trans hi.1 hT.1))).noFault T env s hT hi (Nat.le_refl _)
  okIff T env s hT hi hd a s' := by
    show f (env.usizeOfI32 x) env s = _ ↔ _
    rw [(h (env.usizeOfI32 x) s.data.length hd
      (usize_cases env x (Nat.le_trans hi.1 hT))).okIff T env s hT hi (Nat.le_refl _)]
    by_cases hx : 0 ≤ x.toInt
    · rw [usizeOfI32_nonneg env x hx]
      simp only [hx, true_and]
    · constructor
      · rintro ⟨hr, _⟩
        have := usizeOfI32_big env x (by omega)
        exact (hbig _ (usizeOfI32_neg env x (by omega)) a _ _ (by have := hi.1; omega) hr).elim
      · rintro ⟨⟨h0, _⟩, _⟩; exact (hx h0).elim
  errInv T env s hT hi hd := (h (env.usizeOfI32 x) s.data.length hd
    (usize_cases env x (Nat.le_trans hi.1 hT))).errInv T env s hT hi (Nat.le_refl _)
  agn T env env' s hT hT' hi hd he := by
    show f (env'.usizeOfI32 x) env' s = f (env.usizeOfI32 x) env s
    have : env'.usizeOfI32 x = env.usizeOfI32 x := by unfold Env.usizeOfI32; rw [he]
    rw [this]
    exact (h _ s.data.length hd (usize_cases env x (Nat.le_trans hi.1 hT.1))).agn T env env' s hT hT'
      hi (Nat.le_refl _) he

theorem usizeG {f : Nat → P β} {g : Nat → β → Bytes → Prop} (x : I32)
    (h : ∀ n M, M ≤ N → (n < 2 ^ 31 ∨ M < n) → PSpec M (f n) (ofG (g n)))
    (hbig : ∀ n, 2 ^ 31 ≤ n → ∀ a bs, bs.length < n → ¬ g n a bs) :
    PSpec N (P.usize x >>= f) (ofG fun a bs => 0 ≤ x.toInt ∧ g x.toNat a bs) := by
  refine (PSpec.usize x h ?_).congr ?_
  · rintro n hn a d d' hd ⟨bs, hg, rfl⟩
    exact hbig n hn a bs (by rw [List.length_append] at hd; omega) hg
  · intro a d d' _
    constructor
    · rintro ⟨h0, bs, hg, rfl⟩; exact ⟨bs, ⟨h0, hg⟩, rfl⟩
    · rintro ⟨bs, ⟨h0, hg⟩, rfl⟩; exact ⟨h0, bs, hg, rfl⟩

end PSpec

/-! ## Little-endian numbers -/

theorem le_length (k n : Nat) : (le k n).length = k := by
  induction k generalizing n with
  | zero => rfl
  | succ k ih => simp [le, ih]

theorem leNat_le (k n : Nat) : leNat (le k n) = n % 256 ^ k := by
  induction k generalizing n with
  | zero => simp [le, leNat, Nat.mod_one]
  | succ k ih =>
    rw [le, leNat, ih, BitVec.toNat_ofNat, Nat.pow_succ' (m := 256), Nat.mod_mul]

theorem le_leNat (bs : List Byte) : le bs.length (leNat bs) = bs := by
  induction bs with
  | nil => rfl
  | cons b bs ih =>
    have hb := b.isLt
    have h1 : leNat (b :: bs) / 256 = leNat bs := by rw [leNat]; omega
    rw [List.length_cons, le, h1, ih]
    congr 1
    apply BitVec.eq_of_toNat_eq
    rw [leNat, BitVec.toNat_ofNat]
    omega

theorem leNat_lt (bs : List Byte) : leNat bs < 256 ^ bs.length := by
  induction bs with
  | nil => simp [leNat]
  | cons b bs ih =>
    rw [leNat, List.length_cons, Nat.pow_succ']
    have := b.isLt
    omega

@[simp] theorem word_length (x : BitVec 32) : (word x).length = 4 := le_length 4 _
@[simp] theorem dword_length (x : BitVec 64) : (dword x).length = 8 := le_length 8 _

theorem word_leNat (bs : Bytes) (h : bs.length = 4) : word (BitVec.ofNat 32 (leNat bs)) = bs := by
  have hl := leNat_lt bs
  rw [h] at hl
  have : (BitVec.ofNat 32 (leNat bs)).toNat = leNat bs := by
    rw [BitVec.toNat_ofNat]; exact Nat.mod_eq_of_lt hl
  rw [word, this, ← h, le_leNat]

theorem leNat_word (x : BitVec 32) : BitVec.ofNat 32 (leNat (word x)) = x := by
  apply BitVec.eq_of_toNat_eq
  rw [word, leNat_le, BitVec.toNat_ofNat]
  have := x.isLt
  omega

theorem dword_leNat (bs : Bytes) (h : bs.length = 8) : dword (BitVec.ofNat 64 (leNat bs)) = bs := by
  have hl := leNat_lt bs
  rw [h] at hl
  have : (BitVec.ofNat 64 (leNat bs)).toNat = leNat bs := by
    rw [BitVec.toNat_ofNat]; exact Nat.mod_eq_of_lt hl
  rw [dword, this, ← h, le_leNat]

theorem leNat_dword (x : BitVec 64) : BitVec.ofNat 64 (leNat (dword x)) = x := by
  apply BitVec.eq_of_toNat_eq
  rw [dword, leNat_le, BitVec.toNat_ofNat]
  have := x.isLt
  omega

theorem word_injective {x y : BitVec 32} (h : word x = word y) : x = y := by
  rw [← leNat_word x, h, leNat_word]

theorem word_iff (bs : Bytes) (x : BitVec 32) :
    (bs.length = 4 ∧ x = BitVec.ofNat 32 (leNat bs)) ↔ bs = word x := by
  constructor
  · rintro ⟨h, rfl⟩; exact (word_leNat bs h).symm
  · rintro rfl; exact ⟨word_length x, (leNat_word x).symm⟩

/-! ## Parsers of `src/core_parser.rs` -/

variable {N : Nat}

theorem take32_spec : PSpec N take32 (ofG fun x bs => bs = word x) := by
  unfold take32 take
  refine ((PSpec.takeDataG 4 (.inl (by decide))).seq' fun bs => PSpec.pureG _).congrG fun x bs => ?_
  rw [← word_iff]
  constructor
  · rintro ⟨a, b1, b2, ⟨rfl, h⟩, ⟨rfl, rfl⟩, rfl⟩
    rw [List.append_nil]; exact ⟨h, rfl⟩
  · rintro ⟨h, rfl⟩
    exact ⟨bs, bs, [], ⟨rfl, h⟩, ⟨rfl, rfl⟩, (List.append_nil _).symm⟩

theorem take64_spec : PSpec N take64 (ofG fun x bs => bs = dword x) := by
  unfold take64 take
  refine ((PSpec.takeDataG 8 (.inl (by decide))).seq' fun bs => PSpec.pureG _).congrG fun x bs => ?_
  constructor
  · rintro ⟨a, b1, b2, ⟨rfl, h⟩, ⟨rfl, rfl⟩, rfl⟩
    rw [List.append_nil, dword_leNat _ h]
  · rintro rfl
    exact ⟨_, _, [], ⟨rfl, dword_length x⟩, ⟨(leNat_dword x).symm, rfl⟩, (List.append_nil _).symm⟩

theorem takeI32_spec (sec : String) : PSpec N (takeI32 sec) (ofG fun x bs => bs = word x) :=
  take32_spec.wrap sec

theorem replicateP_spec {α : Type} {f : P α} {g : α → Bytes → Prop} (n : Nat)
    (h : PSpec N f (ofG g)) :
    PSpec N (replicateP n f) (ofG fun xs bs => xs.length = n ∧ Concat g xs bs) := by
  induction n with
  | zero =>
    refine (PSpec.pureG []).congrG fun xs bs => ?_
    constructor
    · rintro ⟨rfl, rfl⟩; exact ⟨rfl, .nil⟩
    · rintro ⟨h, hc⟩
      cases hc with
      | nil => exact ⟨rfl, rfl⟩
      | cons => cases h
  | succ n ih =>
    rw [replicateP]
    refine (h.seq' fun a => ih.seq' fun rest => PSpec.pureG _).congrG fun xs bs => ?_
    constructor
    · rintro ⟨a, b1, b2, h1, ⟨rest, b3, b4, ⟨h2, h3⟩, ⟨rfl, rfl⟩, rfl⟩, rfl⟩
      rw [List.append_nil]
      exact ⟨by rw [List.length_cons, h2], .cons h1 h3⟩
    · rintro ⟨hl, hc⟩
      cases hc with
      | nil => cases hl
      | @cons x xs b bs h1 h2 =>
        exact ⟨x, b, bs, h1, ⟨xs, bs, [], ⟨by simpa using hl, h2⟩, ⟨rfl, rfl⟩,
          (List.append_nil _).symm⟩, rfl⟩

theorem repeatP_spec {α : Type} {f : P α} {g : α → Bytes → Prop} (n : Nat)
    (h : PSpec N f (ofG g)) :
    PSpec N (repeatP n f) (ofG fun xs bs => n ≤ 25000 ∧ xs.length = n ∧ Concat g xs bs) := by
  unfold repeatP
  split
  · rename_i hn
    refine (PSpec.failG _ fun _ => by trivial).congrG fun xs bs => ?_
    constructor
    · exact False.elim
    · rintro ⟨h, _⟩; omega
  · rename_i hn
    refine (replicateP_spec n h).congrG fun xs bs => ?_
    constructor
    · rintro ⟨h1, h2⟩; exact ⟨by omega, h1, h2⟩
    · rintro ⟨_, h1, h2⟩; exact ⟨h1, h2⟩

theorem size_iff (x : BitVec 32) (n : Nat) (hn : n < 2 ^ 31) :
    (0 ≤ x.toInt ∧ n = x.toNat) ↔ x = BitVec.ofNat 32 n := by
  constructor
  · rintro ⟨_, rfl⟩; simp
  · rintro rfl
    have : (BitVec.ofNat 32 n).toNat = n := by rw [BitVec.toNat_ofNat]; omega
    refine ⟨?_, this.symm⟩
    rw [BitVec.toInt_eq_toNat_cond, this]; split <;> omega

theorem listOf_spec {α : Type} {f : P α} {g : α → Bytes → Prop} (h : PSpec N f (ofG g)) :
    PSpec N (listOf f) (ofG (ListField g)) := by
  unfold listOf
  refine (take32_spec.seq' fun size =>
    PSpec.usizeG size (fun n _ hM _ => repeatP_spec n (h.mono hM)) ?_).congrG fun xs bs => ?_
  · rintro n hn xs bs _ ⟨h1, _⟩; omega
  · unfold ListField
    constructor
    · rintro ⟨x, b1, b2, rfl, ⟨h0, h1, h2, h3⟩, rfl⟩
      rw [← h2] at h1
      refine ⟨b2, h1, h3, ?_⟩
      rw [(size_iff x xs.length (by omega)).1 ⟨h0, h2⟩]
    · rintro ⟨body, h1, h2, rfl⟩
      have := (size_iff (BitVec.ofNat 32 xs.length) xs.length (by omega)).2 rfl
      exact ⟨_, _, body, rfl, ⟨this.1, by omega, this.2, h2⟩, rfl⟩

theorem take_dropLast {α : Type} (bs : List α) (last : α) :
    (bs ++ [last]).take ((bs ++ [last]).length - 1) = bs := by simp

theorem decodeStr_iff (bs : List Byte) (s : Str) :
    decodeStr bs = .ok s ↔ (s = [] ∧ bs = []) ∨ ∃ last, bs = utf8 s ++ [last] := by
  unfold decodeStr
  rw [utf8Decode_iff]
  rcases List.eq_nil_or_concat bs with rfl | ⟨b, last, rfl⟩
  · simp only [List.length_nil, List.take_nil, and_true]
    constructor
    · intro h
      left
      cases s with
      | nil => rfl
      | cons c s =>
        have := congrArg List.length h
        rw [utf8, List.flatMap_cons, List.length_append, utf8Char_eq] at this
        simp only [List.length_nil] at this
        split at this
        · simp only [List.length_cons] at this; omega
        · split at this
          · simp only [List.length_cons] at this; omega
          · split at this <;> (simp only [List.length_cons] at this; omega)
    · rintro (rfl | ⟨last, h⟩)
      · rfl
      · exact absurd h.symm (by simp)
  · simp only [List.concat_eq_append] at *
    rw [take_dropLast]
    simp

theorem parseStr_spec : PSpec N parseStr (ofG StrField) := by
  unfold parseStr
  have hd : ∀ bs : List Byte, PSpec N
      (match decodeStr bs with
        | .ok s => Pure.pure s
        | .error e => P.fail (.utf8Error e) : P Str)
      (ofG fun s b => decodeStr bs = .ok s ∧ b = []) := by
    intro bs
    cases h : decodeStr bs with
    | ok s =>
      refine (PSpec.pureG s).congrG fun a b => ?_
      simp only [Except.ok.injEq]
      constructor <;> rintro ⟨rfl, rfl⟩ <;> exact ⟨rfl, rfl⟩
    | error e =>
      refine (PSpec.failG _ fun _ => by trivial).congrG fun a b => ?_
      simp
  refine (take32_spec.seq' fun size =>
    PSpec.usizeG size (fun n _ hM hn => (PSpec.takeDataG n hn).seq' fun bs => (hd bs).mono hM) ?_).congrG fun s bs => ?_
  · rintro n hn s bs hb ⟨a, b1, b2, ⟨rfl, h1⟩, ⟨h2, rfl⟩, rfl⟩
    rw [List.append_nil] at hb
    omega
  · constructor
    · rintro ⟨x, b1, b2, rfl, ⟨h0, a, b3, b4, ⟨rfl, h1⟩, ⟨h2, rfl⟩, rfl⟩, rfl⟩
      rw [List.append_nil]
      rw [decodeStr_iff] at h2
      have hlt : a.length < 2 ^ 31 := by
        have := x.isLt
        rw [BitVec.toInt_eq_toNat_cond] at h0
        split at h0 <;> omega
      have hx := (size_iff x a.length hlt).1 ⟨h0, h1⟩
      rcases h2 with ⟨rfl, rfl⟩ | ⟨last, rfl⟩
      · left
        refine ⟨rfl, ?_⟩
        rw [hx]; rfl
      · right
        refine ⟨last, by simpa using hlt, ?_⟩
        rw [hx]; simp
    · rintro (⟨rfl, rfl⟩ | ⟨last, hl, rfl⟩)
      · exact ⟨0, _, [], rfl, ⟨by decide, [], [], [], ⟨rfl, rfl⟩, ⟨rfl, rfl⟩, rfl⟩,
          (List.append_nil _).symm⟩
      · have := (size_iff (BitVec.ofNat 32 ((utf8 s).length + 1)) _ hl).2 rfl
        refine ⟨_, _, utf8 s ++ [last], rfl, ⟨this.1, utf8 s ++ [last], utf8 s ++ [last], [],
          ⟨rfl, ?_⟩, ⟨?_, rfl⟩, (List.append_nil _).symm⟩, rfl⟩
        · rw [← this.2]; simp
        · rw [decodeStr_iff]; exact .inr ⟨last, rfl⟩

theorem decodeWindows1252_iff (bs : List Byte) (s : Str) :
    s = decodeWindows1252 bs ↔
      (s = [] ∧ bs = []) ∨ ∃ body last, bs = body ++ [last] ∧ IsCp1252 s body := by
  unfold decodeWindows1252
  rcases List.eq_nil_or_concat bs with rfl | ⟨b, last, rfl⟩
  · simp
  · simp only [List.concat_eq_append] at *
    rw [take_dropLast]
    constructor
    · intro h
      exact .inr ⟨b, last, rfl, (isCp1252_iff s b).2 h⟩
    · rintro (⟨_, h⟩ | ⟨body, l, h, hs⟩)
      · exact absurd h (by simp)
      · obtain ⟨rfl, _⟩ := List.append_inj' h rfl
        exact (isCp1252_iff s b).1 hs

theorem flatMap_le2_length (us : List (BitVec 16)) :
    (us.flatMap (fun u => le 2 u.toNat)).length = 2 * us.length := by
  induction us with
  | nil => rfl
  | cons u us ih => rw [List.flatMap_cons, List.length_append, ih, le_length, List.length_cons]; omega

theorem decodeUtf16_units (us : List (BitVec 16)) (last : BitVec 16) :
    decodeUtf16 ((us ++ [last]).flatMap (fun u => le 2 u.toNat)) = utf16Decode (us.map BitVec.toNat) := by
  unfold decodeUtf16
  rw [List.flatMap_append, List.length_append, flatMap_le2_length, flatMap_le2_length,
    List.take_left' (by rw [flatMap_le2_length]; rfl), utf16Units_le]

theorem parseText_spec : PSpec N parseText (ofG TextField) := by
  unfold parseText
  have hneg : ∀ c : I32, -10000 ≤ c.toInt → PSpec N
      (do let bs ← takeData (c.toInt * -2).toNat; Pure.pure (decodeUtf16 bs) : P Str)
      (ofG fun s b => b.length = (c.toInt * -2).toNat ∧ s = decodeUtf16 b) := by
    intro c hc
    refine ((PSpec.takeDataG _ (.inl (by omega))).seq' fun bs => PSpec.pureG _).congrG fun s b => ?_
    constructor
    · rintro ⟨_, _, _, ⟨rfl, h⟩, ⟨rfl, rfl⟩, rfl⟩
      rw [List.append_nil]; exact ⟨h, rfl⟩
    · rintro ⟨h, rfl⟩
      exact ⟨b, b, [], ⟨rfl, h⟩, ⟨rfl, rfl⟩, (List.append_nil _).symm⟩
  have hpos : ∀ c : I32, PSpec N
      (do let bs ← takeData c.toInt.toNat; Pure.pure (decodeWindows1252 bs) : P Str)
      (ofG fun s b => b.length = c.toInt.toNat ∧ s = decodeWindows1252 b) := by
    intro c
    refine ((PSpec.takeDataG _ (.inl (by have := BitVec.toInt_lt (x := c); omega))).seq' fun bs => PSpec.pureG _).congrG fun s b => ?_
    constructor
    · rintro ⟨_, _, _, ⟨rfl, h⟩, ⟨rfl, rfl⟩, rfl⟩
      rw [List.append_nil]; exact ⟨h, rfl⟩
    · rintro ⟨h, rfl⟩
      exact ⟨b, b, [], ⟨rfl, h⟩, ⟨rfl, rfl⟩, (List.append_nil _).symm⟩
  have hall : ∀ c : I32, PSpec N
      (if c.toInt < -10000 ∨ 10000 < c.toInt then
        P.fail (.textTooLarge c)
      else if c.toInt < 0 then do
        let bs ← takeData (c.toInt * -2).toNat
        Pure.pure (decodeUtf16 bs)
      else do
        let bs ← takeData c.toInt.toNat
        Pure.pure (decodeWindows1252 bs) : P Str)
      (ofG fun s b =>
        (-10000 ≤ c.toInt ∧ c.toInt < 0 ∧ b.length = (c.toInt * -2).toNat ∧ s = decodeUtf16 b) ∨
        (0 ≤ c.toInt ∧ c.toInt ≤ 10000 ∧ b.length = c.toInt.toNat ∧ s = decodeWindows1252 b)) := by
    intro c
    split
    · rename_i h
      refine (PSpec.failG _ fun _ => by trivial).congrG fun s b => ?_
      constructor
      · exact False.elim
      · rintro (⟨h1, h2, _⟩ | ⟨h1, h2, _⟩) <;> omega
    · rename_i h
      split
      · rename_i h'
        refine (hneg c (by omega)).congrG fun s b => ?_
        constructor
        · rintro h1; exact .inl ⟨by omega, h', h1⟩
        · rintro (⟨_, _, h1⟩ | ⟨h1, h2, _⟩)
          · exact h1
          · omega
      · rename_i h'
        refine (hpos c).congrG fun s b => ?_
        constructor
        · rintro h1; exact .inr ⟨by omega, by omega, h1⟩
        · rintro (⟨h1, h2, _⟩ | ⟨_, _, h1⟩)
          · omega
          · exact h1
  refine (take32_spec.seq' hall).congrG fun s bs => ?_
  unfold TextField
  constructor
  · rintro ⟨c, b1, b2, rfl, h, rfl⟩
    rcases h with ⟨h1, h2, h3, h4⟩ | ⟨h1, h2, h3, h4⟩
    · right; right
      obtain ⟨us, hl, rfl⟩ := exists_units c.toInt.natAbs b2 (by omega)
      rcases List.eq_nil_or_concat us with rfl | ⟨u, last, rfl⟩
      · simp only [List.length_nil] at hl; omega
      · simp only [List.concat_eq_append] at *
        rw [decodeUtf16_units] at h4
        simp only [List.length_append, List.length_cons, List.length_nil] at hl
        refine ⟨u, last, by omega, (utf16Decode_iff _ _).1 h4.symm, ?_⟩
        have : c = -(BitVec.ofNat 32 (u.length + 1)) := by
          apply BitVec.eq_of_toInt_eq
          have hu : (BitVec.ofNat 32 (u.length + 1)).toInt = u.length + 1 := by
            rw [BitVec.toInt_ofNat', Int.bmod_eq_of_le] <;> omega
          rw [BitVec.toInt_neg, hu, Int.bmod_eq_of_le] <;> omega
        rw [← this]
    · rw [decodeWindows1252_iff] at h4
      rcases h4 with ⟨rfl, rfl⟩ | ⟨body, last, rfl, hs⟩
      · left
        refine ⟨rfl, ?_⟩
        have : c = 0 := by
          apply BitVec.eq_of_toInt_eq
          simp only [List.length_nil] at h3
          rw [show (0 : BitVec 32).toInt = 0 by decide]
          omega
        rw [this]; simp
      · right; left
        simp only [List.length_append, List.length_cons, List.length_nil] at h3
        refine ⟨body, last, by omega, hs, ?_⟩
        have : c = BitVec.ofNat 32 (body.length + 1) := by
          apply BitVec.eq_of_toInt_eq
          rw [BitVec.toInt_ofNat', Int.bmod_eq_of_le] <;> omega
        rw [← this]
  · rintro (⟨rfl, rfl⟩ | ⟨body, last, hl, hs, rfl⟩ | ⟨us, last, hl, hs, rfl⟩)
    · refine ⟨0, _, [], rfl, .inr ⟨by decide, by decide, by simp, rfl⟩, (List.append_nil _).symm⟩
    · have hu : (BitVec.ofNat 32 (body.length + 1)).toInt = body.length + 1 := by
        rw [BitVec.toInt_ofNat', Int.bmod_eq_of_le] <;> omega
      refine ⟨_, _, body ++ [last], rfl, .inr ⟨by omega, by omega, ?_, ?_⟩, rfl⟩
      · rw [hu]; simp
      · rw [decodeWindows1252_iff]; exact .inr ⟨body, last, rfl, hs⟩
    · have hu : (BitVec.ofNat 32 (us.length + 1)).toInt = us.length + 1 := by
        rw [BitVec.toInt_ofNat', Int.bmod_eq_of_le] <;> omega
      have hu' : (-(BitVec.ofNat 32 (us.length + 1))).toInt = -(us.length + 1) := by
        rw [BitVec.toInt_neg, hu, Int.bmod_eq_of_le] <;> omega
      refine ⟨_, _, _, rfl, .inl ⟨by omega, by omega, ?_, ?_⟩, rfl⟩
      · rw [hu', flatMap_le2_length, List.length_append]
        simp only [List.length_cons, List.length_nil]
        omega
      · rw [decodeUtf16_units]; exact ((utf16Decode_iff _ _).2 hs).symm

theorem textList_spec : PSpec N textList (ofG (ListField TextField)) :=
  listOf_spec parseText_spec

end Boxcars
