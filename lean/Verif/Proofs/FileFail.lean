import Verif.Proofs.Replay
import Verif.Proofs.Run
import Verif.Proofs.Utf8
import Verif.Spec.FileFail
/-!
# The byte parser fails exactly as `Spec.FileFail` says
-/
namespace Boxcars
open Spec

/-- On states with at most `N` unread bytes of a file of `T` bytes, with `usize` of `W` bits,
`m` fails exactly as `F` says.  It goes together with a `PSpec`. -/
def PFail {α : Type} (T W N : Nat) (m : P α) (F : Fail) : Prop :=
  ∀ env s, env.usizeBits = W → Room env T → CoreInv env T s → s.data.length ≤ N →
    ∀ e d', m env s = .err e (at_ T d') ↔ F e s.data d'

/-- `F`, or `g` is matched and `G` happens in what follows. -/
def Or2 {α : Type} (g : α → Bytes → Prop) (F : Fail) (G : α → Fail) : Fail :=
  fun e d d' => F e d d' ∨ ∃ a b i, g a b ∧ d = b ++ i ∧ G a e i d'

theorem or2_then {α : Type} (g : α → Bytes → Prop) (F G : Fail) (e : ParseError) (d d' : Bytes) :
    Or2 g F (fun _ => G) e d d' ↔ Then g F G e d d' := by
  constructor
  · rintro (h | ⟨a, b, i, h1, rfl, h2⟩)
    · exact .first h
    · exact .second h1 h2
  · intro h
    cases h with
    | first h => exact .inl h
    | second h1 h2 => exact .inr ⟨_, _, _, h1, rfl, h2⟩

namespace PFail

variable {α β : Type} {T W N : Nat} {m : P α} {F : Fail}

theorem mono {N' : Nat} (h : PFail T W N m F) (hN : N' ≤ N) : PFail T W N' m F :=
  fun env s hw hT hi hd => h env s hw hT hi (by omega)

theorem congr {F' : Fail} (h : PFail T W N m F) (hF : ∀ e d d', F e d d' ↔ F' e d d') :
    PFail T W N m F' :=
  fun env s hw hT hi hd e d' => by rw [h env s hw hT hi hd, hF]

theorem seq {f : α → P β} {g : α → Bytes → Prop} {G : α → Fail}
    (hs : PSpec N m (ofG g)) (h : PFail T W N m F)
    (hf : ∀ a bs, bs.length ≤ N → g a bs → PFail T W (N - bs.length) (f a) (G a)) :
    PFail T W N (m >>= f) (Or2 g F G) := by
  intro env s hw hT hi hd e d'
  show P.bind m f env s = _ ↔ _
  unfold P.bind
  cases hm : m env s with
  | fault x => exact (hs.noFault T env s hT hi hd x hm).elim
  | err e1 s1 =>
    have h1 := h env s hw hT hi hd
    constructor
    · intro hx; cases hx; exact .inl ((h1 _ _).1 hm)
    · rintro (hx | ⟨a, b, i, hg, hdi, _⟩)
      · have := (h1 e d').2 hx
        rw [hm] at this; cases this; rfl
      · have := (hs.okIff T env s hT.1 hi hd a (at_ T i)).2 ⟨⟨b, hg, hdi⟩, hi.of_suffix hT (by
          rw [hdi]; exact List.suffix_append _ _)⟩
        rw [hm] at this; cases this
  | ok a s1 =>
    obtain ⟨⟨b, hg, hdi⟩, hi1⟩ := (hs.okIff T env s hT.1 hi hd a s1).1 hm
    have hl := congrArg List.length hdi
    rw [List.length_append] at hl
    have h2 := hf a b (by omega) hg env s1 hw hT hi1 (by omega) e d'
    constructor
    · intro hx; exact .inr ⟨a, b, s1.data, hg, hdi, h2.1 hx⟩
    · rintro (hx | ⟨a', b', i, hg', hdi', hG⟩)
      · have := (h env s hw hT hi hd e d').2 hx
        rw [hm] at this; cases this
      · have := (hs.okIff T env s hT.1 hi hd a' (at_ T i)).2 ⟨⟨b', hg', hdi'⟩, hi.of_suffix hT (by
          rw [hdi']; exact List.suffix_append _ _)⟩
        rw [hm] at this
        cases this
        exact h2.2 hG

theorem seq' {f : α → P β} {g : α → Bytes → Prop} {G : α → Fail}
    (hs : PSpec N m (ofG g)) (h : PFail T W N m F) (hf : ∀ a, PFail T W N (f a) (G a)) :
    PFail T W N (m >>= f) (Or2 g F G) :=
  seq hs h fun a _ _ _ => (hf a).mono (Nat.sub_le _ _)

theorem andThen {f : α → P β} {g : α → Bytes → Prop} {G : Fail}
    (hs : PSpec N m (ofG g)) (h : PFail T W N m F) (hf : ∀ a, PFail T W N (f a) G) :
    PFail T W N (m >>= f) (Then g F G) :=
  (seq' hs h hf).congr fun e d d' => or2_then g F G e d d'

theorem pure (a : α) : PFail T W N (Pure.pure a : P α) (fun _ _ _ => False) := by
  intro env s hw hT hi hd e d'
  constructor
  · intro h; cases h
  · exact False.elim

theorem map (f : α → β) (h : PFail T W N m F) : PFail T W N (m >>= fun a => Pure.pure (f a)) F := by
  intro env s hw hT hi hd e d'
  rw [← h env s hw hT hi hd]
  show P.bind m _ env s = _ ↔ _
  unfold P.bind
  cases m env s with
  | ok a s1 => constructor <;> (intro h; cases h)
  | err e1 s1 => constructor <;> (intro h; cases h; rfl)
  | fault x => constructor <;> (intro h; cases h)

theorem fmap (f : α → β) (h : PFail T W N m F) : PFail T W N (f <$> m) F := h.map f

theorem fail (e0 : ParseError) :
    PFail T W N (P.fail e0 : P α) (fun e d d' => e = e0 ∧ d' = d) := by
  intro env s hw hT hi hd e d'
  have : s = at_ T s.data := hi.eq_at
  show PRes.err e0 s = _ ↔ _
  constructor
  · intro h
    cases h
    exact ⟨rfl, rfl⟩
  · rintro ⟨rfl, rfl⟩
    rw [← this]

theorem named {sec : String} (h : PFail T W N m F) : PFail T W N (P.wrap sec m) (Named T sec F) := by
  intro env s hw hT hi hd e d'
  unfold P.wrap
  have h1 := h env s hw hT hi hd
  cases hm : m env s with
  | ok a s1 =>
    constructor
    · intro h; cases h
    · rintro ⟨hF⟩
      have := (h1 _ d').2 hF
      rw [hm] at this; cases this
  | fault x =>
    constructor
    · intro h; cases h
    · rintro ⟨hF⟩
      have := (h1 _ d').2 hF
      rw [hm] at this; cases this
  | err e1 s1 =>
    constructor
    · intro h
      cases h
      exact .mk ((h1 e1 d').1 hm)
    · rintro ⟨hF⟩
      have := (h1 _ d').2 hF
      rw [hm] at this
      cases this
      rfl

theorem takeData (n : Nat) : PFail T W N (Boxcars.takeData n) (Short n) := by
  intro env s hw hT hi hd e d'
  have hs : s = at_ T s.data := hi.eq_at
  unfold Boxcars.takeData
  split
  · rename_i hn
    rw [PSpec.addCol_ok hi hn (fun hc => by have := hT.2 hc; omega)]
    constructor
    · intro h; cases h
    · rintro ⟨h⟩; omega
  · rename_i hn
    constructor
    · intro h
      cases h
      exact .mk (by omega)
    · rintro ⟨h⟩
      rw [← hs]; rfl

end PFail

variable {T W N : Nat}

theorem asUsize_eq (env : Env) (x : I32) : asUsize env.usizeBits x = env.usizeOfI32 x := by
  unfold asUsize Env.usizeOfI32
  have h1 := BitVec.le_toInt x
  have h2 := BitVec.toInt_lt (x := x)
  have h3 : ((2 : Int) ^ env.usizeBits) = ((2 ^ env.usizeBits : Nat) : Int) := by push_cast; rfl
  have h4 : 2 ^ 32 ≤ 2 ^ env.usizeBits := by
    exact Nat.pow_le_pow_right (by decide) (by rcases env.usizeBits_eq with h | h <;> omega)
  rw [h3]
  generalize 2 ^ env.usizeBits = K at *
  simp only [Nat.reduceSub] at h1 h2
  have h5 : (2:Int)^31 = 2147483648 := rfl
  rw [h5] at h1 h2
  split
  · rename_i hx
    rw [← Int.add_emod_right, Int.emod_eq_of_lt (by omega) (by omega)]
    omega
  · rename_i hx
    rw [Int.emod_eq_of_lt (by omega) (by omega)]
    have : x.toInt = x.toNat := by
      rw [BitVec.toInt_eq_toNat_cond] at hx ⊢
      split at hx <;> omega
    omega

theorem ofNat_usizeOfI32 (env : Env) (x : I32) : BitVec.ofNat 32 (env.usizeOfI32 x) = x := by
  by_cases hx : x.toInt < 0
  · apply BitVec.eq_of_toNat_eq
    rw [BitVec.toNat_ofNat]
    unfold Env.usizeOfI32
    rw [if_pos hx]
    have hlt := x.isLt
    have h5 : (x.toInt.natAbs : Int) = 2 ^ 32 - x.toNat := by
      rw [BitVec.toInt_eq_toNat_cond] at hx ⊢
      split at hx <;> omega
    rcases env.usizeBits_eq with h | h <;> rw [h] <;> omega
  · rw [PSpec.usizeOfI32_nonneg env x (by omega)]
    simp

theorem lack_iff (env : Env) (x : I32) (d : Bytes) (hd : d.length ≤ env.isizeMax) :
    d.length < env.usizeOfI32 x ↔ ¬Fits x d.length := by
  unfold Fits
  by_cases hx : x.toInt < 0
  · have := PSpec.usizeOfI32_big env x hx
    constructor
    · intro _ h; omega
    · intro _; omega
  · rw [PSpec.usizeOfI32_nonneg env x (by omega)]
    omega

theorem short_lack (env : Env) (x : I32) (d d' : Bytes) (e : ParseError) (hd : d.length ≤ env.isizeMax) :
    Short (env.usizeOfI32 x) e d d' ↔ Lack x e d d' := by
  constructor
  · rintro ⟨h⟩
    rw [ofNat_usizeOfI32]
    exact .mk ((lack_iff env x d hd).1 h)
  · rintro ⟨h⟩
    have := Short.mk ((lack_iff env x d hd).2 h)
    rwa [ofNat_usizeOfI32] at this

/-- A size read from the file. -/
theorem PFail.usize {β : Type} {f : Nat → P β} {G : Nat → Fail} {F : Fail}
    (x : I32) (h : ∀ n M, M ≤ N → (n < 2 ^ 31 ∨ M < n) → PFail T W M (f n) (G n))
    (hG : ∀ env : Env, env.usizeBits = W → ∀ e d d', d.length ≤ env.isizeMax →
      (G (env.usizeOfI32 x) e d d' ↔ F e d d')) :
    PFail T W N (P.usize x >>= f) F := by
  intro env s hw hT hi hd e d'
  show f (env.usizeOfI32 x) env s = _ ↔ _
  rw [h _ s.data.length hd (PSpec.usize_cases env x (Nat.le_trans hi.1 hT.1)) env s hw hT hi
    (Nat.le_refl _), hG env hw _ _ _ (Nat.le_trans hi.1 hT.1)]

/-! ## Parsers of `src/core_parser.rs` -/

theorem take32_fail : PFail T W N take32 (Short 4) :=
  (PFail.takeData 4).map _

theorem take64_fail : PFail T W N take64 (Short 8) :=
  (PFail.takeData 8).map _

theorem takeI32_fail (sec : String) :
    PFail T W N (takeI32 sec) (Named T sec (Short 4)) := take32_fail.named

/-- A list of `n` elements fails in one of them. -/
def ReplFail {α : Type} (g : α → Bytes → Prop) (F : Fail) (n : Nat) : Fail :=
  fun e d d' => ∃ xs body i, xs.length < n ∧ Concat g xs body ∧ d = body ++ i ∧ F e i d'

theorem replicateP_fail {α : Type} {f : P α} {g : α → Bytes → Prop} {F : Fail}
    (hs : PSpec N f (ofG g)) (h : PFail T W N f F) (n : Nat) :
    PFail T W N (replicateP n f) (ReplFail g F n) := by
  induction n with
  | zero =>
    refine (PFail.pure _).congr fun e d d' => ?_
    constructor
    · exact False.elim
    · rintro ⟨xs, body, i, h, _⟩; omega
  | succ n ih =>
    rw [replicateP]
    refine (PFail.seq' hs h fun a => ih.map _).congr fun e d d' => ?_
    constructor
    · rintro (h | ⟨a, b, _, h1, rfl, xs, body, i, h2, h3, rfl, h4⟩)
      · exact ⟨[], [], d, by simp, .nil, rfl, h⟩
      · exact ⟨a :: xs, b ++ body, i, by simpa using h2, .cons h1 h3, by simp, h4⟩
    · rintro ⟨xs, body, i, h2, h3, rfl, h4⟩
      cases h3 with
      | nil => exact .inl h4
      | @cons x xs b bs h5 h6 =>
        exact .inr ⟨x, b, bs ++ i, h5, by simp, xs, bs, i, by simpa using h2, h6, rfl, h4⟩

theorem repeatP_fail {α : Type} {f : P α} {g : α → Bytes → Prop} {F : Fail}
    (hs : PSpec N f (ofG g)) (h : PFail T W N f F) (n : Nat) :
    PFail T W N (repeatP n f) (fun e d d' =>
      (25000 < n ∧ e = .listTooLarge n ∧ d' = d) ∨ (n ≤ 25000 ∧ ReplFail g F n e d d')) := by
  unfold repeatP
  split
  · rename_i hn
    refine (PFail.fail _).congr fun e d d' => ?_
    constructor
    · rintro ⟨h1, h2⟩; exact .inl ⟨hn, h1, h2⟩
    · rintro (⟨_, h1, h2⟩ | ⟨h, _⟩)
      · exact ⟨h1, h2⟩
      · omega
  · rename_i hn
    refine (replicateP_fail hs h n).congr fun e d d' => ?_
    constructor
    · intro h; exact .inr ⟨by omega, h⟩
    · rintro (⟨h, _⟩ | ⟨_, h⟩)
      · omega
      · exact h

theorem toInt_nonneg {x : I32} (h : 0 ≤ x.toInt) : x.toInt = x.toNat := by
  rw [BitVec.toInt_eq_toNat_cond] at h ⊢
  split at h <;> omega

theorem usize_repeatP_fail {α β : Type} {f : P α} {g : α → Bytes → Prop}
    {F : Fail} (hs : PSpec N f (ofG g)) (h : PFail T W N f F) (k : List α → β) (n : I32) :
    PFail T W N (P.usize n >>= fun n => repeatP n f >>= fun xs => Pure.pure (k xs))
      (ItemsAfterFail W g F n) := by
  refine PFail.usize n (fun n _ hM _ => (repeatP_fail (hs.mono hM) (h.mono hM) n).map k) ?_
  rintro env rfl e d d' _
  by_cases hx : n.toInt < 0
  · have := PSpec.usizeOfI32_neg env n hx
    constructor
    · rintro (⟨_, rfl, rfl⟩ | ⟨h, _⟩)
      · rw [← asUsize_eq]; exact .tooLarge (.inl hx)
      · omega
    · intro h
      cases h with
      | tooLarge _ => rw [asUsize_eq]; exact .inl ⟨by omega, rfl, rfl⟩
      | item h1 h2 => omega
  · have hn := toInt_nonneg (x := n) (by omega)
    have hu := asUsize_eq env n
    rw [PSpec.usizeOfI32_nonneg env n (by omega)] at hu ⊢
    constructor
    · rintro (⟨h1, rfl, rfl⟩ | ⟨h1, xs, body, i, h2, h3, rfl, h4⟩)
      · rw [← hu]; exact .tooLarge (.inr (by omega))
      · exact .item (by omega) (by omega) h3 h4
    · intro h
      cases h with
      | tooLarge h => exact .inl ⟨by omega, by rw [hu], rfl⟩
      | item h1 h2 h3 h4 => exact .inr ⟨by omega, _, _, _, by omega, h3, rfl, h4⟩

theorem P.bind_pure_id {α : Type} (m : P α) : (m >>= fun a => Pure.pure a) = m := by
  funext env s
  show P.bind m _ env s = _
  unfold P.bind
  cases m env s <;> rfl

theorem listOf_fail {α : Type} {f : P α} {g : α → Bytes → Prop}
    {F : Fail} (hs : PSpec N f (ofG g)) (h : PFail T W N f F) :
    PFail T W N (listOf f) (ListFail W g F) := by
  unfold listOf
  refine (PFail.seq' take32_spec take32_fail fun size => ?_).congr
    (F := Or2 IsWord (Short 4) fun n => ItemsAfterFail W g F n) fun e d d' => ?_
  · have := usize_repeatP_fail hs h id size
    simpa only [id, P.bind_pure_id] using this
  · constructor
    · rintro (h | ⟨n, _, i, rfl, rfl, h⟩)
      · exact .count h
      · exact .items h
    · intro h
      cases h with
      | count h => exact .inl h
      | items h => exact .inr ⟨_, _, _, rfl, rfl, h⟩

theorem decode_fail (bs : List Byte) : PFail T W N
    (match decodeStr bs with
      | .ok s => Pure.pure s
      | .error e => P.fail (.utf8Error e) : P Str)
    (fun e d d' => ∃ x, e = .utf8Error x ∧ Utf8Fault bs.dropLast x.validUpTo x.errorLen ∧ d' = d) := by
  cases h : decodeStr bs with
  | ok s =>
    refine (PFail.pure _).congr fun e d d' => ?_
    simp only [false_iff]
    rintro ⟨⟨v, k⟩, _, h2, _⟩
    rw [← utf8Decode_error_iff, List.dropLast_eq_take] at h2
    unfold decodeStr at h
    rw [h] at h2; cases h2
  | error x =>
    refine (PFail.fail _).congr fun e d d' => ?_
    have hx : Utf8Fault bs.dropLast x.validUpTo x.errorLen := by
      rw [← utf8Decode_error_iff, List.dropLast_eq_take]
      exact h
    constructor
    · rintro ⟨rfl, rfl⟩; exact ⟨x, rfl, hx, rfl⟩
    · rintro ⟨⟨v, k⟩, rfl, h2, rfl⟩
      rw [← utf8Decode_error_iff, List.dropLast_eq_take] at h2
      unfold decodeStr at h
      rw [h] at h2
      cases h2
      exact ⟨rfl, rfl⟩

theorem parseStr_fail : PFail T W N parseStr StrFail := by
  unfold parseStr
  refine (PFail.seq' take32_spec take32_fail (G := fun n e d d' => Lack n e d d' ∨
      ∃ body i x, d = body ++ i ∧ 0 ≤ n.toInt ∧ body.length = n.toNat ∧ e = .utf8Error x ∧
        Utf8Fault body.dropLast x.validUpTo x.errorLen ∧ d' = i) fun size => ?_).congr ?_
  · refine PFail.usize size (fun n _ _ hn => PFail.seq' (PSpec.takeDataG n hn) (PFail.takeData n)
      fun bs => decode_fail bs) ?_
    rintro env rfl e d d' hd
    unfold Or2
    rw [short_lack env size d d' e hd]
    constructor
    · rintro (h | ⟨_, b, i, ⟨rfl, h1⟩, rfl, x, rfl, h2, rfl⟩)
      · exact .inl h
      · rw [List.length_append] at hd
        have h0 : 0 ≤ size.toInt := by
          by_cases hx : size.toInt < 0
          · have := PSpec.usizeOfI32_big env size hx
            omega
          · omega
        rw [PSpec.usizeOfI32_nonneg env size h0] at h1
        exact .inr ⟨_, _, x, rfl, h0, h1, rfl, h2, rfl⟩
    · rintro (h | ⟨body, i, x, rfl, h0, h1, rfl, h2, rfl⟩)
      · exact .inl h
      · rw [PSpec.usizeOfI32_nonneg env size h0]
        exact .inr ⟨_, body, _, ⟨rfl, h1⟩, rfl, x, rfl, h2, rfl⟩
  · intro e d d'
    constructor
    · rintro (h | ⟨n, _, _, rfl, rfl, h | ⟨body, i, x, rfl, h0, h1, rfl, h2, rfl⟩⟩)
      · exact .count h
      · exact .data h
      · exact .utf8 h0 h1 h2
    · intro h
      cases h with
      | count h => exact .inl h
      | data h => exact .inr ⟨_, _, _, rfl, rfl, .inl h⟩
      | utf8 h0 h1 h2 => exact .inr ⟨_, _, _, rfl, rfl, .inr ⟨_, _, _, rfl, h0, h1, rfl, h2, rfl⟩⟩

theorem parseText_fail : PFail T W N parseText TextFieldFail := by
  unfold parseText
  refine (PFail.seq' take32_spec take32_fail (G := fun n e d d' =>
      ((n.toInt < -10000 ∨ 10000 < n.toInt) ∧ e = .textTooLarge n ∧ d' = d) ∨
      (0 ≤ n.toInt ∧ n.toInt ≤ 10000 ∧ Short n.toInt.toNat e d d') ∨
      (-10000 ≤ n.toInt ∧ n.toInt < 0 ∧ Short (-2 * n.toInt).toNat e d d')) fun n => ?_).congr ?_
  · split
    · rename_i hn
      refine (PFail.fail _).congr fun e d d' => ?_
      constructor
      · intro h; exact .inl ⟨hn, h⟩
      · rintro (⟨_, h⟩ | ⟨_, _, _⟩ | ⟨_, _, _⟩)
        · exact h
        · omega
        · omega
    · split
      · rename_i hn hm
        refine ((PFail.takeData _).map _).congr fun e d d' => ?_
        rw [show n.toInt * -2 = -2 * n.toInt by omega]
        constructor
        · intro h; exact .inr (.inr ⟨by omega, hm, h⟩)
        · rintro (⟨_, _⟩ | ⟨_, _, _⟩ | ⟨_, _, h⟩)
          · omega
          · omega
          · exact h
      · rename_i hn hm
        refine ((PFail.takeData _).map _).congr fun e d d' => ?_
        constructor
        · intro h; exact .inr (.inl ⟨by omega, by omega, h⟩)
        · rintro (⟨_, _⟩ | ⟨_, _, h⟩ | ⟨_, _, _⟩)
          · omega
          · exact h
          · omega
  · intro e d d'
    constructor
    · rintro (h | ⟨n, _, _, rfl, rfl, ⟨h, rfl, rfl⟩ | ⟨h1, h2, h⟩ | ⟨h1, h2, h⟩⟩)
      · exact .count h
      · exact .range h
      · exact .narrow h1 h2 h
      · exact .wide h1 h2 h
    · intro h
      cases h with
      | count h => exact .inl h
      | range h => exact .inr ⟨_, _, _, rfl, rfl, .inl ⟨h, rfl, rfl⟩⟩
      | narrow h1 h2 h => exact .inr ⟨_, _, _, rfl, rfl, .inr (.inl ⟨h1, h2, h⟩)⟩
      | wide h1 h2 h => exact .inr ⟨_, _, _, rfl, rfl, .inr (.inr ⟨h1, h2, h⟩)⟩

theorem textList_fail :
    PFail T W N textList (ListFail W TextField TextFieldFail) :=
  listOf_fail parseText_spec parseText_fail

/-! ## Header -/

theorem knownKinds_iff (kind : Str) : kind ∈ knownKinds ↔
    kind = lit "BoolProperty" ∨ kind = lit "ByteProperty" ∨ kind = lit "ArrayProperty" ∨
    kind = lit "FloatProperty" ∨ kind = lit "IntProperty" ∨ kind = lit "QWordProperty" ∨
    kind = lit "NameProperty" ∨ kind = lit "StrProperty" ∨ kind = lit "StructProperty" := by
  unfold knownKinds
  simp only [List.mem_cons, List.not_mem_nil, or_false, lit]

theorem propValue_fail {recur : P (List (Str × HeaderProp))} {mode : ParserMode}
    {kind : Str} (hs : PSpec N recur (ofG (PropList mode.isQuirks)))
    (h : PFail T W N recur (PropListFail T W mode.isQuirks)) :
    PFail T W N (propValue recur mode kind) (PropValFail T W mode.isQuirks kind) := by
  have hbool : ∀ n, n ≠ 0 → n < 2 ^ 31 → PFail T W N (do let d ← takeData n; some <$> boolProp d) (Short n) := by
    intro n hn hn'
    refine (PFail.seq (PSpec.takeDataG n (.inl hn')) (PFail.takeData n)
      (G := fun _ _ _ _ => False) ?_).congr ?_
    · rintro d _ _ ⟨rfl, hd⟩
      cases d with
      | nil => exact (hn hd.symm).elim
      | cons b d => exact (PFail.pure (HeaderProp.bool (b == 1#8))).fmap some
    · intro e d d'
      constructor
      · rintro (h | ⟨_, _, _, _, _, h⟩)
        · exact h
        · exact h.elim
      · exact .inl
  unfold propValue
  split
  · rename_i hk
    subst hk
    cases mode with
    | standard =>
      refine (hbool 1 (by decide) (by decide)).congr fun e d d' => ?_
      constructor
      · intro h; exact .bool rfl h
      · intro h
        generalize hk : lit "BoolProperty" = kind at h
        cases h with
        | bool _ h => exact h
        | boolQuirks hq => cases hq
        | unknown hn => exact (hn ((knownKinds_iff _).2 (by simp [← hk]))).elim
        | _ => exact absurd hk (by rw [lit_inj]; decide)
    | quirks =>
      refine (hbool 4 (by decide) (by decide)).congr fun e d d' => ?_
      constructor
      · intro h; exact .boolQuirks rfl h
      · intro h
        generalize hk : lit "BoolProperty" = kind at h
        cases h with
        | bool hq => cases hq
        | boolQuirks _ h => exact h
        | unknown hn => exact (hn ((knownKinds_iff _).2 (by simp [← hk]))).elim
        | _ => exact absurd hk (by rw [lit_inj]; decide)
  · split
    · rename_i hk
      subst hk
      cases mode with
      | standard =>
        refine (PFail.seq' parseStr_spec parseStr_fail (G := fun k e d d' =>
          (k = lit "None" ∧ Short 1 e d d') ∨ (k ≠ lit "None" ∧ StrFail e d d'))
          fun k => ?_).congr fun e d d' => ?_
        · split
          · rename_i hk
            refine ((PFail.takeData 1).map _).congr fun e d d' => ?_
            constructor
            · intro h; exact .inl ⟨hk, h⟩
            · rintro (⟨_, h⟩ | ⟨h, _⟩)
              · exact h
              · exact (h hk).elim
          · rename_i hk
            refine (parseStr_fail.map _).congr fun e d d' => ?_
            constructor
            · intro h; exact .inr ⟨hk, h⟩
            · rintro (⟨h, _⟩ | ⟨_, h⟩)
              · exact (hk h).elim
              · exact h
        · constructor
          · rintro (h | ⟨k, b, i, h1, rfl, ⟨rfl, h⟩ | ⟨hk, h⟩⟩)
            · exact .byteKind rfl h
            · exact .byteSkip rfl h1 h
            · exact .byteValue rfl hk h1 h
          · intro h
            generalize hk : lit "ByteProperty" = kind at h
            cases h with
            | byteKind _ h => exact .inl h
            | byteSkip _ h1 h => exact .inr ⟨_, _, _, h1, rfl, .inl ⟨rfl, h⟩⟩
            | byteValue _ hn h1 h => exact .inr ⟨_, _, _, h1, rfl, .inr ⟨hn, h⟩⟩
            | byteQuirks hq => cases hq
            | unknown hn => exact (hn ((knownKinds_iff _).2 (by simp [← hk]))).elim
            | _ => exact absurd hk (by rw [lit_inj]; decide)
      | quirks =>
        refine (parseText_fail.map _).congr fun e d d' => ?_
        constructor
        · intro h; exact .byteQuirks rfl h
        · intro h
          generalize hk : lit "ByteProperty" = kind at h
          cases h with
          | byteKind hq => cases hq
          | byteSkip hq => cases hq
          | byteValue hq => cases hq
          | byteQuirks _ h => exact h
          | unknown hn => exact (hn ((knownKinds_iff _).2 (by simp [← hk]))).elim
          | _ => exact absurd hk (by rw [lit_inj]; decide)
    · split
      · rename_i hk
        subst hk
        refine (PFail.seq' (takeI32_spec _) (takeI32_fail _)
          (G := fun n => ItemsAfterFail W (PropList mode.isQuirks) (PropListFail T W mode.isQuirks) n)
          fun n => usize_repeatP_fail hs h _ n).congr fun e d d' => ?_
        constructor
        · rintro (h | ⟨n, _, i, rfl, rfl, h⟩)
          · exact .arraySize h
          · cases h with
            | tooLarge h => exact .arrayTooLarge h
            | item h1 h2 h3 h4 => exact .arrayItem h1 h2 h3 h4
        · intro h
          generalize hk : lit "ArrayProperty" = kind at h
          cases h with
          | arraySize h => exact .inl h
          | arrayTooLarge h => exact .inr ⟨_, _, _, rfl, rfl, .tooLarge h⟩
          | arrayItem h1 h2 h3 h4 => exact .inr ⟨_, _, _, rfl, rfl, .item h1 h2 h3 h4⟩
          | unknown hn => exact (hn ((knownKinds_iff _).2 (by simp [← hk]))).elim
          | _ => exact absurd hk (by rw [lit_inj]; decide)
      · split
        · rename_i hk
          subst hk
          refine (take32_fail.map _).congr fun e d d' => ?_
          constructor
          · intro h; exact .float h
          · intro h
            generalize hk : lit "FloatProperty" = kind at h
            cases h with
            | float h => exact h
            | unknown hn => exact (hn ((knownKinds_iff _).2 (by simp [← hk]))).elim
            | _ => exact absurd hk (by rw [lit_inj]; decide)
        · split
          · rename_i hk
            subst hk
            refine (take32_fail.map _).congr fun e d d' => ?_
            constructor
            · intro h; exact .int h
            · intro h
              generalize hk : lit "IntProperty" = kind at h
              cases h with
              | int h => exact h
              | unknown hn => exact (hn ((knownKinds_iff _).2 (by simp [← hk]))).elim
              | _ => exact absurd hk (by rw [lit_inj]; decide)
          · split
            · rename_i hk
              subst hk
              refine (take64_fail.map _).congr fun e d d' => ?_
              constructor
              · intro h; exact .qword h
              · intro h
                generalize hk : lit "QWordProperty" = kind at h
                cases h with
                | qword h => exact h
                | unknown hn => exact (hn ((knownKinds_iff _).2 (by simp [← hk]))).elim
                | _ => exact absurd hk (by rw [lit_inj]; decide)
            · split
              · rename_i hk
                subst hk
                refine (parseText_fail.map _).congr fun e d d' => ?_
                constructor
                · intro h; exact .name h
                · intro h
                  generalize hk : lit "NameProperty" = kind at h
                  cases h with
                  | name h => exact h
                  | unknown hn => exact (hn ((knownKinds_iff _).2 (by simp [← hk]))).elim
                  | _ => exact absurd hk (by rw [lit_inj]; decide)
              · split
                · rename_i hk
                  subst hk
                  refine (parseText_fail.map _).congr fun e d d' => ?_
                  constructor
                  · intro h; exact .str h
                  · intro h
                    generalize hk : lit "StrProperty" = kind at h
                    cases h with
                    | str h => exact h
                    | unknown hn => exact (hn ((knownKinds_iff _).2 (by simp [← hk]))).elim
                    | _ => exact absurd hk (by rw [lit_inj]; decide)
                · split
                  · rename_i hk
                    subst hk
                    refine (PFail.andThen parseStr_spec parseStr_fail fun n => h.map _).congr
                      fun e d d' => ?_
                    constructor
                    · intro h
                      cases h with
                      | first h => exact .structName h
                      | second h1 h => exact .structFields h1 h
                    · intro h
                      generalize hk : lit "StructProperty" = kind at h
                      cases h with
                      | structName h => exact .first h
                      | structFields h1 h => exact .second h1 h
                      | unknown hn => exact (hn ((knownKinds_iff _).2 (by simp [← hk]))).elim
                      | _ => exact absurd hk (by rw [lit_inj]; decide)
                  · rename_i n1 n2 n3 n4 n5 n6 n7 n8 n9
                    refine (PFail.fail _).congr fun e d d' => ?_
                    constructor
                    · rintro ⟨rfl, rfl⟩
                      refine .unknown fun hm => ?_
                      rcases (knownKinds_iff kind).1 hm with h | h | h | h | h | h | h | h | h
                      · exact n1 h
                      · exact n2 h
                      · exact n3 h
                      · exact n4 h
                      · exact n5 h
                      · exact n6 h
                      · exact n7 h
                      · exact n8 h
                      · exact n9 h
                    · intro h
                      cases h with
                      | unknown _ => exact ⟨rfl, rfl⟩
                      | bool | boolQuirks => exact (n1 rfl).elim
                      | byteKind | byteSkip | byteValue | byteQuirks => exact (n2 rfl).elim
                      | arraySize | arrayTooLarge | arrayItem => exact (n3 rfl).elim
                      | float => exact (n4 rfl).elim
                      | int => exact (n5 rfl).elim
                      | qword => exact (n6 rfl).elim
                      | name => exact (n7 rfl).elim
                      | str => exact (n8 rfl).elim
                      | structName | structFields => exact (n9 rfl).elim

theorem parseRdict_fail (fuel : Nat) (mode : ParserMode) (hN : N < fuel) :
    PFail T W N (parseRdict fuel mode) (PropListFail T W mode.isQuirks) := by
  induction fuel generalizing N with
  | zero => omega
  | succ fuel ih =>
    rw [parseRdict]
    refine (PFail.seq parseStr_spec parseStr_fail (G := fun key e d d' =>
      key ≠ lit "None" ∧ Or2 StrField StrFail (fun kind =>
        Or2 IsWord (Named T "property size" (Short 4)) fun _ =>
        Or2 (fun (a : List Byte) bs => a = bs ∧ bs.length = 4) (Short 4) fun _ =>
        Or2 (PropOut mode.isQuirks kind) (PropValFail T W mode.isQuirks kind) fun _ =>
          PropListFail T W mode.isQuirks) e d d') ?_).congr ?_
    · intro key bs hNb hkey
      have hbs := StrField.length_ge hkey
      have hf : N - bs.length < fuel := by omega
      split
      · rename_i hk
        refine (PFail.pure _).congr fun e d d' => ?_
        constructor
        · exact False.elim
        · rintro ⟨h, _⟩; exact h hk
      · rename_i hk
        refine (PFail.seq' parseStr_spec parseStr_fail fun kind =>
          PFail.seq' (takeI32_spec _) (takeI32_fail _) fun size =>
          PFail.seq' (PSpec.takeDataG 4 (.inl (by decide))) (PFail.takeData 4) fun ign =>
          PFail.seq' (propValue_spec (parseRdict_spec fuel mode hf))
            (propValue_fail (parseRdict_spec fuel mode hf) (ih hf)) fun v => ?_).congr
            fun e d d' => (and_iff_right hk).symm
        cases v with
        | none => exact (ih hf).map _
        | some v => exact (ih hf).map _
    · intro e d d'
      constructor
      · rintro (h | ⟨key, b1, _, hk1, rfl, hk, h | ⟨kind, b2, _, hk2, rfl, h |
          ⟨size, _, _, rfl, rfl, h | ⟨ign, _, _, ⟨rfl, hl⟩, rfl, h | ⟨v, b3, i, h3, rfl, h⟩⟩⟩⟩⟩)
        · exact .key h
        · exact .kind hk hk1 h
        · exact .size hk hk1 hk2 h
        · exact .ignored hk hk1 hk2 (word_length size) h
        · rw [← List.append_assoc (word size)]
          exact .value hk hk1 hk2 (by rw [List.length_append, word_length, hl]) h
        · rw [← List.append_assoc (word size)]
          have h8 : (word size ++ ign).length = 8 := by rw [List.length_append, word_length, hl]
          cases v with
          | none =>
            obtain ⟨rfl, hq, b, x, hb, rfl⟩ := h3
            exact .afterSkip hk hq hk1 hk2 h8 hb h
          | some v => exact .later hk hk1 hk2 h8 h3 h
      · have h8 : ∀ (sz : Bytes), sz.length = 8 → ∃ size ign, sz = word size ++ ign ∧
            ign.length = 4 := fun sz hsz =>
          ⟨_, sz.drop 4, by rw [word_leNat (sz.take 4) (by simp [hsz]), List.take_append_drop],
            by simp [hsz]⟩
        intro h
        cases h with
        | key h => exact .inl h
        | kind hk hk1 h => exact .inr ⟨_, _, _, hk1, rfl, hk, .inl h⟩
        | size hk hk1 hk2 h =>
          exact .inr ⟨_, _, _, hk1, rfl, hk, .inr ⟨_, _, _, hk2, rfl, .inl h⟩⟩
        | ignored hk hk1 hk2 h4 h =>
          exact .inr ⟨_, _, _, hk1, rfl, hk, .inr ⟨_, _, _, hk2, rfl, .inr ⟨_, _, _,
            (word_leNat _ h4).symm, rfl, .inl h⟩⟩⟩
        | value hk hk1 hk2 hsz h =>
          obtain ⟨size, ign, rfl, hl⟩ := h8 _ hsz
          exact .inr ⟨_, _, _, hk1, rfl, hk, .inr ⟨_, _, _, hk2, rfl, .inr ⟨_, _, _,
            rfl, List.append_assoc .., .inr ⟨_, _, _, ⟨rfl, hl⟩, rfl, .inl h⟩⟩⟩⟩
        | later hk hk1 hk2 hsz h3 h =>
          obtain ⟨size, ign, rfl, hl⟩ := h8 _ hsz
          exact .inr ⟨_, _, _, hk1, rfl, hk, .inr ⟨_, _, _, hk2, rfl, .inr ⟨_, _, _,
            rfl, List.append_assoc .., .inr ⟨_, _, _, ⟨rfl, hl⟩, rfl, .inr ⟨some _, _, _, h3, rfl, h⟩⟩⟩⟩⟩
        | afterSkip hk hq hk1 hk2 hsz h3 h =>
          obtain ⟨size, ign, rfl, hl⟩ := h8 _ hsz
          exact .inr ⟨_, _, _, hk1, rfl, hk, .inr ⟨_, _, _, hk2, rfl, .inr ⟨_, _, _,
            rfl, List.append_assoc .., .inr ⟨_, _, _, ⟨rfl, hl⟩, rfl,
              .inr ⟨none, _, _, ⟨rfl, hq, _, _, h3, rfl⟩, rfl, h⟩⟩⟩⟩⟩

theorem rdict_fail (mode : ParserMode) :
    PFail T W N (do let fuel ← rdictFuel; parseRdict fuel mode)
      (PropListFail T W mode.isQuirks) :=
  fun env s hw hT hi _ => parseRdict_fail (s.data.length + 1) mode (Nat.lt_succ_self _) env s hw hT hi
    (Nat.le_refl _)

theorem parseHeader_fail : PFail T W N parseHeader (HeaderFail T W) := by
  rw [parseHeader_eq]
  refine (PFail.seq' (takeI32_spec _) (takeI32_fail _) fun major =>
    PFail.seq' (takeI32_spec _) (takeI32_fail _) fun minor =>
    PFail.seq' (netVersion_spec major minor)
      (F := fun e d d' => (865 < major.toInt ∧ 17 < minor.toInt) ∧
        Named T "net version" (Short 4) e d d') ?_ fun net =>
    PFail.seq' (parseText_spec.wrap _) parseText_fail.named fun game =>
      ((rdict_fail (headerMode major minor net)).named).map _).congr fun e d d' => ?_
  · split
    · rename_i h
      exact ((takeI32_fail _).fmap some).congr fun e d d' => (and_iff_right h).symm
    · rename_i h
      refine (PFail.pure none).congr fun e d d' => ?_
      constructor
      · exact False.elim
      · rintro ⟨h', _⟩; exact h h'
  · constructor
    · rintro (h | ⟨major, _, _, rfl, rfl, h | ⟨minor, _, _, rfl, rfl, ⟨⟨h1, h2⟩, h⟩ |
        ⟨net, b, _, hn, rfl, h | ⟨game, b', i, hg, rfl, h⟩⟩⟩⟩)
      · exact .major h
      · exact .minor h
      · exact .net h1 h2 h
      · exact .gameType hn h
      · rw [headerMode_isQuirks _ _ _ _ hn] at h
        exact .properties hn hg h
    · intro h
      cases h with
      | major h => exact .inl h
      | minor h => exact .inr ⟨_, _, _, rfl, rfl, .inl h⟩
      | net h1 h2 h => exact .inr ⟨_, _, _, rfl, rfl, .inr ⟨_, _, _, rfl, rfl, .inl ⟨⟨h1, h2⟩, h⟩⟩⟩
      | gameType hn h =>
        exact .inr ⟨_, _, _, rfl, rfl, .inr ⟨_, _, _, rfl, rfl, .inr ⟨_, _, _, hn, rfl, .inl h⟩⟩⟩
      | properties hn hg h =>
        rw [← headerMode_isQuirks _ _ _ _ hn] at h
        exact .inr ⟨_, _, _, rfl, rfl, .inr ⟨_, _, _, rfl, rfl, .inr ⟨_, _, _, hn, rfl,
          .inr ⟨_, _, _, hg, rfl, h⟩⟩⟩⟩

/-! ## Body -/

theorem parseTickmarks_fail :
    PFail T W N parseTickmarks (ListFail W TickMarkEnc TickMarkFail) :=
  listOf_fail tickMark_spec (PFail.andThen parseText_spec parseText_fail fun _ =>
    take32_fail.map _)

theorem parseKeyframe_fail :
    PFail T W N parseKeyframe (ListFail W KeyFrameEnc KeyFrameFail) :=
  listOf_fail keyFrame_spec (PFail.andThen take32_spec take32_fail fun _ =>
    PFail.andThen take32_spec take32_fail fun _ => take32_fail.map _)

theorem parseDebuginfo_fail :
    PFail T W N parseDebuginfo (ListFail W DebugInfoEnc DebugInfoFail) :=
  listOf_fail debugInfo_spec (PFail.andThen take32_spec take32_fail fun _ =>
    PFail.andThen parseText_spec parseText_fail fun _ => parseText_fail.map _)

theorem parseClassindex_fail :
    PFail T W N parseClassindex (ListFail W ClassIndexEnc ClassIndexFail) :=
  listOf_fail classIndex_spec (PFail.andThen parseStr_spec parseStr_fail fun _ =>
    take32_fail.map _)

theorem cacheProp_fail : PFail T W N (do
    let objectInd ← take32
    let streamId ← take32
    Pure.pure (⟨objectInd, streamId⟩ : CacheProp)) CachePropFail :=
  PFail.andThen take32_spec take32_fail fun _ => take32_fail.map _

theorem parseClasscache_fail :
    PFail T W N parseClasscache (ListFail W ClassNetCacheEnc (ClassNetCacheFail W)) :=
  listOf_fail classNetCache_spec (PFail.andThen take32_spec take32_fail fun _ =>
    PFail.andThen take32_spec take32_fail fun _ =>
    PFail.andThen take32_spec take32_fail fun _ =>
      (listOf_fail cacheProp_spec cacheProp_fail).map _)

/-- The network data with its size. -/
def blob : P (List Byte) :=
  takeI32 "network size" >>= fun size => P.usize size >>= fun n =>
    P.wrap "network data" (takeData n)

theorem blob_spec : PSpec N blob (ofG BlobField) := by
  unfold blob
  refine ((takeI32_spec _).seq' fun size => PSpec.usizeG size (fun n _ _ hn =>
    (PSpec.takeDataG n hn).wrap _) ?_).congrG fun nd bs => ?_
  · rintro n hn a bs hb ⟨_, h1⟩
    omega
  · unfold BlobField
    constructor
    · rintro ⟨size, _, b, rfl, ⟨h0, rfl, h1⟩, rfl⟩
      have hlt : nd.length < 2 ^ 31 := by
        have := size.isLt
        rw [BitVec.toInt_eq_toNat_cond] at h0
        split at h0 <;> omega
      exact ⟨hlt, by rw [(size_iff _ _ hlt).1 ⟨h0, h1⟩]⟩
    · rintro ⟨hlt, rfl⟩
      have := (size_iff _ _ hlt).2 rfl
      exact ⟨_, _, nd, rfl, ⟨this.1, rfl, this.2⟩, rfl⟩

theorem blob_fail : PFail T W N blob (BlobFail T) := by
  unfold blob
  refine (PFail.seq' (takeI32_spec _) (takeI32_fail _)
    (G := fun n => Named T "network data" (Lack n)) fun size =>
      PFail.usize size (fun n _ _ _ => (PFail.takeData n).named) ?_).congr fun e d d' => ?_
  · rintro env rfl e d d' hd
    constructor
    · rintro ⟨h⟩; exact .mk ((short_lack env size _ _ _ hd).1 h)
    · rintro ⟨h⟩; exact .mk ((short_lack env size _ _ _ hd).2 h)
  · constructor
    · rintro (h | ⟨n, _, i, rfl, rfl, h⟩)
      · exact .size h
      · exact .data h
    · intro h
      cases h with
      | size h => exact .inl h
      | data h => exact .inr ⟨_, _, _, rfl, rfl, h⟩

theorem parseBody_eq : parseBody =
    (P.wrap "levels" textList >>= fun levels =>
      P.wrap "keyframes" parseKeyframe >>= fun keyframes => blob >>= fun networkData =>
      P.wrap "debug info" parseDebuginfo >>= fun debugInfo =>
      P.wrap "tickmarks" parseTickmarks >>= fun tickMarks =>
      P.wrap "packages" textList >>= fun packages =>
      P.wrap "objects" textList >>= fun objects => P.wrap "names" textList >>= fun names =>
      P.wrap "class index" parseClassindex >>= fun classIndices =>
      P.wrap "net cache" parseClasscache >>= fun netCache =>
      Pure.pure {
        levels, keyframes, debugInfo, tickMarks, packages, objects, names,
        classIndices, netCache, networkData }) := by
  unfold parseBody blob
  simp only [P.bind_assoc]

theorem parseBody_fail : PFail T W N parseBody (BodyFail T W) := by
  rw [parseBody_eq]
  exact PFail.andThen (textList_spec.wrap _) textList_fail.named fun _ =>
    PFail.andThen (parseKeyframe_spec.wrap _) parseKeyframe_fail.named fun _ =>
    PFail.andThen blob_spec blob_fail fun _ =>
    PFail.andThen (parseDebuginfo_spec.wrap _) parseDebuginfo_fail.named fun _ =>
    PFail.andThen (parseTickmarks_spec.wrap _) parseTickmarks_fail.named fun _ =>
    PFail.andThen (textList_spec.wrap _) textList_fail.named fun _ =>
    PFail.andThen (textList_spec.wrap _) textList_fail.named fun _ =>
    PFail.andThen (textList_spec.wrap _) textList_fail.named fun _ =>
    PFail.andThen (parseClassindex_spec.wrap _) parseClassindex_fail.named fun _ =>
      parseClasscache_fail.named.map _

/-! ## Sections and files -/

/-- The policy in the words of the specification. -/
def CrcCheck.checking : CrcCheck → Checking
  | .always => .always
  | .never => .never
  | .onError => .onError

theorem viewData_fail (n : Nat) : PFail T W N (viewData n) (Short n) := by
  intro env s hw hT hi hd e d'
  have hs : s = at_ T s.data := hi.eq_at
  unfold viewData
  split
  · constructor
    · intro h; cases h
    · rintro ⟨h⟩; omega
  · constructor
    · intro h
      cases h
      exact .mk (by omega)
    · rintro ⟨h⟩
      rw [← hs]; rfl

/-- The content of a section fails, the bytes to be checked being `data`. -/
inductive CrcFail {α : Type} (check : Checking) (data : Bytes) (crc : BitVec 32) (name : String)
    (g : α → Bytes → Prop) (F : Fail) : Fail where
  | content {e d d'} : (check = .never ∨ Crc.crc data = crc) → F e d d' →
      CrcFail check data crc name g F e d d'
  | corrupt {e d d'} : check = .onError → Crc.crc data ≠ crc → F e d d' →
      CrcFail check data crc name g F (.corruptReplay name e) d d'
  | mismatchFail {e d d'} : check = .always → Crc.crc data ≠ crc → F e d d' →
      CrcFail check data crc name g F (.crcMismatch crc (Crc.crc data)) d d'
  | mismatch {a b d} : check = .always → Crc.crc data ≠ crc → g a b →
      CrcFail check data crc name g F (.crcMismatch crc (Crc.crc data)) (b ++ d) d

theorem crcSection_fail {α : Type} {m : P α} {g : α → Bytes → Prop} {F : Fail}
    (check : CrcCheck) (data : List Byte) (crc : U32) (sec : String) (hs : PSpec N m (ofG g))
    (h : PFail T W N m F) :
    PFail T W N (crcSection check data crc sec m) (CrcFail check.checking data crc sec g F) := by
  intro env s hw hT hi hd e d'
  have h1 := h env s hw hT hi hd
  unfold crcSection
  rw [Props.calcCrc_eq_spec]
  cases hm : m env s with
  | fault x => exact (hs.noFault T env s hT hi hd x hm).elim
  | ok a s1 =>
    have hok := (hs.okIff T env s hT.1 hi hd a s1).1 hm
    obtain ⟨⟨b, hg, hdi⟩, hi1⟩ := hok
    have hno : ∀ e d', ¬F e s.data d' := by
      intro e d' hF
      have := (h1 e d').2 hF
      rw [hm] at this; cases this
    have hst : s1 = at_ T s1.data := hi1.eq_at
    have huniq : ∀ (a' : α) (b' i : Bytes), g a' b' → s.data = b' ++ i → i = s1.data := by
      intro a' b' i hg' hdi'
      have := (hs.okIff T env s hT.1 hi hd a' (at_ T i)).2 ⟨⟨b', hg', hdi'⟩, hi.of_suffix hT (by
        rw [hdi']; exact List.suffix_append _ _)⟩
      rw [hm] at this
      cases this
      rfl
    cases check with
    | always =>
      simp only
      split
      · rename_i hne
        constructor
        · intro hx
          cases hx
          rw [hdi]
          exact .mismatch rfl hne hg
        · intro hx
          generalize hdd : s.data = d at hx
          cases hx with
          | content _ hF => exact (hno _ _ (hdd ▸ hF)).elim
          | corrupt _ _ hF => exact (hno _ _ (hdd ▸ hF)).elim
          | mismatchFail _ _ hF => exact (hno _ _ (hdd ▸ hF)).elim
          | mismatch _ _ hg' => rw [huniq _ _ _ hg' hdd, ← hst]
      · rename_i he
        simp only [ne_eq, Decidable.not_not] at he
        constructor
        · intro hx; cases hx
        · intro hx
          generalize hdd : s.data = d at hx
          cases hx with
          | content _ hF => exact (hno _ _ (hdd ▸ hF)).elim
          | corrupt _ _ hF => exact (hno _ _ (hdd ▸ hF)).elim
          | mismatchFail _ _ hF => exact (hno _ _ (hdd ▸ hF)).elim
          | mismatch _ hne => exact (hne he).elim
    | onError =>
      constructor
      · intro hx; cases hx
      · intro hx
        generalize hdd : s.data = d at hx
        cases hx with
        | content _ hF => exact (hno _ _ (hdd ▸ hF)).elim
        | corrupt _ _ hF => exact (hno _ _ (hdd ▸ hF)).elim
        | mismatchFail _ _ hF => exact (hno _ _ (hdd ▸ hF)).elim
        | mismatch hc => cases hc
    | never =>
      constructor
      · intro hx; cases hx
      · intro hx
        generalize hdd : s.data = d at hx
        cases hx with
        | content _ hF => exact (hno _ _ (hdd ▸ hF)).elim
        | corrupt _ _ hF => exact (hno _ _ (hdd ▸ hF)).elim
        | mismatchFail _ _ hF => exact (hno _ _ (hdd ▸ hF)).elim
        | mismatch hc => cases hc
  | err e1 s1 =>
    have hF1 : ∀ e d', F e s.data d' → e = e1 ∧ s1 = at_ T d' := by
      intro e d' hF
      have := (h1 e d').2 hF
      rw [hm] at this
      cases this
      exact ⟨rfl, rfl⟩
    have hng : ∀ (a' : α) (b' i : Bytes), g a' b' → s.data ≠ b' ++ i := by
      intro a' b' i hg' hdi'
      have := (hs.okIff T env s hT.1 hi hd a' (at_ T i)).2 ⟨⟨b', hg', hdi'⟩, hi.of_suffix hT (by
        rw [hdi']; exact List.suffix_append _ _)⟩
      rw [hm] at this
      cases this
    have hkeep : (check.checking = .never ∨ Crc.crc data = crc) →
        (PRes.err e1 s1 = (.err e (at_ T d') : PRes α) ↔
          CrcFail check.checking data crc sec g F e s.data d') := by
      intro hc
      constructor
      · intro hx
        cases hx
        exact .content hc ((h1 _ _).1 hm)
      · intro hx
        generalize hdd : s.data = d at hx
        cases hx with
        | content _ hF =>
          obtain ⟨rfl, rfl⟩ := hF1 _ _ (hdd ▸ hF)
          rfl
        | corrupt h1 h2 => rw [h1] at hc; rcases hc with hc | hc <;> [cases hc; exact (h2 hc).elim]
        | mismatchFail h1 h2 =>
          rw [h1] at hc; rcases hc with hc | hc <;> [cases hc; exact (h2 hc).elim]
        | mismatch _ _ hg' => exact (hng _ _ _ hg' hdd).elim
    cases check with
    | never => exact hkeep (.inl rfl)
    | always =>
      simp only
      split
      · rename_i hne
        constructor
        · intro hx
          cases hx
          exact .mismatchFail rfl hne ((h1 _ _).1 hm)
        · intro hx
          generalize hdd : s.data = d at hx
          cases hx with
          | content hc _ => rcases hc with hc | hc <;> [cases hc; exact (hne hc).elim]
          | corrupt hc => cases hc
          | mismatchFail _ _ hF =>
            obtain ⟨rfl, rfl⟩ := hF1 _ _ (hdd ▸ hF)
            rfl
          | mismatch _ _ hg' => exact (hng _ _ _ hg' hdd).elim
      · rename_i he
        simp only [ne_eq, Decidable.not_not] at he
        exact hkeep (.inr he)
    | onError =>
      simp only
      split
      · rename_i hne
        constructor
        · intro hx
          cases hx
          exact .corrupt rfl hne ((h1 _ _).1 hm)
        · intro hx
          generalize hdd : s.data = d at hx
          cases hx with
          | content hc _ => rcases hc with hc | hc <;> [cases hc; exact (hne hc).elim]
          | mismatchFail hc => cases hc
          | corrupt _ _ hF =>
            obtain ⟨rfl, rfl⟩ := hF1 _ _ (hdd ▸ hF)
            rfl
          | mismatch hc => cases hc
      · rename_i he
        simp only [ne_eq, Decidable.not_not] at he
        exact hkeep (.inr he)

theorem section_fail {α : Type} {m : P α} {g : α → Bytes → Prop} {F : Fail}
    (check : CrcCheck) {title name n1 n2 n3 : String} (h1 : n1 = title ++ " size")
    (h2 : n2 = title ++ " crc") (h3 : n3 = title ++ " data") (hs : PSpec N m (ofG g))
    (h : PFail T W N m F) :
    PFail T W N (section_ check n1 n2 n3 name m) (SectionFail T check.checking title name g F) := by
  subst h1 h2 h3
  unfold section_
  refine (PFail.seq' (takeI32_spec _) (takeI32_fail _) fun size =>
    PFail.seq' (takeI32_spec _) (takeI32_fail _) (G := fun crc e d d' =>
      Named T (title ++ " data") (Lack size) e d d' ∨ (Fits size d.length ∧
        CrcFail check.checking (d.take size.toNat) crc name g F e d d')) fun crc => ?_).congr
          fun e d d' => ?_
  · intro env s hw hT hi hd e d'
    have hlen : s.data.length ≤ env.isizeMax := Nat.le_trans hi.1 hT.1
    show P.bind (P.wrap _ (viewData (env.usizeOfI32 size))) _ env s = _ ↔ _
    have hv := (viewData_fail (T := T) (W := W) (N := N) (env.usizeOfI32 size)).named
      (sec := title ++ " data") env s hw hT hi hd
    unfold P.bind
    by_cases hf : Fits size s.data.length
    · have hwrap : P.wrap (title ++ " data") (viewData (env.usizeOfI32 size)) env s =
          .ok (s.data.take size.toNat) s := by
        rw [PSpec.usizeOfI32_nonneg env size hf.1]
        simp only [P.wrap, viewData, if_pos hf.2]
      rw [hwrap]
      simp only
      rw [(crcSection_fail check _ crc name hs h).map _ env s hw hT hi hd e d']
      constructor
      · intro hx; exact .inr ⟨hf, hx⟩
      · rintro (hx | ⟨_, hx⟩)
        · obtain ⟨⟨hx⟩⟩ := hx
          exact (hx hf).elim
        · exact hx
    · rw [← lack_iff env size _ hlen] at hf
      have hwrap : P.wrap (title ++ " data") (viewData (env.usizeOfI32 size)) env s =
          .err (.parseError (title ++ " data") s.col (.insufficientData size
            (i32OfNat s.data.length))) s := by
        simp only [P.wrap, viewData, if_neg (show ¬ env.usizeOfI32 size ≤ s.data.length by omega)]
        rw [show i32OfNat (env.usizeOfI32 size) = size from ofNat_usizeOfI32 env size]
      rw [hwrap]
      simp only
      have hst : s = at_ T s.data := hi.eq_at
      constructor
      · intro hx
        cases hx
        exact .inl (.mk (.mk ((lack_iff env size _ hlen).1 hf)))
      · rintro (hx | ⟨hx, _⟩)
        · obtain ⟨⟨hx⟩⟩ := hx
          rw [← hst, hi.2.1]; rfl
        · exact ((lack_iff env size _ hlen).1 hf hx).elim
  · constructor
    · rintro (h | ⟨size, _, _, rfl, rfl, h | ⟨crc, _, i, rfl, rfl, h | ⟨hf, h⟩⟩⟩)
      · exact .size h
      · exact .crc h
      · exact .data h
      · cases h with
        | content h1 h2 => exact .content hf h1 h2
        | corrupt h1 h2 h3 => exact .corrupt hf h1 h2 h3
        | mismatchFail h1 h2 h3 => exact .mismatchFail hf h1 h2 h3
        | mismatch h1 h2 h3 => exact .mismatch hf h1 h2 h3
    · intro h
      cases h with
      | size h => exact .inl h
      | crc h => exact .inr ⟨_, _, _, rfl, rfl, .inl h⟩
      | data h => exact .inr ⟨_, _, _, rfl, rfl, .inr ⟨_, _, _, rfl, rfl, .inl h⟩⟩
      | content hf h1 h2 =>
        exact .inr ⟨_, _, _, rfl, rfl, .inr ⟨_, _, _, rfl, rfl, .inr ⟨hf, .content h1 h2⟩⟩⟩
      | corrupt hf h1 h2 h3 =>
        exact .inr ⟨_, _, _, rfl, rfl, .inr ⟨_, _, _, rfl, rfl, .inr ⟨hf, .corrupt h1 h2 h3⟩⟩⟩
      | mismatchFail hf h1 h2 h3 =>
        exact .inr ⟨_, _, _, rfl, rfl, .inr ⟨_, _, _, rfl, rfl, .inr ⟨hf, .mismatchFail h1 h2 h3⟩⟩⟩
      | mismatch hf h1 h2 h3 =>
        exact .inr ⟨_, _, _, rfl, rfl, .inr ⟨_, _, _, rfl, rfl, .inr ⟨hf, .mismatch h1 h2 h3⟩⟩⟩

/-- The file without the network data fails. -/
theorem front_fail (env : Env) (data : List Byte) (hT : Room env data.length) (check : CrcCheck)
    (e : ParseError) :
    (∃ s, front check env (CoreSt.init data) = .err e s) ↔
      (∃ d', SectionFail data.length check.checking "header" "header" HeaderSec
        (HeaderFail data.length env.usizeBits) e data d') ∨
      ∃ size crc h b d d', HeaderSec h b ∧ Fits size (b ++ d).length ∧
        (check.checking = .always → Crc.crc ((b ++ d).take size.toNat) = crc) ∧
        SectionFail data.length check.checking "content" "body" BodySec
          (BodyFail data.length env.usizeBits) e d d' ∧
        data = word size ++ (word crc ++ (b ++ d)) := by
  have hi0 := CoreInv.init (env := env) (data := data)
  have hchk : ∀ {p : Prop}, (check = .always → p) ↔ (check.checking = .always → p) := by
    cases check <;> simp [CrcCheck.checking]
  have hS1 := section_spec (N := data.length) check "header size" "header crc" "header data" "header"
    parseHeader_spec
  have hF1 := section_fail (W := env.usizeBits) (N := data.length) check (title := "header")
    (name := "header") (n1 := "header size") (n2 := "header crc") (n3 := "header data")
    (by decide) (by decide) (by decide) parseHeader_spec parseHeader_fail env
    (CoreSt.init data) rfl hT hi0 (Nat.le_refl _)
  have hF2 : ∀ s, CoreInv env data.length s → ∀ e d', _ := fun s hi => section_fail (W := env.usizeBits)
    (N := data.length) check (title := "content")
    (name := "body") (n1 := "content size") (n2 := "content crc") (n3 := "content data")
    (by decide) (by decide) (by decide) parseBody_spec parseBody_fail env
    s rfl hT hi hi.1
  have hS2 := section_spec (N := data.length) check "content size" "content crc" "content data" "body"
    parseBody_spec
  have hat : ∀ s, CoreInv env data.length s → s = at_ data.length s.data := fun s hi =>
    hi.eq_at
  unfold front
  show (∃ s, P.bind _ _ env (CoreSt.init data) = _) ↔ _
  unfold P.bind
  cases h1 : section_ check "header size" "header crc" "header data" "header" parseHeader env
      (CoreSt.init data) with
  | fault x => exact (hS1.noFault _ env _ hT hi0 (Nat.le_refl _) x h1).elim
  | err e1 s1 =>
    have hi1 := (hS1.errInv _ env _ hT.1 hi0 (Nat.le_refl _) e1 s1 h1).1
    constructor
    · rintro ⟨s, hx⟩
      cases hx
      rw [hat s1 hi1] at h1
      exact .inl ⟨s1.data, (hF1 _ _).1 h1⟩
    · rintro (⟨d', hx⟩ | ⟨size, crc, h, b, d, d', g1, g2, g3, _, g4⟩)
      · have := (hF1 _ _).2 hx
        rw [h1] at this
        cases this
        exact ⟨_, rfl⟩
      · have := (hS1.okIff _ env _ hT.1 hi0 (Nat.le_refl _) (size, crc, h) (at_ data.length d)).2
          ⟨⟨b, g1, g4, g2, hchk.2 g3⟩, hi0.of_suffix hT (by
            show d <:+ data
            rw [g4, ← List.append_assoc, ← List.append_assoc]; exact List.suffix_append _ _)⟩
        rw [h1] at this; cases this
  | ok x s1 =>
    obtain ⟨⟨bh, g1, g2, g3, g4⟩, hi1⟩ := (hS1.okIff _ env _ hT.1 hi0 (Nat.le_refl _) x s1).1 h1
    have huniq : ∀ size crc (h : Header) b d, HeaderSec h b → Fits size (b ++ d).length →
        (check.checking = .always → Crc.crc ((b ++ d).take size.toNat) = crc) →
        data = word size ++ (word crc ++ (b ++ d)) → d = s1.data := by
      intro size crc h b d q1 q2 q3 q4
      have := (hS1.okIff _ env _ hT.1 hi0 (Nat.le_refl _) (size, crc, h) (at_ data.length d)).2
          ⟨⟨b, q1, q4, q2, hchk.2 q3⟩, hi0.of_suffix hT (by
            show d <:+ data
            rw [q4, ← List.append_assoc, ← List.append_assoc]; exact List.suffix_append _ _)⟩
      rw [h1] at this
      cases this
      rfl
    have hno : ∀ e d', ¬SectionFail data.length check.checking "header" "header" HeaderSec
        (HeaderFail data.length env.usizeBits) e data d' := by
      intro e d' hx
      have := (hF1 _ _).2 hx
      rw [h1] at this; cases this
    have hF2 := hF2 s1 hi1
    show (∃ s, P.bind _ _ env s1 = _) ↔ _
    unfold P.bind
    cases h2 : section_ check "content size" "content crc" "content data" "body" parseBody env
        s1 with
    | fault y => exact (hS2.noFault _ env _ hT hi1 hi1.1 y h2).elim
    | err e1 s2 =>
      have hi2 := (hS2.errInv _ env _ hT.1 hi1 hi1.1 e1 s2 h2).1
      constructor
      · rintro ⟨s, hx⟩
        cases hx
        rw [hat s2 hi2] at h2
        exact .inr ⟨_, _, _, bh, s1.data, s2.data, g1, g3, hchk.1 g4, (hF2 _ _).1 h2, g2⟩
      · rintro (⟨d', hx⟩ | ⟨size, crc, h, b, d, d', q1, q2, q3, q5, q4⟩)
        · exact (hno _ _ hx).elim
        · rw [huniq size crc h b d q1 q2 q3 q4] at q5
          have := (hF2 _ _).2 q5
          rw [h2] at this
          cases this
          exact ⟨_, rfl⟩
    | ok y s2 =>
      constructor
      · rintro ⟨s, hx⟩
        cases hx
      · rintro (⟨d', hx⟩ | ⟨size, crc, h, b, d, d', q1, q2, q3, q5, q4⟩)
        · exact (hno _ _ hx).elim
        · rw [huniq size crc h b d q1 q2 q3 q4] at q5
          have := (hF2 _ _).2 q5
          rw [h2] at this
          cases this

theorem parse_err_iff (env : Env) (data : List Byte) (hs : Small env data) (check : CrcCheck)
    (np : NetworkParse) (e : ParseError) :
    parseWith check np env data = .err e ↔
      FileFail data.length env.usizeBits check.checking (np == .always)
        (fun h b => NetworkFail h b (tableOf b)) e data := by
  have hdec : decide (check = .always) = decide (check.checking = .always) := by
    cases check <;> rfl
  have hff := front_fail env data hs.1 check
  have hfo := front_ok_iff_room check env data hs.1
  rw [parseWith_eq]
  have hsplit : FileFail data.length env.usizeBits check.checking (np == .always)
        (fun h b => NetworkFail h b (tableOf b)) e data ↔
      (∃ s, front check env (CoreSt.init data) = .err e s) ∨
      (np = .always ∧ ∃ x rest e', FileSecs (decide (check = .always)) x data rest ∧
        NetworkFail x.header x.body (tableOf x.body) e' ∧ e = .networkError e') := by
    rw [hff, hdec]
    constructor
    · intro h
      cases h with
      | header h => exact .inl (.inl ⟨_, h⟩)
      | body h1 h2 h3 h4 => exact .inl (.inr ⟨_, _, _, _, _, _, h1, h2, h3, h4, rfl⟩)
      | network h1 h2 h3 => exact .inr ⟨by simpa using h1, _, _, _, h2, h3, rfl⟩
    · rintro ((⟨_, h⟩ | ⟨_, _, _, _, _, _, h1, h2, h3, h4, h5⟩) | ⟨h1, _, _, _, h2, h3, rfl⟩)
      · exact .header h
      · rw [h5] at h4 ⊢; exact .body h1 h2 h3 h4
      · exact .network (by simpa using h1) h2 h3
  rw [hsplit]
  cases hf : front check env (CoreSt.init data) with
  | fault x => exact ((front_spec check).noFault _ env _ hs.1 CoreInv.init (Nat.le_refl _) x hf).elim
  | err e1 s =>
    constructor
    · intro h
      cases h
      exact .inl ⟨_, rfl⟩
    · rintro (⟨_, h⟩ | ⟨_, x, rest, _, h, _⟩)
      · cases h; rfl
      · obtain ⟨s', h'⟩ := (hfo x).2 ⟨rest, h⟩
        rw [hf] at h'; cases h'
  | ok x s =>
    obtain ⟨rest, hx⟩ := (hfo x).1 ⟨s, hf⟩
    have hnet := network_err_iff_of hs hx
    have hnf := (network_agn_of hs hs hx).2
    unfold networkStep
    simp only
    constructor
    · intro h
      right
      cases hq : Network.parse env x.header x.body with
      | ok a => rw [hq] at h; cases np <;> cases h
      | err e' =>
        rw [hq] at h
        cases np <;> cases h
        exact ⟨rfl, x, rest, e', hx, (hnet e').1 hq, rfl⟩
      | fault f => exact (hnf f hq).elim
    · rintro (⟨_, h⟩ | ⟨rfl, x', rest', e', h1, h2, rfl⟩)
      · cases h
      · obtain ⟨s', h'⟩ := (hfo x').2 ⟨rest', h1⟩
        rw [hf] at h'
        cases h'
        rw [(hnet e').2 h2]

end Boxcars
