import Verif.Spec.Binary
import Verif.Proofs.Grammar
import Verif.Proofs.JsonReplay
/-!
# Values survive a format that does not describe itself
-/
namespace Boxcars.Binary
open Boxcars Spec Json

/-! ## Which shapes -/

mutual
/-- Numbers of whole bytes, variants that are told apart by their names, and nothing of the header. -/
def binOk : Shape → Bool
  | .unsigned w => decide (w % 8 = 0)
  | .signed w => decide (w % 8 = 0 ∧ 0 < w)
  | .opt s => binOk s
  | .list s => binOk s
  | .tuple ss => binOkAll ss
  | .struct fs => binOkFields fs
  | .enum vs => decide ((vs.map Prod.fst).Nodup ∧ vs.length ≤ 2 ^ 32) && binOkVariants vs
  | .prop => false
  | .props => false
  | _ => true
def binOkAll : List Shape → Bool
  | [] => true
  | s :: ss => binOk s && binOkAll ss
def binOkFields : List (String × Shape) → Bool
  | [] => true
  | (_, s) :: fs => binOk s && binOkFields fs
def binOkVariants : List (String × Option Shape) → Bool
  | [] => true
  | (_, none) :: vs => binOkVariants vs
  | (_, some s) :: vs => binOk s && binOkVariants vs
end

theorem binOk_variant {vs : List (String × Option Shape)} (h : binOkVariants vs = true)
    {name : String} {s : Shape} (hm : (name, some s) ∈ vs) : binOk s = true := by
  induction vs with
  | nil => cases hm
  | cons v vs ih =>
    obtain ⟨k, o⟩ := v
    cases o with
    | none =>
      rw [binOkVariants] at h
      rcases List.mem_cons.1 hm with e | e
      · cases e
      · exact ih h e
    | some t =>
      rw [binOkVariants, Bool.and_eq_true] at h
      rcases List.mem_cons.1 hm with e | e
      · cases e; exact h.1
      · exact ih h.2 e

/-! ## Numbers and texts -/

theorem leRead_le (k n : Nat) (r : List Byte) : leRead k (le k n ++ r) = some (n % 256 ^ k, r) := by
  induction k generalizing n with
  | zero => rw [le, leRead, Nat.pow_zero, Nat.mod_one]; rfl
  | succ k ih =>
    rw [le, List.cons_append, leRead, ih, BitVec.toNat_ofNat, Nat.pow_succ' (m := 256), Nat.mod_mul]
    rfl

theorem pow_bytes {w : Nat} (h : w % 8 = 0) : 256 ^ (w / 8) = 2 ^ w := by
  rw [show 256 = 2 ^ 8 from rfl, ← Nat.pow_mul, show 8 * (w / 8) = w by omega]

theorem textRead_rt {s : Str} (h : (utf8 s).length < 2 ^ 64) (r : List Byte) :
    textRead (le 8 (utf8 s).length ++ utf8 s ++ r) = some (.str s, r) := by
  rw [textRead, List.append_assoc, leRead_le, show (256 : Nat) ^ 8 = 2 ^ 64 from rfl,
    Nat.mod_eq_of_lt h]
  simp only
  rw [if_pos (by rw [List.length_append]; omega), List.take_left, List.drop_left,
    utf8Decode_encode]

theorem escape_ge (c : Char) : len [c] ≤ len (escapeChar c) := by
  by_cases h : c.toNat < 128
  · rw [len_ascii h]
    obtain ⟨a, t, e⟩ : ∃ a t, escapeChar c = a :: t := by
      unfold escapeChar
      repeat' split
      all_goals exact ⟨_, _, rfl⟩
    rw [e, len_cons]
    have := len_char_pos a
    omega
  · have e : escapeChar c = [c] := by
      unfold escapeChar
      rw [if_neg (by rintro rfl; exact h (by decide)), if_neg (by rintro rfl; exact h (by decide)),
        if_neg (by omega), if_neg (by omega), if_neg (by omega), if_neg (by omega),
        if_neg (by omega), if_neg (by omega)]
    rw [e]

theorem quoted_ge (s : Str) : (utf8 s).length ≤ len (quoted s) := by
  have h : len s ≤ len (s.flatMap escapeChar) := by
    induction s with
    | nil => exact Nat.le_refl _
    | cons c s ih =>
      rw [List.flatMap_cons, len_append, len_cons c s]
      have := escape_ge c
      omega
  rw [quoted, List.cons_append, len_cons, len_append]
  show len s ≤ _
  omega

theorem elems_ge (fmt : F32 → Str) (xs : List SVal) : xs.length ≤ elemsLen fmt xs := by
  induction xs with
  | nil => exact Nat.le_refl _
  | cons x xs ih => rw [List.length_cons, elemsLen]; omega

/-! ## Variants -/

theorem variant_rt {vs : List (String × Option Shape)} {name : String} {s : Shape} (j : SVal)
    (hm : (name, some s) ∈ vs) (hd : (vs.map Prod.fst).Nodup) (i : Nat) :
    ∃ k < vs.length, binWriteVariant vs i name (some j) = le 4 (i + k) ++ binWrite s j ∧
      ∀ bs, binReadVariant vs k bs = (binRead s bs).map fun p => (.variant name p.1, p.2) := by
  induction vs generalizing i with
  | nil => cases hm
  | cons v vs ih =>
    obtain ⟨k, o⟩ := v
    rw [List.map_cons, List.nodup_cons] at hd
    rcases List.mem_cons.1 hm with e | e
    · cases e
      exact ⟨0, Nat.zero_lt_succ _, by rw [binWriteVariant, if_pos rfl, Nat.add_zero],
        fun bs => by rw [binReadVariant]⟩
    · have hk : k ≠ name := by
        rintro rfl
        exact hd.1 (List.mem_map.2 ⟨_, e, rfl⟩)
      obtain ⟨n, h1, h2, h3⟩ := ih e hd.2 (i + 1)
      refine ⟨n + 1, Nat.succ_lt_succ h1, ?_, fun bs => ?_⟩
      · rw [show i + (n + 1) = i + 1 + n by omega, ← h2]
        cases o <;> rw [binWriteVariant, if_neg hk]
      · rw [← h3]
        cases o <;> rw [binReadVariant]

theorem unit_rt {vs : List (String × Option Shape)} {name : String}
    (hm : (name, none) ∈ vs) (hd : (vs.map Prod.fst).Nodup) (i : Nat) :
    ∃ k < vs.length, binWriteVariant vs i name none = le 4 (i + k) ∧
      ∀ bs, binReadVariant vs k bs = some (.unitVariant name, bs) := by
  induction vs generalizing i with
  | nil => cases hm
  | cons v vs ih =>
    obtain ⟨k, o⟩ := v
    rw [List.map_cons, List.nodup_cons] at hd
    rcases List.mem_cons.1 hm with e | e
    · cases e
      exact ⟨0, Nat.zero_lt_succ _, by rw [binWriteVariant, if_pos rfl, Nat.add_zero],
        fun bs => by rw [binReadVariant]⟩
    · have hk : k ≠ name := by
        rintro rfl
        exact hd.1 (List.mem_map.2 ⟨_, e, rfl⟩)
      obtain ⟨n, h1, h2, h3⟩ := ih e hd.2 (i + 1)
      refine ⟨n + 1, Nat.succ_lt_succ h1, ?_, fun bs => ?_⟩
      · rw [show i + (n + 1) = i + 1 + n by omega, ← h2]
        cases o <;> rw [binWriteVariant, if_neg hk]
      · rw [← h3]
        cases o <;> rw [binReadVariant]

/-! ## Values -/

theorem signed_mod {w : Nat} {i : Int} (hw : 0 < w) (h1 : -2 ^ (w - 1) ≤ i) (h2 : i < 2 ^ (w - 1)) :
    (i % 2 ^ w).toNat < 2 ^ w ∧
      (if (i % 2 ^ w).toNat < 2 ^ (w - 1) then ((i % 2 ^ w).toNat : Int)
        else (i % 2 ^ w).toNat - 2 ^ w) = i := by
  obtain ⟨v, rfl⟩ : ∃ v, w = v + 1 := ⟨w - 1, by omega⟩
  rw [Nat.add_sub_cancel] at h1 h2 ⊢
  have e : (2 : Int) ^ (v + 1) = 2 * 2 ^ v := by rw [Int.pow_succ, Int.mul_comm]
  have e' : 2 ^ (v + 1) = 2 * 2 ^ v := by rw [Nat.pow_succ, Nat.mul_comm]
  have c : ((2 ^ v : Nat) : Int) = 2 ^ v := by norm_cast
  rw [e, e']
  generalize (2 : Int) ^ v = p at *
  generalize 2 ^ v = q at *
  subst c
  by_cases hi : 0 ≤ i
  · rw [Int.emod_eq_of_lt hi (by omega)]
    exact ⟨by omega, by rw [if_pos (by omega)]; omega⟩
  · have : i % (2 * (q : Int)) = i + 2 * q := by
      rw [← Int.add_emod_right, Int.emod_eq_of_lt (by omega) (by omega)]
    rw [this]
    exact ⟨by omega, by rw [if_neg (by omega)]; omega⟩

variable {fmt : F32 → Str}

theorem list_rt {s : Shape} {js : List SVal}
    (h : ∀ j ∈ js, ∀ r, binRead s (binWrite s j ++ r) = some (j, r)) (r : List Byte) :
    timesRead (binRead s) js.length (js.flatMap (binWrite s) ++ r) = some (js, r) := by
  induction js with
  | nil => rfl
  | cons j js ih =>
    rw [List.flatMap_cons, List.length_cons, timesRead, List.append_assoc,
      h j List.mem_cons_self]
    simp only
    rw [ih fun x hx => h x (List.mem_cons_of_mem j hx)]
    rfl

theorem elems_mem {x : SVal} {xs : List SVal} (h : x ∈ xs) : len (compact fmt x) ≤ elemsLen fmt xs := by
  induction xs with
  | nil => cases h
  | cons y ys ih =>
    rw [elemsLen]
    rcases List.mem_cons.1 h with e | e
    · subst e; omega
    · have := ih e
      omega

/-- A value that has the shape is read back. -/
theorem has_rt {s : Shape} {v : SVal} (h : Has s v) (hs : binOk s = true)
    (hl : len (compact fmt v) < 2 ^ 64) (r : List Byte) :
    binRead s (binWrite s v ++ r) = some (v, r) := by
  revert hs hl r
  refine Has.rec
    (motive_1 := fun s v _ => binOk s = true → len (compact fmt v) < 2 ^ 64 →
      ∀ r, binRead s (binWrite s v ++ r) = some (v, r))
    (motive_2 := fun ss xs _ => binOkAll ss = true → elemsLen fmt xs < 2 ^ 64 →
      ∀ r, binReadAll ss (binWriteAll ss xs ++ r) = some (xs, r))
    (motive_3 := fun fs kvs _ => binOkFields fs = true → fieldsLen fmt kvs < 2 ^ 64 →
      ∀ r, binReadFields fs (binWriteFields fs kvs ++ r) = some (kvs, r))
    ?_ ?_ ?_ ?_ ?_ ?_ ?_ ?_ ?_ ?_ ?_ ?_ ?_ ?_ ?_ ?_ ?_ ?_ ?_ ?_ ?_ h
  · intro b _ _ r
    cases b <;> rfl
  · intro w n hn hs _ r
    rw [binOk, decide_eq_true_eq] at hs
    rw [binWrite, binRead, leRead_le, pow_bytes hs, Int.toNat_natCast, Nat.mod_eq_of_lt hn]
    rfl
  · intro w i h1 h2 hs _ r
    rw [binOk, decide_eq_true_eq] at hs
    obtain ⟨h3, h4⟩ := signed_mod hs.2 h1 h2
    rw [binWrite, binRead, leRead_le, pow_bytes hs.1, Nat.mod_eq_of_lt h3]
    show some (SVal.int (if _ then _ else _), r) = _
    rw [h4]
  · intro x _ _ r
    rw [binWrite, binRead, leRead_le, show (256 : Nat) ^ 4 = 2 ^ 32 from rfl,
      Nat.mod_eq_of_lt x.isLt]
    show some (SVal.f32 (BitVec.ofNat 32 x.toNat), r) = _
    rw [BitVec.ofNat_toNat, BitVec.setWidth_eq]
  · intro s _ hl r
    rw [compact] at hl
    rw [binWrite, binRead]
    exact textRead_rt (Nat.lt_of_le_of_lt (quoted_ge s) hl) r
  · intro n _ _ hl r
    rw [compact] at hl
    rw [binWrite, binRead]
    exact textRead_rt (Nat.lt_of_le_of_lt (quoted_ge _) hl) r
  · intro n _ _ hl r
    rw [compact] at hl
    rw [binWrite, binRead]
    exact textRead_rt (Nat.lt_of_le_of_lt (quoted_ge _) hl) r
  · intro n _ _ _ hl r
    rw [compact] at hl
    rw [binWrite, binRead]
    exact textRead_rt (Nat.lt_of_le_of_lt (quoted_ge _) hl) r
  · intro s _ _ r
    rw [binWrite]
    rfl
  · intro s j _ ih hs hl r
    rw [binOk] at hs
    have ih := ih hs hl r
    have hp : ∀ bs, binRead (.opt s) (1 :: bs) = binRead s bs := by
      intro bs
      rw [binRead]
      rfl
    cases j with
    | null => rw [binWrite]; rfl
    | _ =>
      rw [binWrite, List.cons_append, hp, ih]
      all_goals simp
  · intro s js _ ih hs hl r
    rw [binOk] at hs
    rw [seq_len] at hl
    have hn := elems_ge fmt js
    rw [binWrite, binRead, List.append_assoc, leRead_le, show (256 : Nat) ^ 8 = 2 ^ 64 from rfl,
      Nat.mod_eq_of_lt (by omega)]
    simp only
    rw [list_rt fun j hj => ih j hj hs (by have := elems_mem (fmt := fmt) hj; omega)]
    rfl
  · intro ss js _ ih hs hl r
    rw [binOk] at hs
    rw [seq_len] at hl
    rw [binWrite, binRead, ih hs (by omega)]
    rfl
  · intro fs kvs _ ih hs hl r
    rw [binOk] at hs
    rw [map_len] at hl
    rw [binWrite, binRead, ih hs (by omega)]
    rfl
  · intro vs name hm hs _ r
    rw [binOk, Bool.and_eq_true, decide_eq_true_eq] at hs
    obtain ⟨k, h1, h2, h3⟩ := unit_rt hm hs.1.1 0
    rw [binWrite, binRead, h2, leRead_le, Nat.zero_add, show (256 : Nat) ^ 4 = 2 ^ 32 from rfl,
      Nat.mod_eq_of_lt (by omega)]
    exact h3 r
  · intro vs name s j hm _ ih hs hl r
    rw [binOk, Bool.and_eq_true, decide_eq_true_eq] at hs
    rw [variant_len] at hl
    obtain ⟨k, h1, h2, h3⟩ := variant_rt j hm hs.1.1 0
    rw [binWrite, binRead, h2, List.append_assoc, leRead_le, Nat.zero_add,
      show (256 : Nat) ^ 4 = 2 ^ 32 from rfl, Nat.mod_eq_of_lt (by omega)]
    simp only
    rw [h3, ih (binOk_variant hs.2 hm) (by omega)]
    rfl
  · intro s j _ _ _ hs
    cases hs
  · intro kvs _ _ hs
    cases hs
  · intro _ _ r
    rfl
  · intro s ss j js _ _ ih1 ih2 hs hl r
    rw [binOkAll, Bool.and_eq_true] at hs
    rw [elemsLen] at hl
    rw [binWriteAll, binReadAll, List.append_assoc, ih1 hs.1 (by omega)]
    simp only
    rw [ih2 hs.2 (by omega)]
    rfl
  · intro _ _ r
    rfl
  · intro k s fs j kvs _ _ ih1 ih2 hs hl r
    rw [binOkFields, Bool.and_eq_true] at hs
    rw [fieldsLen] at hl
    rw [binWriteFields, binReadFields, List.append_assoc, ih1 hs.1 (by omega)]
    simp only
    rw [ih2 hs.2 (by omega)]
    rfl

/-! ## More bytes do not change what is read -/

theorem leRead_more {k n : Nat} {bs r : List Byte} (h : leRead k bs = some (n, r)) (t : List Byte) :
    leRead k (bs ++ t) = some (n, r ++ t) := by
  induction k generalizing n bs r with
  | zero => cases h; rfl
  | succ k ih =>
    cases bs with
    | nil => cases h
    | cons b bs =>
      rw [leRead] at h
      cases hk : leRead k bs with
      | none => rw [hk] at h; cases h
      | some p =>
        rw [hk] at h
        cases h
        rw [List.cons_append, leRead, ih (n := p.1) (r := p.2) hk]
        rfl

theorem textRead_more {j : SVal} {bs r : List Byte} (h : textRead bs = some (j, r)) (t : List Byte) :
    textRead (bs ++ t) = some (j, r ++ t) := by
  unfold textRead at h ⊢
  cases hk : leRead 8 bs with
  | none => rw [hk] at h; cases h
  | some p =>
    obtain ⟨n, b⟩ := p
    rw [hk] at h
    rw [leRead_more hk]
    simp only at h ⊢
    split at h
    · rename_i hn
      rw [if_pos (by rw [List.length_append]; omega), List.take_append_of_le_length hn,
        List.drop_append_of_le_length hn]
      split at h
      · rename_i s e
        cases h
        rfl
      · cases h
    · cases h

theorem timesRead_more {f : List Byte → Option (SVal × List Byte)} (t : List Byte)
    (hf : ∀ j bs r, f bs = some (j, r) → f (bs ++ t) = some (j, r ++ t)) :
    ∀ {n : Nat} {js : List SVal} {bs r : List Byte}, timesRead f n bs = some (js, r) →
      timesRead f n (bs ++ t) = some (js, r ++ t)
  | 0, js, bs, r, h => by cases h; rfl
  | n + 1, js, bs, r, h => by
    rw [timesRead] at h ⊢
    cases hb : f bs with
    | none => rw [hb] at h; cases h
    | some p =>
      obtain ⟨j, b⟩ := p
      rw [hb] at h
      rw [hf _ _ _ hb]
      simp only at h ⊢
      cases hn : timesRead f n b with
      | none => rw [hn] at h; cases h
      | some q =>
        obtain ⟨q1, q2⟩ := q
        rw [hn] at h
        cases h
        rw [timesRead_more t hf hn]
        rfl

theorem map_some {α β : Type} {o : Option α} {f : α → β} {b : β} (h : o.map f = some b) :
    ∃ a, o = some a ∧ b = f a := by
  cases o with
  | none => cases h
  | some a => cases h; exact ⟨a, rfl, rfl⟩

mutual
theorem binRead_more (t : List Byte) : ∀ (s : Shape) (j : SVal) (bs r : List Byte),
    binRead s bs = some (j, r) → binRead s (bs ++ t) = some (j, r ++ t)
  | .bool, j, bs, r, h => by
    cases bs with
    | nil => cases h
    | cons b bs =>
      rw [binRead] at h
      rw [List.cons_append, binRead]
      split at h
      · rename_i hb; cases h; rw [if_pos hb]
      · rename_i hb
        rw [if_neg hb]
        split at h
        · rename_i hc; cases h; rw [if_pos hc]
        · cases h
  | .unsigned w, j, bs, r, h => by
    rw [binRead] at h ⊢
    obtain ⟨⟨n, b⟩, h1, h2⟩ := map_some h
    cases h2
    rw [leRead_more h1]
    rfl
  | .signed w, j, bs, r, h => by
    rw [binRead] at h ⊢
    obtain ⟨⟨n, b⟩, h1, h2⟩ := map_some h
    cases h2
    rw [leRead_more h1]
    rfl
  | .f32, j, bs, r, h => by
    rw [binRead] at h ⊢
    obtain ⟨⟨n, b⟩, h1, h2⟩ := map_some h
    cases h2
    rw [leRead_more h1]
    rfl
  | .text, j, bs, r, h => by rw [binRead] at h ⊢; exact textRead_more h t
  | .u64, j, bs, r, h => by rw [binRead] at h ⊢; exact textRead_more h t
  | .i64, j, bs, r, h => by rw [binRead] at h ⊢; exact textRead_more h t
  | .opt s, j, bs, r, h => by
    cases bs with
    | nil => rw [binRead] at h; cases h
    | cons b bs =>
      rw [binRead] at h
      rw [List.cons_append, binRead]
      split at h
      · rename_i hb; cases h; rw [if_pos hb]
      · rename_i hb
        rw [if_neg hb]
        split at h
        · rename_i hc; rw [if_pos hc]; exact binRead_more t s _ _ _ h
        · cases h
  | .list s, j, bs, r, h => by
    rw [binRead] at h ⊢
    cases hk : leRead 8 bs with
    | none => rw [hk] at h; cases h
    | some p =>
      obtain ⟨n, b⟩ := p
      rw [hk] at h
      rw [leRead_more hk]
      simp only at h ⊢
      obtain ⟨⟨q1, q2⟩, h1, h2⟩ := map_some h
      cases h2
      rw [timesRead_more t (binRead_more t s) h1]
      rfl
  | .tuple ss, j, bs, r, h => by
    rw [binRead] at h ⊢
    obtain ⟨⟨n, b⟩, h1, h2⟩ := map_some h
    cases h2
    rw [binReadAll_more t ss _ _ _ h1]
    rfl
  | .struct fs, j, bs, r, h => by
    rw [binRead] at h ⊢
    obtain ⟨⟨n, b⟩, h1, h2⟩ := map_some h
    cases h2
    rw [binReadFields_more t fs _ _ _ h1]
    rfl
  | .enum vs, j, bs, r, h => by
    rw [binRead] at h ⊢
    cases hk : leRead 4 bs with
    | none => rw [hk] at h; cases h
    | some p =>
      obtain ⟨n, b⟩ := p
      rw [hk] at h
      rw [leRead_more hk]
      exact binReadVariant_more t vs n _ _ _ h
  | .prop, j, bs, r, h => by cases h
  | .props, j, bs, r, h => by cases h
theorem binReadAll_more (t : List Byte) : ∀ (ss : List Shape) (js : List SVal) (bs r : List Byte),
    binReadAll ss bs = some (js, r) → binReadAll ss (bs ++ t) = some (js, r ++ t)
  | [], js, bs, r, h => by rw [binReadAll] at h ⊢; cases h; rfl
  | s :: ss, js, bs, r, h => by
    rw [binReadAll] at h ⊢
    cases hk : binRead s bs with
    | none => rw [hk] at h; cases h
    | some p =>
      obtain ⟨n, b⟩ := p
      rw [hk] at h
      rw [binRead_more t s _ _ _ hk]
      simp only at h ⊢
      obtain ⟨⟨q1, q2⟩, h1, h2⟩ := map_some h
      cases h2
      rw [binReadAll_more t ss _ _ _ h1]
      rfl
theorem binReadFields_more (t : List Byte) :
    ∀ (fs : List (String × Shape)) (kvs : List (String × SVal)) (bs r : List Byte),
    binReadFields fs bs = some (kvs, r) → binReadFields fs (bs ++ t) = some (kvs, r ++ t)
  | [], js, bs, r, h => by rw [binReadFields] at h ⊢; cases h; rfl
  | (k, s) :: fs, js, bs, r, h => by
    rw [binReadFields] at h ⊢
    cases hk : binRead s bs with
    | none => rw [hk] at h; cases h
    | some p =>
      obtain ⟨n, b⟩ := p
      rw [hk] at h
      rw [binRead_more t s _ _ _ hk]
      simp only at h ⊢
      obtain ⟨⟨q1, q2⟩, h1, h2⟩ := map_some h
      cases h2
      rw [binReadFields_more t fs _ _ _ h1]
      rfl
theorem binReadVariant_more (t : List Byte) :
    ∀ (vs : List (String × Option Shape)) (n : Nat) (j : SVal) (bs r : List Byte),
    binReadVariant vs n bs = some (j, r) → binReadVariant vs n (bs ++ t) = some (j, r ++ t)
  | [], n, j, bs, r, h => by rw [binReadVariant] at h; cases h
  | (name, none) :: vs, 0, j, bs, r, h => by rw [binReadVariant] at h ⊢; cases h; rfl
  | (name, some s) :: vs, 0, j, bs, r, h => by
    rw [binReadVariant] at h ⊢
    obtain ⟨⟨n, b⟩, h1, h2⟩ := map_some h
    cases h2
    rw [binRead_more t s _ _ _ h1]
    rfl
  | (name, none) :: vs, n + 1, j, bs, r, h => by
    rw [binReadVariant] at h ⊢
    exact binReadVariant_more t vs n j bs r h
  | (name, some s) :: vs, n + 1, j, bs, r, h => by
    rw [binReadVariant] at h ⊢
    exact binReadVariant_more t vs n j bs r h
end

end Boxcars.Binary
