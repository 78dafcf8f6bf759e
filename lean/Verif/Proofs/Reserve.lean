import Verif.Spec.Reserve
import Verif.Proofs.WorkParse
import Verif.Proofs.Run
/-!
# Slots reserved ahead of the data
-/
namespace Boxcars.Reserve
open Boxcars Spec Work

variable {α β : Type}

/-- `mt` computes what `m` computes; at any time it has at most `B` slots reserved, or at most
25000 for every 34 of the bytes given to it plus `c`. -/
structure Peak (mt : RT α) (m : P α) (c : Int) (B : Nat) : Prop where
  erase : ∀ env s, (mt env s).1 = m env s
  bound : ∀ env s, (mt env s).2 ≤ B ∨ 34 * ((mt env s).2 : Int) ≤ 25000 * (s.data.length + c)

theorem Peak.mono {mt : RT α} {m : P α} {c c' : Int} {B B' : Nat} (h : Peak mt m c B)
    (hc : c ≤ c') (hB : B ≤ B') : Peak mt m c' B' where
  erase := h.erase
  bound env s := by
    rcases h.bound env s with h | h
    · exact .inl (by omega)
    · exact .inr (by omega)

theorem Peak.pure (a : α) (c : Int) (B : Nat) :
    Peak (Pure.pure a : RT α) (Pure.pure a : P α) c B where
  erase _ _ := rfl
  bound _ _ := .inl (Nat.zero_le _)

theorem Peak.plain (m : P α) (c : Int) (B : Nat) : Peak (RT.plain m) m c B where
  erase _ _ := rfl
  bound _ _ := .inl (Nat.zero_le _)

/-- What follows has fewer bytes at its disposal. -/
theorem Peak.bind {mt : RT α} {m : P α} {ft : α → RT β} {f : α → P β} {c c' : Int} {B j : Nat}
    (h : Peak mt m c B) (he : Eats j m) (h' : ∀ a, Peak (ft a) (f a) c' B) (hc : c' ≤ c + j) :
    Peak (mt >>= ft) (m >>= f) c B where
  erase env s := by
    have e := h.erase env s
    show (RT.bind mt ft env s).1 = P.bind m f env s
    unfold RT.bind P.bind
    rcases ht : mt env s with ⟨r, t⟩
    rw [ht] at e
    simp only at e
    rw [← e]
    cases r with
    | ok a s1 => exact (h' a).erase env s1
    | err e s1 => rfl
    | fault x => rfl
  bound env s := by
    have e := h.erase env s
    have b := h.bound env s
    show (RT.bind mt ft env s).2 ≤ _ ∨ 34 * ((RT.bind mt ft env s).2 : Int) ≤ _
    unfold RT.bind
    rcases ht : mt env s with ⟨r, t⟩
    rw [ht] at e b
    simp only at e b
    cases r with
    | ok a s1 =>
      have b' := (h' a).bound env s1
      have l := (he env s).1 a s1 e.symm
      simp only
      omega
    | err e s1 => exact b
    | fault x => exact b

/-- The same, when the bytes consumed depend on the result. -/
theorem Peak.bindOn {m : P α} {ft : α → RT β} {f : α → P β} {c : Int} {c' : α → Int} {B : Nat}
    (j : α → Nat)
    (he : ∀ env s a s', m env s = .ok a s' → s'.data.length + j a ≤ s.data.length)
    (h' : ∀ a, Peak (ft a) (f a) (c' a) B) (hc : ∀ a, c' a ≤ c + j a) :
    Peak (RT.plain m >>= ft) (m >>= f) c B where
  erase env s := by
    show (RT.bind (RT.plain m) ft env s).1 = P.bind m f env s
    unfold RT.bind P.bind RT.plain
    cases m env s with
    | ok a s1 => exact (h' a).erase env s1
    | err e s1 => rfl
    | fault x => rfl
  bound env s := by
    show (RT.bind (RT.plain m) ft env s).2 ≤ _ ∨ 34 * ((RT.bind (RT.plain m) ft env s).2 : Int) ≤ _
    unfold RT.bind RT.plain
    cases hm : m env s with
    | ok a s1 =>
      have b' := (h' a).bound env s1
      have l := he env s a s1 hm
      have := hc a
      simp only
      omega
    | err e s1 => exact .inl (Nat.zero_le _)
    | fault x => exact .inl (Nat.zero_le _)

theorem Peak.wrap {mt : RT α} {m : P α} {c : Int} {B : Nat} (sec : String) (h : Peak mt m c B) :
    Peak (RT.wrap sec mt) (P.wrap sec m) c B where
  erase env s := by
    have e := h.erase env s
    unfold RT.wrap P.wrap
    rw [← e]
    rcases mt env s with ⟨r, t⟩
    cases r <;> rfl
  bound env s := by
    have b := h.bound env s
    unfold RT.wrap
    rcases ht : mt env s with ⟨r, t⟩
    rw [ht] at b
    cases r <;> exact b

theorem Peak.replicate {ft : RT α} {f : P α} {c : Int} {B : Nat} (h : Peak ft f c B) (he : Eats 0 f)
    (n : Nat) : Peak (Reserve.replicateP n ft) (Boxcars.replicateP n f) c B ∧
      Eats 0 (Boxcars.replicateP n f) := by
  induction n with
  | zero => exact ⟨Peak.pure _ _ _, Eats.pure _⟩
  | succ n ih =>
    rw [Reserve.replicateP, Boxcars.replicateP]
    exact ⟨h.bind he (fun a => ih.1.bind ih.2 (fun l => Peak.pure _ _ _) (Int.le_refl _)) (by omega),
      he.bind (j := 0) fun _ => ih.2.bind (j := 0) fun _ => Eats.pure _⟩

theorem repeat_eats {f : P α} (he : Eats 0 f) (n : Nat) : Eats 0 (Boxcars.repeatP n f) := by
  unfold Boxcars.repeatP
  split
  · exact Eats.fail _ _
  · exact (Peak.replicate (Peak.plain f 0 0) he n).2

/-- Peak at most `B` whatever the input. -/
def Flat (mt : RT α) (m : P α) (B : Nat) : Prop :=
  Eats 0 m ∧ ∀ env s, (mt env s).1 = m env s ∧ (mt env s).2 ≤ B

theorem Flat.plain {m : P α} {j : Nat} (h : Eats j m) (B : Nat) : Flat (RT.plain m) m B :=
  ⟨h.mono (Nat.zero_le _), fun _ _ => ⟨rfl, Nat.zero_le _⟩⟩

theorem Flat.pure (a : α) (B : Nat) : Flat (Pure.pure a : RT α) (Pure.pure a : P α) B :=
  ⟨Eats.pure a, fun _ _ => ⟨rfl, Nat.zero_le _⟩⟩

theorem Flat.bind {mt : RT α} {m : P α} {ft : α → RT β} {f : α → P β} {B : Nat}
    (h : Flat mt m B) (h' : ∀ a, Flat (ft a) (f a) B) : Flat (mt >>= ft) (m >>= f) B := by
  refine ⟨h.1.bind (j := 0) fun a => (h' a).1, fun env s => ?_⟩
  obtain ⟨e, b⟩ := h.2 env s
  show (RT.bind mt ft env s).1 = P.bind m f env s ∧ (RT.bind mt ft env s).2 ≤ B
  unfold RT.bind P.bind
  rcases ht : mt env s with ⟨r, t⟩
  rw [ht] at e b
  simp only at e b
  rw [← e]
  cases r with
  | ok a s1 => exact ⟨((h' a).2 env s1).1, Nat.max_le.2 ⟨b, ((h' a).2 env s1).2⟩⟩
  | err e s1 => exact ⟨rfl, b⟩
  | fault x => exact ⟨rfl, b⟩

theorem Flat.wrap {mt : RT α} {m : P α} {B : Nat} (sec : String) (h : Flat mt m B) :
    Flat (RT.wrap sec mt) (P.wrap sec m) B := by
  refine ⟨h.1.wrap sec, fun env s => ?_⟩
  obtain ⟨e, b⟩ := h.2 env s
  unfold RT.wrap P.wrap
  rw [← e]
  rcases ht : mt env s with ⟨r, t⟩
  rw [ht] at b
  cases r <;> exact ⟨rfl, b⟩

theorem Flat.mono {mt : RT α} {m : P α} {B B' : Nat} (h : Flat mt m B) (hB : B ≤ B') : Flat mt m B' :=
  ⟨h.1, fun env s => ⟨(h.2 env s).1, Nat.le_trans (h.2 env s).2 hB⟩⟩

theorem Flat.replicate {ft : RT α} {f : P α} {B : Nat} (h : Flat ft f B) (n : Nat) :
    Flat (Reserve.replicateP n ft) (Boxcars.replicateP n f) B := by
  induction n with
  | zero => exact Flat.pure _ _
  | succ n ih =>
    rw [Reserve.replicateP, Boxcars.replicateP]
    exact h.bind fun a => ih.bind fun l => Flat.pure _ _

theorem Flat.repeat {ft : RT α} {f : P α} {B : Nat} (h : Flat ft f B) (n : Nat) :
    Flat (Reserve.repeatP n ft) (Boxcars.repeatP n f) (25000 + B) := by
  unfold Reserve.repeatP Boxcars.repeatP
  split
  · exact Flat.plain (Eats.fail _ 0) _
  · refine ⟨(h.replicate n).1, fun env s => ⟨((h.replicate n).2 env s).1, ?_⟩⟩
    have := ((h.replicate n).2 env s).2
    show n + _ ≤ _
    omega

theorem Flat.list {ft : RT α} {f : P α} {B : Nat} (h : Flat ft f B) :
    Flat (Reserve.listOf ft) (Boxcars.listOf f) (25000 + B) := by
  unfold Reserve.listOf Boxcars.listOf
  exact (Flat.plain Eats.take32 _).bind fun size => (Flat.plain (Eats.usize size) _).bind fun n =>
    h.repeat n

theorem flat32 : Flat (RT.plain take32) take32 0 := Flat.plain Eats.take32 0
theorem flatText : Flat (RT.plain parseText) parseText 0 := Flat.plain Eats.parseText 0
theorem flatStr : Flat (RT.plain parseStr) parseStr 0 := Flat.plain Eats.parseStr 0

theorem body_flat : Flat Reserve.parseBody Boxcars.parseBody 50000 := by
  have text : Flat Reserve.textList Boxcars.textList 50000 := flatText.list.mono (by omega)
  have tick : Flat Reserve.parseTickmarks Boxcars.parseTickmarks 50000 :=
    (flatText.bind fun _ => flat32.bind fun _ => Flat.pure _ 0).list.mono (by omega)
  have key : Flat Reserve.parseKeyframe Boxcars.parseKeyframe 50000 :=
    (flat32.bind fun _ => flat32.bind fun _ => flat32.bind fun _ => Flat.pure _ 0).list.mono (by omega)
  have debug : Flat Reserve.parseDebuginfo Boxcars.parseDebuginfo 50000 :=
    (flat32.bind fun _ => flatText.bind fun _ => flatText.bind fun _ => Flat.pure _ 0).list.mono (by omega)
  have cls : Flat Reserve.parseClassindex Boxcars.parseClassindex 50000 :=
    (flatStr.bind fun _ => flat32.bind fun _ => Flat.pure _ 0).list.mono (by omega)
  have cache : Flat Reserve.parseClasscache Boxcars.parseClasscache 50000 :=
    (((flat32.mono (Nat.zero_le 25000)).bind fun _ => (flat32.mono (Nat.zero_le 25000)).bind fun _ =>
      (flat32.mono (Nat.zero_le 25000)).bind fun _ =>
      ((flat32.bind fun _ => flat32.bind fun _ => Flat.pure _ 0).list.mono (B' := 25000)
        (by omega)).bind fun _ => Flat.pure _ 25000).list).mono (by omega)
  unfold Reserve.parseBody Boxcars.parseBody
  exact (text.wrap _).bind fun _ => (key.wrap _).bind fun _ =>
    (Flat.plain (Eats.takeI32 _) _).bind fun size => (Flat.plain (Eats.usize size) _).bind fun n =>
    (Flat.plain ((Eats.takeData n).wrap _) _).bind fun _ => (debug.wrap _).bind fun _ =>
    (tick.wrap _).bind fun _ => (text.wrap _).bind fun _ => (text.wrap _).bind fun _ =>
    (text.wrap _).bind fun _ => (cls.wrap _).bind fun _ => (cache.wrap _).bind fun _ => Flat.pure _ _

/-! ### Header -/

/-- The string takes its size field and, unless empty, its bytes and one more. -/
theorem parseStr_eats (env : Env) (s : CoreSt) (a : Str) (s' : CoreSt)
    (h : parseStr env s = .ok a s') :
    s'.data.length + (if a = lit "ArrayProperty" then 18 else 4) ≤ s.data.length := by
  by_cases ha : a = lit "ArrayProperty"
  · rw [if_pos ha]
    unfold parseStr at h
    simp only [Bind.bind, P.bind] at h
    cases h1 : take32 env s with
    | err e s1 => rw [h1] at h; cases h
    | fault x => rw [h1] at h; cases h
    | ok size s1 =>
      rw [h1] at h
      simp only [P.usize] at h
      have l1 := (Eats.take32 env s).1 size s1 h1
      cases h2 : takeData (env.usizeOfI32 size) env s1 with
      | err e s2 => rw [h2] at h; cases h
      | fault x => rw [h2] at h; cases h
      | ok bs s2 =>
        rw [h2] at h
        simp only at h
        have l2 := (Eats.takeData (env.usizeOfI32 size) env s1).1 bs s2 h2
        have lb : bs.length = env.usizeOfI32 size := by
          unfold takeData at h2
          split at h2
          · rename_i hle
            split at h2
            · cases h2; rw [List.length_take]; omega
            · cases h2
          · cases h2
        cases hd : decodeStr bs with
        | error e => rw [hd] at h; cases h
        | ok t =>
          rw [hd] at h
          cases h
          rcases (decodeStr_iff bs a).1 hd with ⟨h0, _⟩ | ⟨last, hb⟩
          · rw [ha] at h0
            exact absurd h0 (by decide)
          · have : (utf8 a).length = 13 := by rw [ha]; decide +kernel
            rw [hb, List.length_append, this] at lb
            simp only [List.length_cons, List.length_nil] at lb
            omega
  · rw [if_neg ha]
    exact (Eats.parseStr env s).1 a s' h

theorem propValue_peak {rt : RT (List (Str × HeaderProp))} {r : P (List (Str × HeaderProp))}
    (h : Peak rt r 0 0) (he : Eats 0 r) (mode : ParserMode) (kind : Str) :
    Peak (Reserve.propValue rt mode kind) (Boxcars.propValue r mode kind)
      (if kind = lit "ArrayProperty" then 30 else 0) 0 ∧ Eats 0 (Boxcars.propValue r mode kind) := by
  unfold Reserve.propValue
  split
  · rename_i hk
    have e : Boxcars.propValue r mode kind = (do
        let size ← takeI32 "array property size"
        let n ← P.usize size
        let arr ← Boxcars.repeatP n r
        Pure.pure (some (.array arr))) := by
      subst hk
      unfold Boxcars.propValue
      rw [if_neg (by rw [lit_inj]; decide), if_neg (by rw [lit_inj]; decide), if_pos rfl]
    rw [e]
    refine ⟨?_, ((Eats.takeI32 _).mono (Nat.zero_le _)).bind (j := 0) fun size =>
      (Eats.usize size).bind (j := 0) fun n => (repeat_eats he n).bind (j := 0) fun _ => Eats.pure _⟩
    refine (Peak.plain _ _ _).bind (Eats.takeI32 _) (c' := 34) (fun size =>
      (Peak.plain _ _ _).bind (Eats.usize size) (c' := 34) (fun n =>
        Peak.bind (c' := 34) ?_ (repeat_eats he n) (fun _ => Peak.pure _ _ _) (by omega)) (by omega))
          (by omega)
    unfold Reserve.repeatP Boxcars.repeatP
    split
    · exact Peak.plain _ _ _
    · have hr := (h.replicate he n).1
      refine ⟨hr.erase, fun env s => .inr ?_⟩
      have := hr.bound env s
      show 34 * ((n + (Reserve.replicateP n rt env s).2 : Nat) : Int) ≤ _
      omega
  · rename_i hk
    split
    · rename_i hk'
      have e : Boxcars.propValue r mode kind = (do
          let name ← parseStr
          let fields ← r
          Pure.pure (some (.struct name fields))) := by
        subst hk'
        unfold Boxcars.propValue
        rw [if_neg (by rw [lit_inj]; decide), if_neg (by rw [lit_inj]; decide),
          if_neg (by rw [lit_inj]; decide), if_neg (by rw [lit_inj]; decide),
          if_neg (by rw [lit_inj]; decide), if_neg (by rw [lit_inj]; decide),
          if_neg (by rw [lit_inj]; decide), if_neg (by rw [lit_inj]; decide), if_pos rfl]
      rw [e]
      exact ⟨(Peak.plain _ _ _).bind (j := 0) (c' := 0) (Eats.parseStr.mono (Nat.zero_le _)) (fun _ =>
        h.bind he (c' := 0) (fun _ => Peak.pure _ _ _) (by omega)) (by omega),
        (Eats.parseStr.mono (Nat.zero_le _)).bind (j := 0) fun _ => he.bind (j := 0) fun _ => Eats.pure _⟩
    · rename_i hk'
      rw [propValue_plain r (P.fail (.unexpectedProperty [])) mode kind hk hk']
      exact ⟨Peak.plain _ _ _, propValue_eats _ mode kind hk hk'⟩

theorem rdict_peak (fuel : Nat) (mode : ParserMode) :
    Peak (Reserve.parseRdict fuel mode) (Boxcars.parseRdict fuel mode) 0 0 ∧
      Eats 0 (Boxcars.parseRdict fuel mode) := by
  induction fuel with
  | zero =>
    exact ⟨Peak.plain _ _ _, fun env s => ⟨fun a s' h => (by cases h), fun a s' h => (by cases h)⟩⟩
  | succ fuel ih =>
    rw [Reserve.parseRdict, Boxcars.parseRdict]
    constructor
    · refine (Peak.plain _ _ _).bind Eats.parseStr (c' := 4) (fun key => ?_) (by omega)
      split
      · exact Peak.pure _ _ _
      · refine Peak.bindOn (fun kind => if kind = lit "ArrayProperty" then 18 else 4)
          (c' := fun kind => if kind = lit "ArrayProperty" then 22 else 0) parseStr_eats
          (fun kind => ?_) (fun kind => by split <;> simp)
        have pv := propValue_peak ih.1 ih.2 mode kind
        refine (Peak.plain _ _ _).bind (Eats.takeI32 _)
          (c' := if kind = lit "ArrayProperty" then 26 else 0) (fun _ =>
          (Peak.plain _ _ _).bind (Eats.takeData 4)
            (c' := if kind = lit "ArrayProperty" then 30 else 0) (fun _ =>
            pv.1.bind pv.2 (c' := 0) (fun val => ih.1.bind ih.2 (c' := 0) (fun rest => ?_) (by omega))
              (by split <;> simp)) (by split <;> simp)) (by split <;> simp)
        cases val <;> exact Peak.pure _ _ _
    · refine (Eats.parseStr.mono (Nat.zero_le _)).bind (j := 0) fun key => ?_
      split
      · exact Eats.pure _
      · refine (Eats.parseStr.mono (Nat.zero_le _)).bind (j := 0) fun kind =>
          ((Eats.takeI32 _).mono (Nat.zero_le _)).bind (j := 0) fun _ =>
          ((Eats.takeData 4).mono (Nat.zero_le _)).bind (j := 0) fun _ =>
          (propValue_peak ih.1 ih.2 mode kind).2.bind (j := 0) fun val => ih.2.bind (j := 0) fun rest => ?_
        cases val <;> exact Eats.pure _

theorem rdictFuel_eats : Eats 0 rdictFuel := fun env s =>
  ⟨fun b s' hb => (by cases hb; exact Nat.le_refl _), fun e' s' hb => by cases hb⟩

theorem header_peak : Peak Reserve.parseHeader Boxcars.parseHeader 0 0 := by
  rw [parseHeader_eq]
  unfold Reserve.parseHeader
  refine (Peak.plain _ _ _).bind ((Eats.takeI32 _).mono (Nat.zero_le _)) (fun major =>
    (Peak.plain _ _ _).bind ((Eats.takeI32 _).mono (Nat.zero_le _)) (fun minor =>
    (Peak.plain _ _ _).bind (netVersion_eats major minor) (fun net =>
    (Peak.plain _ _ _).bind ((Eats.parseText.wrap _).mono (Nat.zero_le _)) (fun game =>
    Peak.bind (Peak.wrap _ ((Peak.plain _ _ _).bind rdictFuel_eats
      (fun fuel => (rdict_peak fuel _).1) (Int.le_refl _)))
      (Eats.wrap _ (rdictFuel_eats.bind (j := 0) fun fuel => (rdict_peak fuel _).2))
      (fun props => Peak.pure _ 0 _) (Int.le_refl _)) (Int.le_refl _)) (Int.le_refl _))
    (Int.le_refl _)) (Int.le_refl _)

/-! ## The whole parser -/

/-- On an input of `T` bytes: the copy computes what the parser computes, with at most `25000`
slots for every 34 bytes or `50000` in all, and `Q` holds of what it returns. -/
def TPeak (T : Nat) (env : Env) (mt : RT α) (m : P α) (Q : α → Prop) : Prop :=
  ∀ s, CoreInv env T s → (mt env s).1 = m env s ∧
    ((mt env s).2 ≤ 50000 ∨ 34 * (mt env s).2 ≤ 25000 * T) ∧
    ∀ a s', m env s = .ok a s' → CoreInv env T s' ∧ Q a

namespace TPeak

variable {T : Nat} {env : Env}

theorem pure (a : α) : TPeak T env (Pure.pure a : RT α) (Pure.pure a : P α) (fun _ => True) :=
  fun s hs => ⟨rfl, .inl (Nat.zero_le _), fun b s' h => by cases h; exact ⟨hs, trivial⟩⟩

theorem usize (x : I32) : TPeak T env (RT.plain (P.usize x)) (P.usize x) (fun _ => True) :=
  fun s hs => ⟨rfl, .inl (Nat.zero_le _), fun b s' h => by cases h; exact ⟨hs, trivial⟩⟩

theorem plain {m : P α} {R : PRel α} (hT : T ≤ env.isizeMax) (hr : PSpec T m R) :
    TPeak T env (RT.plain m) m (fun a => ∃ d d', d.length ≤ T ∧ R a d d') := by
  intro s hs
  refine ⟨rfl, .inl (Nat.zero_le _), fun a s' hm => ?_⟩
  have := (hr.okIff T env s hT hs hs.1 a s').1 hm
  exact ⟨this.2, s.data, s'.data, hs.1, this.1⟩

theorem bind {mt : RT α} {m : P α} {ft : α → RT β} {f : α → P β} {Q : α → Prop} {Q' : β → Prop}
    (h : TPeak T env mt m Q) (h' : ∀ a, Q a → TPeak T env (ft a) (f a) Q') :
    TPeak T env (mt >>= ft) (m >>= f) Q' := by
  intro s hs
  obtain ⟨h1, h2, h3⟩ := h s hs
  show (RT.bind mt ft env s).1 = P.bind m f env s ∧ ((RT.bind mt ft env s).2 ≤ _ ∨
      34 * (RT.bind mt ft env s).2 ≤ _) ∧
    ∀ b s', P.bind m f env s = .ok b s' → _
  unfold RT.bind P.bind
  rcases ht : mt env s with ⟨x, t⟩
  rw [ht] at h1 h2
  simp only at h1 h2
  rw [← h1] at h3 ⊢
  cases x with
  | ok a s1 =>
    obtain ⟨i1, q⟩ := h3 a s1 rfl
    obtain ⟨k1, k2, k3⟩ := h' a q s1 i1
    refine ⟨k1, ?_, k3⟩
    simp only
    omega
  | err e s1 => exact ⟨rfl, h2, fun b s' hb => by cases hb⟩
  | fault e => exact ⟨rfl, h2, fun b s' hb => by cases hb⟩

theorem section_ {mt : RT α} {m : P α} {R : PRel α} (hT : T ≤ env.isizeMax) (check : CrcCheck)
    (data : List Byte) (crc : U32) (sec : String) (he : ∀ env s, (mt env s).1 = m env s)
    (hb : ∀ env s, (mt env s).2 ≤ 50000 ∨ 34 * (mt env s).2 ≤ 25000 * s.data.length)
    (hr : PSpec T m R) :
    TPeak T env (Reserve.crcSection check data crc sec mt) (Boxcars.crcSection check data crc sec m)
      (fun a => ∃ d d', d.length ≤ T ∧ R a d d') := by
  intro s hs
  have e : (fun env s => (mt env s).1) = m := by funext env s; exact he env s
  refine ⟨?_, ?_, ?_⟩
  · show Boxcars.crcSection check data crc sec (fun env s => (mt env s).1) env s = _
    rw [e]
  · show (mt env s).2 ≤ _ ∨ 34 * (mt env s).2 ≤ _
    have := hs.1
    have := hb env s
    omega
  · intro a s' ha
    unfold Boxcars.crcSection at ha
    cases hm : m env s with
    | ok b s1 =>
      rw [hm] at ha
      have := (hr.okIff T env s hT hs hs.1 b s1).1 hm
      cases check <;> simp only at ha <;> (try split at ha) <;> cases ha <;>
        exact ⟨this.2, s.data, s'.data, hs.1, this.1⟩
    | err e s1 =>
      rw [hm] at ha
      cases check <;> simp only at ha <;> (try split at ha) <;> cases ha
    | fault f => rw [hm] at ha; cases ha

end TPeak

theorem frameSlots_le (env : Env) (h : Header) (b : ReplayBody) :
    frameSlots env h b ≤ b.networkData.length := by
  unfold frameSlots
  split
  · split
    · split
      · exact Nat.zero_le _
      · split
        · exact Nat.zero_le _
        · omega
    · exact Nat.zero_le _
  · exact Nat.zero_le _

theorem networkStep_peak {T : Nat} {env : Env} (np : NetworkParse) (h : Header) (b : ReplayBody)
    (hb : b.networkData.length ≤ T) :
    TPeak T env (Reserve.networkStep np h b) (Boxcars.networkStep np h b) (fun _ => True) := by
  intro s hs
  have hl := frameSlots_le env h b
  refine ⟨rfl, ?_, ?_⟩
  · show (match np with | .never => 0 | _ => frameSlots env h b) ≤ 50000 ∨
      34 * (match np with | .never => 0 | _ => frameSlots env h b) ≤ _
    cases np <;> simp only <;> omega
  · intro a s' ha
    refine ⟨?_, trivial⟩
    unfold Boxcars.networkStep at ha
    cases np with
    | never => cases ha; exact hs
    | always =>
      cases hp : Network.parse env h b with
      | ok f => rw [hp] at ha; cases ha; exact hs
      | err e => rw [hp] at ha; cases ha
      | fault x => rw [hp] at ha; cases ha
    | ignoreOnError =>
      cases hp : Network.parse env h b with
      | ok f => rw [hp] at ha; cases ha; exact hs
      | err e => rw [hp] at ha; cases ha; exact hs
      | fault x => rw [hp] at ha; cases ha

theorem parserParse_peak {T : Nat} {env : Env} (check : CrcCheck) (np : NetworkParse) (hT : T ≤ env.isizeMax) :
    TPeak T env (Reserve.parserParse check np) (Boxcars.parserParse check np) (fun _ => True) := by
  unfold Reserve.parserParse Boxcars.parserParse
  have int (sec : String) := TPeak.plain (env := env) hT (takeI32_spec (N := T) sec)
  have view (sec : String) (n : Nat) := TPeak.plain (env := env) hT ((viewData_spec (N := T) n).wrap sec)
  refine (int _).bind fun _ _ => (int _).bind fun _ _ => (TPeak.usize _).bind fun _ _ =>
    (view _ _).bind fun hd hh => (TPeak.section_ hT check hd _ _ header_peak.erase ?_
      (parseHeader_spec (N := T))).bind
      fun header _ => (int _).bind fun _ _ => (int _).bind fun _ _ => (TPeak.usize _).bind fun _ _ =>
    (view _ _).bind fun cd hc => (TPeak.section_ hT check cd _ _ (fun env s => (body_flat.2 env s).1) ?_
      (parseBody_spec (N := T))).bind
      fun b hb => (networkStep_peak np header b ?_).bind fun net _ => TPeak.pure _
  · intro env s
    have := header_peak.bound env s
    omega
  · intro env s
    exact .inl (body_flat.2 env s).2
  · obtain ⟨d, d', hl, bs, hb, rfl⟩ := hb
    have := bodySec_size hb
    rw [List.length_append] at hl
    have := this.bytes
    omega

theorem parse_peak {env : Env} {data : List Byte} (b : ParserBuilder) (hT : data.length ≤ env.isizeMax) :
    (Reserve.parse b env data).1 = b.parse env data ∧
    ((Reserve.parse b env data).2 ≤ 50000 ∨
      34 * (Reserve.parse b env data).2 ≤ 25000 * data.length) := by
  obtain ⟨h1, h2, _⟩ := parserParse_peak (env := env) (b.crcCheck.getD .onError)
    (b.networkParse.getD .ignoreOnError) hT (CoreSt.init data) CoreInv.init
  unfold Reserve.parse ParserBuilder.parse
  rw [← h1]
  rcases ht : Reserve.parserParse (b.crcCheck.getD .onError) (b.networkParse.getD .ignoreOnError) env
    (CoreSt.init data) with ⟨x, t⟩
  rw [ht] at h2
  cases x <;> exact ⟨rfl, h2⟩

/-! ## Arrays inside each other -/

theorem bind_right {m : P α} {f : α → RT β} {env : Env} {s s' : CoreSt} {a : α} {k : Nat}
    (h : m env s = .ok a s') (hk : k ≤ (f a env s').2) : k ≤ ((RT.plain m >>= f) env s).2 := by
  show k ≤ (RT.bind (RT.plain m) f env s).2
  unfold RT.bind RT.plain
  rw [h]
  exact Nat.le_trans hk (Nat.le_max_right _ _)

theorem bind_left {m : RT α} {f : α → RT β} {env : Env} {s : CoreSt} {k : Nat}
    (hk : k ≤ (m env s).2) : k ≤ ((m >>= f) env s).2 := by
  show k ≤ (RT.bind m f env s).2
  unfold RT.bind
  rcases ht : m env s with ⟨r, t⟩
  rw [ht] at hk
  cases r with
  | ok a s' => exact Nat.le_trans hk (Nat.le_max_left _ _)
  | err e s' => exact hk
  | fault x => exact hk

theorem wrap_snd (sec : String) (m : RT α) (env : Env) (s : CoreSt) :
    (RT.wrap sec m env s).2 = (m env s).2 := by
  unfold RT.wrap
  rcases m env s with ⟨r, t⟩
  cases r <;> rfl

/-- A property without a name that starts an array of 25000 elements: 34 bytes. -/
def level : Bytes :=
  word 0 ++ (word 14 ++ ((utf8 (lit "ArrayProperty") ++ [0]) ++ (word 0 ++ (word 0 ++ word 25000))))

/-- `n` of them. -/
def levels : Nat → Bytes
  | 0 => []
  | n + 1 => level ++ levels n

theorem level_length : level.length = 34 := by decide +kernel

theorem levels_length (n : Nat) : (levels n).length = 34 * n := by
  induction n with
  | zero => rfl
  | succ n ih => rw [levels, List.length_append, level_length, ih]; omega

theorem rdict_levels (mode : ParserMode) (env : Env) {T : Nat} (hT : Room env T) (n : Nat) :
    ∀ fuel, n < fuel → (levels n).length ≤ T →
      25000 * n ≤ (Reserve.parseRdict fuel mode env (at_ T (levels n))).2 := by
  induction n with
  | zero => intro fuel _ _; exact Nat.zero_le _
  | succ n ih =>
    intro fuel hf hl
    obtain ⟨fuel, rfl⟩ : ∃ k, fuel = k + 1 := ⟨fuel - 1, by omega⟩
    have e : levels (n + 1) = word 0 ++ ([] ++ (word 14 ++ ((utf8 (lit "ArrayProperty") ++ [0]) ++
        (word 0 ++ (word 0 ++ (word 25000 ++ levels n)))))) := by
      simp only [levels, level, List.append_assoc, List.nil_append]
    have hl' := hl
    rw [levels_length] at hl'
    have w : ∀ x : BitVec 32, (word x).length = 4 := word_length
    have u : (utf8 (lit "ArrayProperty") ++ [0]).length = 14 := by decide +kernel
    have l0 := levels_length n
    rw [e, Reserve.parseRdict]
    have k1 : parseStr env (at_ T (word 0 ++ ([] ++ (word 14 ++ ((utf8 (lit "ArrayProperty") ++ [0]) ++
        (word 0 ++ (word 0 ++ (word 25000 ++ levels n)))))))) = .ok []
        (at_ T (word 14 ++ ((utf8 (lit "ArrayProperty") ++ [0]) ++
        (word 0 ++ (word 0 ++ (word 25000 ++ levels n)))))) :=
      parseStr_run hT (by rw [← e]; exact hl) (by decide) rfl
    refine bind_right k1 ?_
    rw [if_neg (by decide)]
    have hk : decodeStr (utf8 (lit "ArrayProperty") ++ [0]) = .ok (lit "ArrayProperty") :=
      (decodeStr_iff _ _).2 (.inr ⟨0, rfl⟩)
    have k2 : parseStr env (at_ T (word 14 ++ ((utf8 (lit "ArrayProperty") ++ [0]) ++
        (word 0 ++ (word 0 ++ (word 25000 ++ levels n)))))) = .ok (lit "ArrayProperty")
        (at_ T (word 0 ++ (word 0 ++ (word 25000 ++ levels n)))) := by
      rw [parseStr_run hT (by simp only [List.length_append, w] at u ⊢; omega) (by decide)
        (by rw [u]; rfl), hk]
    refine bind_right k2 ?_
    refine bind_right (takeI32_run hT (by simp only [List.length_append, w]; omega)) ?_
    refine bind_right (a := word 0) (s' := at_ T (word 25000 ++ levels n)) ?_ ?_
    · have := takeData_run (env := env) (T := T) (bs := word 0) (d := word 25000 ++ levels n) hT
        (by simp only [List.length_append, w]; omega) (by rw [w]; decide)
      rwa [w] at this
    refine bind_left ?_
    unfold Reserve.propValue
    rw [if_pos rfl]
    refine bind_right (takeI32_run hT (by simp only [List.length_append, w]; omega)) ?_
    refine bind_right (a := 25000) (s' := at_ T (levels n)) ?_ ?_
    · show PRes.ok _ _ = _
      rw [PSpec.usizeOfI32_nonneg env 25000 (by decide)]
      rfl
    refine bind_left ?_
    unfold Reserve.repeatP
    rw [if_neg (by omega)]
    show 25000 * (n + 1) ≤ 25000 + (Reserve.replicateP (24999 + 1) _ _ _).2
    have h := ih fuel (by omega) (by omega)
    have : 25000 * n ≤ (Reserve.replicateP (24999 + 1) (Reserve.parseRdict fuel mode) env
        (at_ T (levels n))).2 := by
      rw [Reserve.replicateP]
      exact bind_left h
    omega

end Boxcars.Reserve
