import Verif.Spec.Work
import Verif.Proofs.Rdict
/-!
# Step counts of the header and body parsers
-/
namespace Boxcars.Work
open Boxcars

variable {α β : Type}

/-- At least `j` bytes are consumed by success; failures do not put bytes back. -/
def Eats (j : Nat) (m : P α) : Prop := ∀ env s,
  (∀ a s', m env s = .ok a s' → s'.data.length + j ≤ s.data.length) ∧
  (∀ e s', m env s = .err e s' → s'.data.length ≤ s.data.length)

theorem Eats.mono {i j : Nat} {m : P α} (h : Eats j m) (hi : i ≤ j) : Eats i m := fun env s =>
  ⟨fun a s' hm => by have := (h env s).1 a s' hm; omega, (h env s).2⟩

theorem Eats.pure (a : α) : Eats 0 (Pure.pure a : P α) := fun env s =>
  ⟨fun b s' h => by cases h; exact Nat.le_refl _, fun e s' h => by cases h⟩

theorem Eats.fail (e : ParseError) (j : Nat) : Eats j (P.fail e : P α) := fun env s =>
  ⟨fun b s' h => (by cases h), fun e s' h => by cases h; exact Nat.le_refl _⟩

theorem Eats.bind {i j : Nat} {m : P α} {f : α → P β} (h : Eats i m) (h' : ∀ a, Eats j (f a)) :
    Eats (i + j) (m >>= f) := by
  intro env s
  show (∀ b s', P.bind m f env s = .ok b s' → _) ∧ (∀ e s', P.bind m f env s = .err e s' → _)
  unfold P.bind
  cases hm : m env s with
  | ok a s1 =>
    have h1 := (h env s).1 a s1 hm
    refine ⟨fun b s' hb => ?_, fun e s' hb => ?_⟩
    · have := (h' a env s1).1 b s' hb; omega
    · have := (h' a env s1).2 e s' hb; omega
  | err e s1 =>
    have h1 := (h env s).2 e s1 hm
    exact ⟨fun b s' hb => (by cases hb), fun e' s' hb => by cases hb; exact h1⟩
  | fault x => exact ⟨fun b s' hb => (by cases hb), fun e' s' hb => by cases hb⟩

theorem Eats.wrap {j : Nat} {m : P α} (sec : String) (h : Eats j m) : Eats j (P.wrap sec m) := by
  intro env s
  unfold P.wrap
  cases hm : m env s with
  | ok a s1 =>
    exact ⟨fun b s' hb => (by cases hb; exact (h env s).1 a s1 hm), fun e s' hb => by cases hb⟩
  | err e s1 =>
    exact ⟨fun b s' hb => (by cases hb), fun e' s' hb => by cases hb; exact (h env s).2 e s1 hm⟩
  | fault x => exact ⟨fun b s' hb => (by cases hb), fun e' s' hb => by cases hb⟩

theorem Eats.takeData (n : Nat) : Eats n (Boxcars.takeData n) := by
  intro env s
  unfold Boxcars.takeData
  split
  · cases addCol env s.col n with
    | some c =>
      refine ⟨fun a s' h => ?_, fun e s' h => by cases h⟩
      cases h; simp only [List.length_drop]; omega
    | none => exact ⟨fun b s' hb => (by cases hb), fun e' s' hb => by cases hb⟩
  · exact ⟨fun b s' hb => (by cases hb), fun e' s' hb => by cases hb; exact Nat.le_refl _⟩

theorem Eats.viewData (n : Nat) : Eats 0 (Boxcars.viewData n) := by
  intro env s
  unfold Boxcars.viewData
  split
  · exact ⟨fun b s' hb => (by cases hb; exact Nat.le_refl _), fun e' s' hb => by cases hb⟩
  · exact ⟨fun b s' hb => (by cases hb), fun e' s' hb => by cases hb; exact Nat.le_refl _⟩

theorem Eats.take32 : Eats 4 Boxcars.take32 :=
  (Eats.takeData 4).bind (j := 0) fun _ => Eats.pure _

theorem Eats.take64 : Eats 8 Boxcars.take64 :=
  (Eats.takeData 8).bind (j := 0) fun _ => Eats.pure _

theorem Eats.takeI32 (sec : String) : Eats 4 (Boxcars.takeI32 sec) := Eats.take32.wrap sec

theorem Eats.usize (x : I32) : Eats 0 (P.usize x) := fun env s =>
  ⟨fun b s' h => by cases h; exact Nat.le_refl _, fun e s' h => by cases h⟩

theorem Eats.parseStr : Eats 4 Boxcars.parseStr := by
  unfold Boxcars.parseStr
  refine Eats.take32.bind (j := 0) fun size => (Eats.usize size).bind (j := 0) fun n =>
    ((Eats.takeData n).mono (Nat.zero_le _)).bind (j := 0) fun bs => ?_
  cases decodeStr bs with
  | ok s => exact Eats.pure s
  | error e => exact Eats.fail _ _

theorem Eats.parseText : Eats 4 Boxcars.parseText := by
  unfold Boxcars.parseText
  refine Eats.take32.bind (j := 0) fun c => ?_
  split
  · exact Eats.fail _ _
  · split
    · exact ((Eats.takeData _).mono (Nat.zero_le _)).bind (j := 0) fun _ => Eats.pure _
    · exact ((Eats.takeData _).mono (Nat.zero_le _)).bind (j := 0) fun _ => Eats.pure _

theorem Eats.boolProp (d : List Byte) : Eats 0 (Boxcars.boolProp d) := by
  intro env s
  cases d with
  | nil => exact ⟨fun b s' hb => (by cases hb), fun e' s' hb => by cases hb⟩
  | cons x d => exact ⟨fun b s' hb => (by cases hb; exact Nat.le_refl _), fun e' s' hb => by cases hb⟩

theorem Eats.map {j : Nat} {m : P α} (f : α → β) (h : Eats j m) : Eats j (f <$> m) :=
  h.bind (j := 0) (f := fun a => Pure.pure (f a)) fun _ => Eats.pure _

/-! ## Counted parsers -/

/-- `mt` computes what `m` computes; success costs at most three steps per byte consumed plus
`k`, failure three steps per byte plus `K`. -/
structure Meas (mt : PT α) (m : P α) (k K : Int) : Prop where
  erase : ∀ env s, (mt env s).1 = m env s
  ok : ∀ env s a s', m env s = .ok a s' →
    ((mt env s).2 : Int) + 3 * s'.data.length ≤ 3 * s.data.length + k
  err : ∀ env s e s', m env s = .err e s' →
    ((mt env s).2 : Int) + 3 * s'.data.length ≤ 3 * s.data.length + K

theorem Meas.mono {mt : PT α} {m : P α} {k K k' K' : Int} (h : Meas mt m k K) (hk : k ≤ k')
    (hK : K ≤ K') : Meas mt m k' K' where
  erase := h.erase
  ok env s a s' hm := by have := h.ok env s a s' hm; omega
  err env s e s' hm := by have := h.err env s e s' hm; omega

theorem Meas.pure (a : α) (K : Int) : Meas (Pure.pure a : PT α) (Pure.pure a : P α) 0 K where
  erase _ _ := rfl
  ok env s b s' h := by
    cases h
    show ((0 : Nat) : Int) + _ ≤ _
    omega
  err env s e s' h := by cases h

theorem Meas.fail (e : ParseError) (k : Int) : Meas (PT.free (P.fail e) : PT α) (P.fail e) k 0 where
  erase _ _ := rfl
  ok env s b s' h := by cases h
  err env s e s' h := by
    cases h
    show ((0 : Nat) : Int) + _ ≤ _
    omega

theorem Meas.free {m : P α} (h : Eats 0 m) : Meas (PT.free m) m 0 0 where
  erase _ _ := rfl
  ok env s a s' hm := by
    have := (h env s).1 a s' hm
    show ((0 : Nat) : Int) + _ ≤ _
    omega
  err env s a s' hm := by
    have := (h env s).2 a s' hm
    show ((0 : Nat) : Int) + _ ≤ _
    omega

theorem Meas.read {m : P α} {j : Nat} (h : Eats j m) : Meas (PT.read m) m (1 - 2 * j) 1 where
  erase _ _ := rfl
  ok env s a s' hm := by
    have := (h env s).1 a s' hm
    unfold PT.read PT.left
    simp only [hm]
    omega
  err env s a s' hm := by
    have := (h env s).2 a s' hm
    unfold PT.read PT.left
    simp only [hm]
    omega

theorem Meas.tick {mt : PT α} {m : P α} {k K : Int} (h : Meas mt m k K) :
    Meas (PT.tick mt) m (k + 1) (K + 1) where
  erase := h.erase
  ok env s a s' hm := by
    have := h.ok env s a s' hm
    unfold PT.tick
    simp only
    omega
  err env s e s' hm := by
    have := h.err env s e s' hm
    unfold PT.tick
    simp only
    omega

theorem Meas.bind {mt : PT α} {m : P α} {ft : α → PT β} {f : α → P β} {k K k' K' L : Int}
    (h : Meas mt m k K) (h' : ∀ a, Meas (ft a) (f a) k' K') (hK : K ≤ L) (hK' : k + K' ≤ L) :
    Meas (mt >>= ft) (m >>= f) (k + k') L where
  erase env s := by
    show (PT.bind mt ft env s).1 = P.bind m f env s
    unfold PT.bind P.bind
    have e := h.erase env s
    rcases hm : mt env s with ⟨r, t⟩
    rw [hm] at e
    rw [← e]
    cases r with
    | ok a s1 => exact (h' a).erase env s1
    | err e s1 => rfl
    | fault x => rfl
  ok env s b s' hb := by
    change P.bind m f env s = _ at hb
    show ((PT.bind mt ft env s).2 : Int) + _ ≤ _
    unfold P.bind at hb
    unfold PT.bind
    have e := h.erase env s
    cases hm : m env s with
    | ok a s1 =>
      have h1 := h.ok env s a s1 hm
      rcases ht : mt env s with ⟨r, t⟩
      rw [ht] at e h1
      simp only at e h1
      rw [hm] at e
      subst e
      rw [hm] at hb
      have h2 := (h' a).ok env s1 b s' hb
      simp only
      omega
    | err e s1 => rw [hm] at hb; cases hb
    | fault x => rw [hm] at hb; cases hb
  err env s b s' hb := by
    change P.bind m f env s = _ at hb
    show ((PT.bind mt ft env s).2 : Int) + _ ≤ _
    unfold P.bind at hb
    unfold PT.bind
    have e := h.erase env s
    cases hm : m env s with
    | ok a s1 =>
      have h1 := h.ok env s a s1 hm
      rcases ht : mt env s with ⟨r, t⟩
      rw [ht] at e h1
      simp only at e h1
      rw [hm] at e
      subst e
      rw [hm] at hb
      have h2 := (h' a).err env s1 b s' hb
      simp only
      omega
    | err e' s1 =>
      have h1 := h.err env s e' s1 hm
      rcases ht : mt env s with ⟨r, t⟩
      rw [ht] at e h1
      simp only at e h1
      rw [hm] at e
      subst e
      rw [hm] at hb
      cases hb
      simp only
      omega
    | fault x => rw [hm] at hb; cases hb

theorem Meas.wrap {mt : PT α} {m : P α} {k K : Int} (sec : String) (h : Meas mt m k K) :
    Meas (PT.wrap sec mt) (P.wrap sec m) k K where
  erase env s := by
    unfold PT.wrap P.wrap
    have e := h.erase env s
    rcases hm : mt env s with ⟨r, t⟩
    rw [hm] at e
    rw [← e]
    cases r <;> rfl
  ok env s b s' hb := by
    unfold P.wrap at hb
    unfold PT.wrap
    have e := h.erase env s
    cases hm : m env s with
    | ok a s1 =>
      have h1 := h.ok env s a s1 hm
      rcases ht : mt env s with ⟨r, t⟩
      rw [ht] at e h1
      simp only at e h1
      rw [hm] at e hb
      subst e
      cases hb
      exact h1
    | err e s1 => rw [hm] at hb; cases hb
    | fault x => rw [hm] at hb; cases hb
  err env s b s' hb := by
    unfold P.wrap at hb
    unfold PT.wrap
    have e := h.erase env s
    cases hm : m env s with
    | ok a s1 => rw [hm] at hb; cases hb
    | err e' s1 =>
      have h1 := h.err env s e' s1 hm
      rcases ht : mt env s with ⟨r, t⟩
      rw [ht] at e h1
      simp only at e h1
      rw [hm] at e hb
      subst e
      cases hb
      exact h1
    | fault x => rw [hm] at hb; cases hb

theorem Meas.replicate {ft : PT α} {f : P α} {k K : Int} (h : Meas ft f k K) (hk : k + 1 ≤ 0)
    (n : Nat) : Meas (Work.replicateP n ft) (Boxcars.replicateP n f) 0 (max 0 (K + 1)) := by
  induction n with
  | zero => exact Meas.pure _ _
  | succ n ih =>
    rw [Work.replicateP, Boxcars.replicateP]
    refine (Meas.tick (k := k) (K := max 0 (K + 1) - 1) ?_).mono hk (by omega)
    refine (h.bind (fun a => ih.bind (L := max 0 (K + 1)) (fun l => Meas.pure _ 0) (by omega) (by omega))
      (L := max 0 (K + 1) - 1) ?_ ?_).mono (by omega) (Int.le_refl _) <;> omega

theorem Meas.repeat {ft : PT α} {f : P α} {k K : Int} (h : Meas ft f k K) (hk : k + 1 ≤ 0)
    (n : Nat) : Meas (Work.repeatP n ft) (Boxcars.repeatP n f) 0 (max 0 (K + 1)) := by
  unfold Work.repeatP Boxcars.repeatP
  split
  · exact (Meas.fail _ 0).mono (Int.le_refl _) (by omega)
  · exact h.replicate hk n

theorem Meas.list {ft : PT α} {f : P α} {k K : Int} (h : Meas ft f k K) (hk : k + 1 ≤ 0)
    (hK : K ≤ 5) : Meas (Work.listOf ft) (Boxcars.listOf f) (-7) 1 := by
  unfold Work.listOf Boxcars.listOf
  exact ((Meas.read Eats.take32).bind (fun size => (Meas.free (Eats.usize size)).bind
    (fun n => h.repeat hk n) (L := max 0 (K + 1)) (by omega) (by omega)) (L := 1)
      (by omega) (by omega)).mono (by omega) (by omega)

theorem textList_meas : Meas Work.textList Boxcars.textList (-7) 1 :=
  (Meas.read Eats.parseText).list (by omega) (by omega)

theorem tickmarks_meas : Meas Work.parseTickmarks Boxcars.parseTickmarks (-7) 1 :=
  Meas.list (k := -7 + (-7 + 0)) (K := 1) ((Meas.read Eats.parseText).bind (fun _ =>
    (Meas.read Eats.take32).bind (fun _ => Meas.pure _ 0) (L := 1) (by omega) (by omega))
      (by omega) (by omega)) (by omega) (by omega)

theorem keyframe_meas : Meas Work.parseKeyframe Boxcars.parseKeyframe (-7) 1 :=
  Meas.list (k := -7 + (-7 + (-7 + 0))) (K := 1) ((Meas.read Eats.take32).bind (fun _ =>
    (Meas.read Eats.take32).bind (fun _ =>
    (Meas.read Eats.take32).bind (fun _ => Meas.pure _ 0) (L := 1) (by omega) (by omega))
      (L := 1) (by omega) (by omega)) (by omega) (by omega)) (by omega) (by omega)

theorem debuginfo_meas : Meas Work.parseDebuginfo Boxcars.parseDebuginfo (-7) 1 :=
  Meas.list (k := -7 + (-7 + (-7 + 0))) (K := 1) ((Meas.read Eats.take32).bind (fun _ =>
    (Meas.read Eats.parseText).bind (fun _ =>
    (Meas.read Eats.parseText).bind (fun _ => Meas.pure _ 0) (L := 1) (by omega) (by omega))
      (L := 1) (by omega) (by omega)) (by omega) (by omega)) (by omega) (by omega)

theorem classindex_meas : Meas Work.parseClassindex Boxcars.parseClassindex (-7) 1 :=
  Meas.list (k := -7 + (-7 + 0)) (K := 1) ((Meas.read Eats.parseStr).bind (fun _ =>
    (Meas.read Eats.take32).bind (fun _ => Meas.pure _ 0) (L := 1) (by omega) (by omega))
      (by omega) (by omega)) (by omega) (by omega)

theorem classcache_meas : Meas Work.parseClasscache Boxcars.parseClasscache (-7) 1 :=
  Meas.list (k := -7 + (-7 + (-7 + (-7 + 0)))) (K := 1) ((Meas.read Eats.take32).bind (fun _ =>
    (Meas.read Eats.take32).bind (fun _ =>
    (Meas.read Eats.take32).bind (fun _ =>
      (Meas.list (k := -7 + (-7 + 0)) (K := 1) ((Meas.read Eats.take32).bind (fun _ =>
        (Meas.read Eats.take32).bind (fun _ => Meas.pure _ 0) (L := 1) (by omega) (by omega))
          (by omega) (by omega)) (by omega) (by omega)).bind
        (fun _ => Meas.pure _ 0) (L := 1) (by omega) (by omega)) (L := 1) (by omega) (by omega))
      (L := 1) (by omega) (by omega)) (by omega) (by omega)) (by omega) (by omega)

/-! ### Properties -/

theorem propValue_plain (recur recur' : P (List (Str × HeaderProp))) (mode : ParserMode) (kind : Str)
    (h1 : kind ≠ lit "ArrayProperty") (h2 : kind ≠ lit "StructProperty") :
    Boxcars.propValue recur mode kind = Boxcars.propValue recur' mode kind := by
  unfold Boxcars.propValue
  simp only [h1, h2, if_false]

theorem propValue_eats (recur : P (List (Str × HeaderProp))) (mode : ParserMode) (kind : Str)
    (h1 : kind ≠ lit "ArrayProperty") (h2 : kind ≠ lit "StructProperty") :
    Eats 0 (Boxcars.propValue recur mode kind) := by
  unfold Boxcars.propValue
  simp only [h1, h2, if_false]
  split
  · cases mode
    · exact ((Eats.takeData 1).mono (Nat.zero_le _)).bind (j := 0) fun d => (Eats.boolProp d).map _
    · exact ((Eats.takeData 4).mono (Nat.zero_le _)).bind (j := 0) fun d => (Eats.boolProp d).map _
  split
  · cases mode
    · refine (Eats.parseStr.mono (Nat.zero_le _)).bind (j := 0) fun k => ?_
      split
      · exact ((Eats.takeData 1).mono (Nat.zero_le _)).bind (j := 0) fun d => Eats.pure _
      · exact (Eats.parseStr.mono (Nat.zero_le _)).bind (j := 0) fun d => Eats.pure _
    · exact (Eats.parseText.mono (Nat.zero_le _)).bind (j := 0) fun d => Eats.pure _
  split
  · exact (Eats.take32.mono (Nat.zero_le _)).bind (j := 0) fun d => Eats.pure _
  split
  · exact (Eats.take32.mono (Nat.zero_le _)).bind (j := 0) fun d => Eats.pure _
  split
  · exact (Eats.take64.mono (Nat.zero_le _)).bind (j := 0) fun d => Eats.pure _
  split
  · exact (Eats.parseText.mono (Nat.zero_le _)).bind (j := 0) fun d => Eats.pure _
  split
  · exact (Eats.parseText.mono (Nat.zero_le _)).bind (j := 0) fun d => Eats.pure _
  · exact Eats.fail _ _

theorem propValue_meas {rt : PT (List (Str × HeaderProp))} {r : P (List (Str × HeaderProp))}
    (h : Meas rt r (-6) 2) (mode : ParserMode) (kind : Str) :
    Meas (Work.propValue rt mode kind) (Boxcars.propValue r mode kind) 1 2 := by
  unfold Work.propValue
  split
  · rename_i hk
    have e : Boxcars.propValue r mode kind = (do
        let size ← takeI32 "array property size"
        let n ← P.usize size
        let arr ← Boxcars.repeatP n r
        Pure.pure (some (.array arr))) := by
      subst hk
      unfold Boxcars.propValue
      rw [if_neg (by rw [lit_inj]; decide), if_neg (by rw [lit_inj]; decide), if_pos rfl]
    rw [e]
    exact ((Meas.read (Eats.takeI32 _)).bind (fun size => (Meas.free (Eats.usize size)).bind
      (fun n => (h.tick.repeat (by omega) n).bind (fun _ => Meas.pure _ 0) (L := 4)
        (by omega) (by omega)) (L := 4) (by omega) (by omega)) (L := 2)
      (by omega) (by omega)).mono (by omega) (by omega)
  · rename_i hk
    split
    · rename_i hk'
      have e : Boxcars.propValue r mode kind = (do
          let name ← parseStr
          let fields ← r
          Pure.pure (some (.struct name fields))) := by
        subst hk'
        unfold Boxcars.propValue
        rw [if_neg (by rw [lit_inj]; decide), if_neg (by rw [lit_inj]; decide),
          if_neg (by rw [lit_inj]; decide), if_neg (by rw [lit_inj]; decide),
          if_neg (by rw [lit_inj]; decide), if_neg (by rw [lit_inj]; decide),
          if_neg (by rw [lit_inj]; decide), if_neg (by rw [lit_inj]; decide), if_pos rfl]
      rw [e]
      exact ((Meas.read Eats.parseStr).bind (fun name => h.tick.bind (fun _ => Meas.pure _ 0)
        (L := 3) (by omega) (by omega)) (L := 2) (by omega) (by omega)).mono (by omega) (by omega)
    · rename_i hk'
      rw [propValue_plain r (P.fail (.unexpectedProperty [])) mode kind hk hk']
      exact (Meas.read (propValue_eats _ mode kind hk hk')).mono (by omega) (by omega)

theorem rdict_meas (fuel : Nat) (mode : ParserMode) :
    Meas (Work.parseRdict fuel mode) (Boxcars.parseRdict fuel mode) (-6) 2 := by
  induction fuel with
  | zero =>
    exact ⟨fun _ _ => rfl, fun env s a s' h => (by cases h), fun env s a s' h => (by cases h)⟩
  | succ fuel ih =>
    rw [Work.parseRdict, Boxcars.parseRdict]
    refine (Meas.tick (k := -7) (K := 1) ?_).mono (by omega) (by omega)
    refine ((Meas.read Eats.parseStr).bind (k' := 0) (K' := 2) (L := 1) (fun key => ?_)
      (by omega) (by omega)).mono (by omega) (by omega)
    split
    · exact Meas.pure _ _
    · refine ((Meas.read Eats.parseStr).bind (fun kind => (Meas.read (Eats.takeI32 _)).bind (fun _ =>
        (Meas.read (Eats.takeData 4)).bind (fun _ => (propValue_meas ih mode kind).bind (fun val =>
          ih.bind (k' := 0) (K' := 0) (L := 2) (fun rest => ?_) (by omega) (by omega))
          (L := 3) (by omega) (by omega)) (L := 2) (by omega) (by omega)) (L := 2)
            (by omega) (by omega)) (L := 2) (by omega) (by omega)).mono (by omega) (by omega)
      cases val <;> exact Meas.pure _ _

theorem netVersion_eats (major minor : I32) : Eats 0 (Work.netVersion major minor) := by
  unfold Work.netVersion
  split
  · exact ((Eats.takeI32 _).map _).mono (Nat.zero_le _)
  · exact Eats.pure _

theorem header_meas : Meas Work.parseHeader Boxcars.parseHeader 0 1 := by
  rw [parseHeader_eq]
  unfold Work.parseHeader
  refine ((Meas.read (Eats.takeI32 _)).bind (fun major => (Meas.read (Eats.takeI32 _)).bind
    (fun minor => (Meas.read (netVersion_eats major minor)).bind (fun net =>
      (Meas.read (Eats.parseText.wrap _)).bind (fun game =>
        (Meas.wrap "header properties" (k := 0) (K := 2) ?_).bind (fun props => Meas.pure _ 0)
          (L := 2) (by omega) (by omega)) (L := 1) (by omega) (by omega)) (L := 2) (by omega)
            (by omega)) (L := 1) (by omega) (by omega)) (L := 1) (by omega) (by omega)).mono
              (by omega) (by omega)
  refine (Meas.bind (k := 0) (K := 0) (L := 2) (Meas.free (m := rdictFuel) ?_)
    (fun fuel => rdict_meas fuel _) (by omega) (by omega)).mono (by omega) (by omega)
  intro env s
  exact ⟨fun b s' hb => (by cases hb; exact Nat.le_refl _), fun e' s' hb => by cases hb⟩

theorem body_meas : Meas Work.parseBody Boxcars.parseBody 0 2 := by
  unfold Work.parseBody Boxcars.parseBody
  refine ((textList_meas.wrap _).bind (fun _ => (keyframe_meas.wrap _).bind (fun _ =>
    (Meas.read (Eats.takeI32 _)).bind (fun size => (Meas.free (Eats.usize size)).bind (fun n =>
      (Meas.tick (Meas.free (((Eats.takeData n).mono (Nat.zero_le _)).wrap _))).bind (fun _ =>
        (debuginfo_meas.wrap _).bind (fun _ => (tickmarks_meas.wrap _).bind (fun _ =>
          (textList_meas.wrap _).bind (fun _ => (textList_meas.wrap _).bind (fun _ =>
            (textList_meas.wrap _).bind (fun _ => (classindex_meas.wrap _).bind (fun _ =>
              (classcache_meas.wrap _).bind (fun _ => Meas.pure _ 0)
    (L := 1) ?_ ?_) (L := 1) ?_ ?_) (L := 1) ?_ ?_) (L := 1) ?_ ?_) (L := 1) ?_ ?_) (L := 1) ?_ ?_)
    (L := 1) ?_ ?_) (L := 2) ?_ ?_) (L := 2) ?_ ?_) (L := 1) ?_ ?_) (L := 1) ?_ ?_)
    (L := 2) ?_ ?_).mono ?_ ?_ <;> omega

end Boxcars.Work
