import Verif.Proofs.File
/-!
# Which errors the byte parser produces
-/
namespace Boxcars

/-- Neither a checksum error nor a network error, at any depth. -/
def Plain : ParseError → Prop
  | .parseError _ _ e => Plain e
  | .crcMismatch _ _ => False
  | .corruptReplay _ _ => False
  | .networkError _ => False
  | _ => True

/-- Only plain errors. -/
def PlainErr {α : Type} (m : P α) : Prop := ∀ env s e s', m env s = .err e s' → Plain e

namespace PlainErr
variable {α β : Type}

theorem pure (a : α) : PlainErr (Pure.pure a : P α) := by intro env s e s' h; cases h

theorem bind {m : P α} {f : α → P β} (h : PlainErr m) (hf : ∀ a, PlainErr (f a)) :
    PlainErr (m >>= f) := by
  intro env s e s' hx
  change P.bind m f env s = _ at hx
  unfold P.bind at hx
  cases hm : m env s with
  | ok a s1 => rw [hm] at hx; exact hf a env s1 e s' hx
  | err e1 s1 => rw [hm] at hx; cases hx; exact h env s _ _ hm
  | fault y => rw [hm] at hx; cases hx

theorem map {m : P α} (f : α → β) (h : PlainErr m) : PlainErr (f <$> m) :=
  PlainErr.bind (f := fun a => Pure.pure (f a)) h fun _ => PlainErr.pure _

theorem wrap {m : P α} (sec : String) (h : PlainErr m) : PlainErr (P.wrap sec m) := by
  intro env s e s' hx
  unfold P.wrap at hx
  cases hm : m env s with
  | ok a s1 => rw [hm] at hx; cases hx
  | err e1 s1 =>
    rw [hm] at hx; cases hx
    show Plain e1
    exact h env s _ _ hm
  | fault y => rw [hm] at hx; cases hx

theorem fail {e : ParseError} (h : Plain e) : PlainErr (P.fail e : P α) := by
  intro env s e' s' hx; cases hx; exact h

theorem usize (x : I32) : PlainErr (P.usize x) := by intro env s e s' h; cases h

theorem takeData (n : Nat) : PlainErr (Boxcars.takeData n) := by
  intro env s e s' h
  unfold Boxcars.takeData at h
  split at h
  · split at h <;> cases h
  · cases h; trivial

theorem viewData (n : Nat) : PlainErr (Boxcars.viewData n) := by
  intro env s e s' h
  unfold Boxcars.viewData at h
  split at h <;> cases h; trivial

theorem take32 : PlainErr Boxcars.take32 := (takeData 4).bind fun _ => pure _
theorem take64 : PlainErr Boxcars.take64 := (takeData 8).bind fun _ => pure _
theorem takeI32 (sec : String) : PlainErr (Boxcars.takeI32 sec) := take32.wrap sec

theorem replicateP {f : P α} (n : Nat) (h : PlainErr f) : PlainErr (Boxcars.replicateP n f) := by
  induction n with
  | zero => exact pure _
  | succ n ih => exact h.bind fun _ => ih.bind fun _ => pure _

theorem repeatP {f : P α} (n : Nat) (h : PlainErr f) : PlainErr (Boxcars.repeatP n f) := by
  unfold Boxcars.repeatP
  split
  · exact fail trivial
  · exact h.replicateP n

theorem listOf {f : P α} (h : PlainErr f) : PlainErr (Boxcars.listOf f) :=
  take32.bind fun _ => (usize _).bind fun _ => h.repeatP _

theorem parseStr : PlainErr Boxcars.parseStr := by
  refine take32.bind fun _ => (usize _).bind fun _ => (takeData _).bind fun bs => ?_
  cases decodeStr bs with
  | ok s => exact pure s
  | error e => exact fail trivial

theorem parseText : PlainErr Boxcars.parseText := by
  refine take32.bind fun c => ?_
  split
  · exact fail trivial
  · split
    · exact (takeData _).bind fun _ => pure _
    · exact (takeData _).bind fun _ => pure _

theorem boolProp (d : List Byte) : PlainErr (Boxcars.boolProp d) := by
  intro env s e s' h
  unfold Boxcars.boolProp at h
  cases d <;> cases h

theorem propValue {recur : P (List (Str × HeaderProp))} (h : PlainErr recur) (mode : ParserMode)
    (kind : Str) : PlainErr (Boxcars.propValue recur mode kind) := by
  unfold Boxcars.propValue
  split
  · cases mode
    · exact (takeData _).bind fun _ => (boolProp _).map _
    · exact (takeData _).bind fun _ => (boolProp _).map _
  split
  · cases mode
    · refine parseStr.bind fun k => ?_
      split
      · exact (takeData _).bind fun _ => pure _
      · exact parseStr.bind fun _ => pure _
    · exact parseText.bind fun _ => pure _
  split
  · exact (takeI32 _).bind fun _ => (usize _).bind fun _ => (h.repeatP _).bind fun _ => pure _
  split
  · exact take32.bind fun _ => pure _
  split
  · exact take32.bind fun _ => pure _
  split
  · exact take64.bind fun _ => pure _
  split
  · exact parseText.bind fun _ => pure _
  split
  · exact parseText.bind fun _ => pure _
  split
  · exact parseStr.bind fun _ => h.bind fun _ => pure _
  · exact fail trivial

theorem parseRdict (fuel : Nat) (mode : ParserMode) : PlainErr (Boxcars.parseRdict fuel mode) := by
  induction fuel with
  | zero => intro env s e s' h; cases h
  | succ fuel ih =>
    rw [Boxcars.parseRdict]
    refine parseStr.bind fun key => ?_
    split
    · exact pure _
    · refine parseStr.bind fun kind => (takeI32 _).bind fun _ => (takeData _).bind fun _ =>
        (ih.propValue mode kind).bind fun v => ih.bind fun rest => ?_
      cases v <;> exact pure _

theorem rdictFuel : PlainErr Boxcars.rdictFuel := by intro env s e s' h; cases h

theorem parseHeader : PlainErr Boxcars.parseHeader := by
  rw [parseHeader_eq]
  refine (takeI32 _).bind fun _ => (takeI32 _).bind fun _ => PlainErr.bind ?_ fun _ =>
    (parseText.wrap _).bind fun _ =>
      ((rdictFuel.bind fun _ => parseRdict _ _).wrap _).bind fun _ => pure _
  split
  · exact (takeI32 _).map _
  · exact pure _

theorem parseBody : PlainErr Boxcars.parseBody := by
  have t : PlainErr textList := parseText.listOf
  exact (t.wrap _).bind fun _ =>
    ((take32.bind fun _ => take32.bind fun _ => take32.bind fun _ => pure _).listOf.wrap _).bind fun _ =>
    (takeI32 _).bind fun _ => (usize _).bind fun _ => ((takeData _).wrap _).bind fun _ =>
    ((take32.bind fun _ => parseText.bind fun _ => parseText.bind fun _ => pure _).listOf.wrap _).bind
      fun _ =>
    ((parseText.bind fun _ => take32.bind fun _ => pure _).listOf.wrap _).bind fun _ =>
    (t.wrap _).bind fun _ => (t.wrap _).bind fun _ => (t.wrap _).bind fun _ =>
    ((parseStr.bind fun _ => take32.bind fun _ => pure _).listOf.wrap _).bind fun _ =>
    ((take32.bind fun _ => take32.bind fun _ => take32.bind fun _ =>
      (take32.bind fun _ => take32.bind fun _ => pure _).listOf.bind fun _ => pure _).listOf.wrap _).bind
      fun _ => pure _

theorem crcNever {m : P α} (h : PlainErr m) (data : List Byte) (crc : U32) (sec : String) :
    PlainErr (crcSection .never data crc sec m) := by
  intro env s e s' hx
  unfold crcSection at hx
  cases hm : m env s with
  | ok a s1 => rw [hm] at hx; cases hx
  | err e1 s1 => rw [hm] at hx; cases hx; exact h env s _ _ hm
  | fault y => rw [hm] at hx; cases hx

theorem section_ {m : P α} (h : PlainErr m) (n1 n2 n3 n4 : String) :
    PlainErr (Boxcars.section_ .never n1 n2 n3 n4 m) :=
  (takeI32 _).bind fun _ => (takeI32 _).bind fun _ => (usize _).bind fun _ =>
    ((viewData _).wrap _).bind fun _ => (h.crcNever _ _ _).bind fun _ => pure _

theorem front : PlainErr (Boxcars.front .never) :=
  (parseHeader.section_ _ _ _ _).bind fun _ => (parseBody.section_ _ _ _ _).bind fun _ => pure _

end PlainErr

/-- Reading header and body fails with no network error. -/
theorem front_not_network (check : CrcCheck) {env : Env} {s s' : CoreSt} {e : NetworkError} :
    front check env s ≠ .err (.networkError e) s' := by
  have hb : ∀ {α β : Type} {m : P α} {f : α → P β} {env : Env} {s s' : CoreSt},
      (∀ s s', m env s ≠ .err (.networkError e) s') →
      (∀ a s s', f a env s ≠ .err (.networkError e) s') →
      (m >>= f) env s ≠ .err (.networkError e) s' := by
    intro α β m f env s s' h1 h2 h
    change P.bind m f env s = _ at h
    unfold P.bind at h
    cases hm : m env s with
    | ok a s1 => rw [hm] at h; exact h2 _ _ _ h
    | err e1 s1 =>
      rw [hm] at h
      cases h
      exact h1 _ _ hm
    | fault y => rw [hm] at h; cases h
  have hp : ∀ {α : Type} {m : P α} {env : Env}, PlainErr m →
      ∀ s s', m env s ≠ .err (.networkError e) s' := fun h s s' hx => h _ _ _ _ hx
  have hs : ∀ {α : Type} {m : P α} {env : Env} (n1 n2 n3 n4 : String), PlainErr m →
      ∀ s s', section_ check n1 n2 n3 n4 m env s ≠ .err (.networkError e) s' := by
    intro α m env n1 n2 n3 n4 h s s'
    refine hb (hp (PlainErr.takeI32 _)) fun _ _ _ => hb (hp (PlainErr.takeI32 _)) fun _ _ _ =>
      hb (hp (PlainErr.usize _)) fun _ _ _ => hb (hp ((PlainErr.viewData _).wrap _)) fun data _ _ =>
      hb ?_ fun _ _ _ hx => (by cases hx)
    intro s s' hx
    unfold crcSection at hx
    cases hm : m env s with
    | ok a s1 =>
      rw [hm] at hx
      cases check with
      | always => dsimp only at hx; split at hx <;> cases hx
      | onError => cases hx
      | never => cases hx
    | err e1 s1 =>
      have := h _ _ _ _ hm
      rw [hm] at hx
      cases check with
      | always => dsimp only at hx; split at hx <;> cases hx; exact this
      | onError => dsimp only at hx; split at hx <;> cases hx; exact this
      | never => cases hx; exact this
    | fault y => rw [hm] at hx; cases hx
  exact hb (hs _ _ _ _ PlainErr.parseHeader) fun _ _ _ =>
    hb (hs _ _ _ _ PlainErr.parseBody) fun _ _ _ hx => (by cases hx)

end Boxcars
