import Verif.Proofs.Equal
import Verif.Props.NoPanic
import Verif.Props.Frames
/-!
# C71: comparing replays
-/
namespace Boxcars.Props
open Boxcars Spec

/-! ## What `==` says -/

/-- C71. Two replays compare equal if the rest is the same and the floats pairwise compare equal. -/
theorem equal_iff (r r' : Replay) : r.peq r' = true ↔
    replayRest r = replayRest r' ∧ List.Forall₂ SameFloat (replayFloats r) (replayFloats r') :=
  feq_replay.iff r r'

/-- C71. The same for errors. -/
theorem error_equal_iff (e e' : ParseError) : e.peq e' = true ↔
    errorRest e = errorRest e' ∧ List.Forall₂ SameFloat (errorFloats e) (errorFloats e') :=
  feq_error.iff e e'

/-- Floats and the rest are all there is. -/
theorem replay_parts {r r' : Replay} (h : replayRest r = replayRest r')
    (hf : replayFloats r = replayFloats r') : r = r' :=
  feq_replay.inj r r' h hf

/-- Finite floats compare equal if they have the same value. -/
theorem sameFloat_value {a b : F32} (ha : IsFinite a) (hb : IsFinite b) :
    SameFloat a b ↔ fval a = fval b := by
  have na : F32.isNaN a = false := by
    rw [← Bool.not_eq_true, isNaN_iff]; exact fun h => ha h.1
  have nb : F32.isNaN b = false := by
    rw [← Bool.not_eq_true, isNaN_iff]; exact fun h => hb h.1
  rw [← f32_eq_iff]
  unfold F32.eq
  simp only [na, nb, Bool.not_false, Bool.true_and, decide_eq_true_iff]
  exact key_eq_iff a b

theorem sameFloat_self (f : F32) : SameFloat f f ↔ ¬ IsNaN f :=
  ⟨fun h => h.1, fun h => ⟨h, h, .inl rfl⟩⟩

theorem sameFloat_symm {a b : F32} (h : SameFloat a b) : SameFloat b a :=
  ⟨h.2.1, h.1, h.2.2.elim (fun e => .inl e.symm) fun e => .inr e.symm⟩

theorem sameFloat_trans {a b c : F32} (h : SameFloat a b) (k : SameFloat b c) : SameFloat a c := by
  refine ⟨h.1, k.2.1, ?_⟩
  rcases h.2.2 with rfl | h'
  · exact k.2.2
  · rcases k.2.2 with rfl | k'
    · exact .inr h'
    · exact .inr ⟨h'.1, k'.2⟩

theorem forall2_self (l : List F32) : List.Forall₂ SameFloat l l ↔ ∀ f ∈ l, ¬ IsNaN f := by
  induction l with
  | nil => simp
  | cons a l ih => rw [List.forall₂_cons, ih, sameFloat_self]; simp

/-! ## Laws -/

/-- C71. A replay equals itself if and only if it has no NaN. -/
theorem self_equal_iff (r : Replay) : r.peq r = true ↔ ∀ f ∈ replayFloats r, ¬ IsNaN f := by
  rw [equal_iff, forall2_self]
  exact ⟨fun h => h.2, fun h => ⟨rfl, h⟩⟩

/-- C71. An error equals itself if and only if it has no NaN. -/
theorem error_self_equal_iff (e : ParseError) :
    e.peq e = true ↔ ∀ f ∈ errorFloats e, ¬ IsNaN f := by
  rw [error_equal_iff, forall2_self]
  exact ⟨fun h => h.2, fun h => ⟨rfl, h⟩⟩

/-- C71. Equality of replays is symmetric. -/
theorem equal_symm {r r' : Replay} (h : r.peq r' = true) : r'.peq r = true := by
  rw [equal_iff] at h ⊢
  exact ⟨h.1.symm, List.Forall₂.flip (h.2.imp fun _ _ k => sameFloat_symm k)⟩

/-- C71. Equality of replays is transitive. -/
theorem equal_trans {r s t : Replay} (h : r.peq s = true) (k : s.peq t = true) :
    r.peq t = true := by
  rw [equal_iff] at h k ⊢
  refine ⟨h.1.trans k.1, ?_⟩
  have h := h.2
  have k := k.2
  generalize replayFloats r = l, replayFloats s = m, replayFloats t = n at h k
  induction h generalizing n with
  | nil => cases k; exact .nil
  | cons a _ ih => cases k with
    | cons b k => exact .cons (sameFloat_trans a b) (ih _ k)

/-- Floats that compare equal are the same if they are not zero. -/
theorem forall2_eq {l m : List F32} (h : List.Forall₂ SameFloat l m)
    (hz : ∀ f ∈ l, ¬ IsZero f) : l = m := by
  induction h with
  | nil => rfl
  | cons a _ ih =>
    rcases a.2.2 with rfl | e
    · rw [ih fun f hf => hz f (List.mem_cons_of_mem _ hf)]
    · exact absurd e.1 (hz _ List.mem_cons_self)

/-- C71. Replays that compare equal are the same if no float is zero; otherwise they may differ in
the sign of a zero. -/
theorem equal_same {r r' : Replay} (h : r.peq r' = true) (hz : ∀ f ∈ replayFloats r, ¬ IsZero f) :
    r = r' := by
  rw [equal_iff] at h
  exact replay_parts h.1 (forall2_eq h.2 hz)

/-! ## Parsing twice -/

/-- The floats of an outcome. -/
def outcomeFloats : Res ParseError Replay → List F32
  | .ok r => replayFloats r
  | .err e => errorFloats e
  | .fault _ => []

/-- C71, what holds. Full statement: the outcomes of parsing the same bytes twice compare equal.
They do if and only if there is no NaN in the outcome; see `reparse_not_equal`. -/
theorem reparse_partial {env env' : Env} {data : List Byte} (hs : Small env data)
    (hs' : Small env' data) (hu : env'.usizeBits = env.usizeBits) (check : CrcCheck)
    (np : NetworkParse) :
    eqOutcome (parseWith check np env data) (parseWith check np env' data) = true ↔
      ∀ f ∈ outcomeFloats (parseWith check np env data), ¬ IsNaN f := by
  rw [one_outcome check np env env' data hs hs' hu]
  cases h : parseWith check np env data with
  | ok r => exact self_equal_iff r
  | err e => exact error_self_equal_iff e
  | fault f => exact absurd h (no_panic check np env data hs f)

/-- C71. With network data that is not parsed, only the header and the key frames have floats. -/
theorem reparse_never {env : Env} {data : List Byte} (hs : data.length ≤ env.isizeMax) {check : CrcCheck}
    {r : Replay} (h : parseWith check .never env data = .ok r) :
    r.peq r = true ↔ (∀ f ∈ propsFloats r.properties, ¬ IsNaN f) ∧
      ∀ k ∈ r.keyframes, ¬ IsNaN k.time := by
  have hn : r.networkFrames = none := by
    obtain ⟨x, rest, net, _, hn, rfl⟩ := parseWith_ok_of hs h
    exact hn
  rw [self_equal_iff]
  unfold replayFloats
  rw [hn]
  simp only [Option.toList_none, List.flatMap_nil, List.append_nil, List.mem_append, List.mem_map]
  constructor
  · intro h
    exact ⟨fun f hf => h f (.inl hf), fun k hk => h _ (.inr ⟨k, hk, rfl⟩)⟩
  · rintro ⟨h1, h2⟩ f (hf | ⟨k, hk, rfl⟩)
    · exact h1 f hf
    · exact h2 k hk

/-- The fragment of `demoStray` with the time difference of the first frame changed to NaN. -/
def strayNaN : List Byte := demoStray.take 101 ++ [0x00, 0x00, 0xc0, 0x7f] ++ demoStray.drop 105


/-- `sample` with a float `Id` of the given bytes. -/
def floatSample (v : List Byte) : List Byte :=
  [0x40, 0x00, 0x00, 0x00] ++ (sample.take 33).drop 4 ++
    [0x0e, 0x00, 0x00, 0x00, 0x46, 0x6c, 0x6f, 0x61, 0x74, 0x50, 0x72, 0x6f, 0x70, 0x65, 0x72,
     0x74, 0x79, 0x00] ++ (sample.take 57).drop 49 ++ v ++ sample.drop 61


set_option maxRecDepth 100000 in
theorem floatSample_check : ∀ v, v = [0x00, 0x00, 0x00, 0x00] ∨ v = [0x00, 0x00, 0x00, 0x80] →
    (match parseWith .never .always Env.default64 (floatSample v) with
     | .ok r => replayFloats r == [if v = [0x00, 0x00, 0x00, 0x00] then 0x00000000 else 0x80000000]
     | _ => false) = true := by
  rintro v (rfl | rfl) <;> decide +kernel

set_option maxRecDepth 100000 in
theorem floatSample_equal :
    eqOutcome (parseWith .never .always Env.default64 (floatSample [0x00, 0x00, 0x00, 0x00]))
      (parseWith .never .always Env.default64 (floatSample [0x00, 0x00, 0x00, 0x80])) = true := by
  decide +kernel

/-- C71. Different files with different replays that compare equal: the sign of a zero. -/
theorem equal_not_same : ∃ data data' r r', data ≠ data' ∧ r ≠ r' ∧
    parseWith .never .always Env.default64 data = .ok r ∧
    parseWith .never .always Env.default64 data' = .ok r' ∧ r.peq r' = true := by
  have h1 := floatSample_check _ (.inl rfl)
  have h2 := floatSample_check _ (.inr rfl)
  have h3 := floatSample_equal
  refine ⟨floatSample [0x00, 0x00, 0x00, 0x00], floatSample [0x00, 0x00, 0x00, 0x80], ?_⟩
  cases e1 : parseWith .never .always Env.default64 (floatSample [0x00, 0x00, 0x00, 0x00]) with
  | err e => rw [e1] at h1; cases h1
  | fault f => rw [e1] at h1; cases h1
  | ok r =>
    cases e2 : parseWith .never .always Env.default64 (floatSample [0x00, 0x00, 0x00, 0x80]) with
    | err e => rw [e2] at h2; cases h2
    | fault f => rw [e2] at h2; cases h2
    | ok r' =>
      rw [e1] at h1 h3
      rw [e2] at h2 h3
      refine ⟨r, r', by decide +kernel, ?_, rfl, rfl, h3⟩
      rintro rfl
      have h1 := eq_of_beq h1
      have h2 := eq_of_beq h2
      rw [h1] at h2
      exact absurd h2 (by decide)

/-- C71. Parsing the same bytes twice need not give equal replays. -/
theorem reparse_not_equal : ∃ data r, Small Env.default64 data ∧
    parseWith .always .always Env.default64 data = .ok r ∧ r.peq r = false := by
  obtain ⟨r, h1, h2, _⟩ := demo_ok
  refine ⟨demo, r, demo_small, h1, ?_⟩
  rw [← Bool.not_eq_true, self_equal_iff]
  intro h
  refine h 0x7fc00000 ?_ ⟨by decide, by decide⟩
  unfold replayFloats
  rw [h2]
  simp [demoFrames, frameFloats]

set_option maxRecDepth 100000 in
theorem strayNaN_check : (match parseWith .never .always Env.default64 strayNaN with
     | .err e => (errorFloats e).contains 0x7fc00000
     | _ => false) = true := by
  decide +kernel

/-- C71. Nor equal errors: an error comes with the frames before it. -/
theorem reparse_error_not_equal : ∃ data e, Small Env.default64 data ∧
    parseWith .never .always Env.default64 data = .err e ∧ e.peq e = false := by
  have h := strayNaN_check
  cases hp : parseWith .never .always Env.default64 strayNaN with
  | ok r => rw [hp] at h; cases h
  | fault f => rw [hp] at h; cases h
  | err e =>
    rw [hp] at h
    refine ⟨strayNaN, e, small64 rfl (by decide +kernel), hp, ?_⟩
    rw [← Bool.not_eq_true, error_self_equal_iff]
    intro k
    exact k _ (List.contains_iff_mem.1 h) ⟨by decide, by decide⟩

/-- The partial theorem in use: the only float of this file is a negative zero. -/
example : eqOutcome (parseWith .never .always Env.default64 (floatSample [0x00, 0x00, 0x00, 0x80]))
    (parseWith .never .always Env.default64 (floatSample [0x00, 0x00, 0x00, 0x80])) = true := by
  rw [reparse_partial (small64 rfl (by decide)) (small64 rfl (by decide)) rfl]
  have h := floatSample_check _ (.inr rfl)
  cases hp : parseWith .never .always Env.default64 (floatSample [0x00, 0x00, 0x00, 0x80]) with
  | err e => rw [hp] at h; cases h
  | fault f => rw [hp] at h; cases h
  | ok r =>
    rw [hp] at h
    intro f hf
    rw [outcomeFloats, eq_of_beq h, List.mem_singleton] at hf
    subst hf
    exact fun k => absurd k.1 (by decide)

end Boxcars.Props
