import Verif.Proofs.Local
import Verif.Spec.Values
/-!
# Rigid bodies that are cut come at the end of the data
-/
namespace Boxcars
open Spec

/-- An awake rigid body with a missing velocity. -/
def Unmoved (v : Attribute) : Prop :=
  ∃ b, v = .rigidBody b ∧ b.sleeping = false ∧
    (b.linearVelocity = none ∨ b.angularVelocity = none)

theorem accepts_shrinks (c : Spec.Ctx) : Shrinks (AttrAccepts c) := by
  have key : ∀ {w i o}, Velocity c.net w i o → o.length ≤ i.length := by
    intro w i o h
    unfold Velocity at h
    split at h
    · obtain ⟨b, _, rfl⟩ := h; rw [List.length_append]; omega
    · rcases h with ⟨_, rfl⟩ | ⟨_, s, _, rfl, _⟩
      · omega
      · rw [List.length_append]; omega
  rintro tag v i o (⟨bs, _, rfl⟩ | ⟨_, b, _, _, _, l, r, j, k, _, _, rfl, h1, h2⟩)
  · rw [List.length_append]; omega
  · have := key h1; have := key h2
    simp only [List.length_append]; omega

/-- The data that a body which is cut leaves. -/
def leftOver (c : Spec.Ctx) : Nat := 3 * (sizeClasses c.net + 1)

theorem unmoved_short {c : Spec.Ctx} {tag : AttributeTag} {v : Attribute} {i o : Bits}
    (h : AttrAccepts c tag v i o) (hu : Unmoved v) : o.length < leftOver c := by
  have trunc : ∀ {i o}, VecTrunc c.net i o → o.length < leftOver c := by
    rintro i o (⟨h, rfl⟩ | ⟨_, s, hs, _, h⟩)
    · have : 20 ≤ sizeClasses c.net := by unfold sizeClasses; split <;> omega
      unfold leftOver; omega
    · unfold leftOver; omega
  have le : ∀ {w i o}, Velocity c.net w i o → o.length ≤ i.length := by
    intro w i o h
    unfold Velocity at h
    split at h
    · obtain ⟨b, _, rfl⟩ := h; rw [List.length_append]; omega
    · rcases h with ⟨_, rfl⟩ | ⟨_, s, _, rfl, _⟩
      · omega
      · rw [List.length_append]; omega
  obtain ⟨b, rfl, hb, hn⟩ := hu
  rcases h with ⟨bs, h, _⟩ | ⟨_, b', hb', _, _, l, r, j, k, _, _, _, h1, h2⟩
  · cases h with
    | rigidBody h =>
      obtain ⟨_, _, _, _, _, _, h1, h2, _⟩ := h
      have key : ∀ {x : Option Vector3f} {bs}, When (b.sleeping = false) (Vec3f c.net) x bs →
          x ≠ none := by
        rintro x bs (⟨_, y, rfl, _⟩ | ⟨h, _⟩)
        · exact fun e => by cases e
        · exact absurd hb h
      rcases hn with hn | hn
      · exact absurd hn (key h1)
      · exact absurd hn (key h2)
  · cases hb'
    rcases hn with hn | hn
    · rw [hn] at h1
      have := trunc h1
      have := le h2
      omega
    · rw [hn] at h2
      exact trunc h2

theorem unmoved_props {c : Spec.Ctx} {cd : ClassDef} {id : ActorId} {us : List UpdatedAttribute}
    {i o : Bits} (h : PropsRel (AttrAccepts c) cd id us i o) {u : UpdatedAttribute} (hm : u ∈ us)
    (hu : Unmoved u.attr) : o.length + 1 < leftOver c := by
  induction h with
  | done => cases hm
  | prop _ _ h1 h2 ih =>
    rcases List.mem_cons.1 hm with rfl | hm
    · have := unmoved_short h1 hu
      have := propsRel_le (accepts_shrinks c) h2
      omega
    · exact ih hm

theorem unmoved_events {c : Spec.Ctx} {n : Net} {kn : Known} {es : List Event}
    {i o : Bits} (h : EventsRel n (AttrAccepts c) kn es i o) {u : UpdatedAttribute}
    (hm : u ∈ updates es) (hu : Unmoved u.attr) : o.length + 2 < leftOver c := by
  induction h with
  | done => cases hm
  | event h1 h2 ih =>
    have hle := eventsRel_le (accepts_shrinks c) h2
    cases h1 with
    | new => exact ih hm
    | delete => exact ih hm
    | update _ _ _ h =>
      rcases List.mem_append.1 hm with hm | hm
      · have := unmoved_props h hm hu
        omega
      · exact ih hm

/-- What follows a frame with such a body. -/
theorem unmoved_last {c : Spec.Ctx} {n : Net} {kn k : Known} {fs : List Frame}
    {ess : List (List Event)} {i o : Bits}
    (h : FramesAt n (AttrAccepts c) kn fs ess k i o) {pre post : List Frame} {f : Frame}
    (hf : fs = pre ++ f :: post) {u : UpdatedAttribute} (hm : u ∈ f.updatedActors)
    (hu : Unmoved u.attr) :
    (post = [] ∨ ∃ g, post = [g] ∧ g.newActors = [] ∧ g.deletedActors = [] ∧ g.updatedActors = []) ∧
      (c.net.toInt < 7 → post = []) := by
  induction h generalizing pre with
  | nil => cases pre <;> cases hf
  | @cons _ _ es _ _ _ _ j _ h1 h2 ih =>
    cases pre with
    | cons x pre =>
      rw [List.cons_append, List.cons.injEq] at hf
      exact ih hf.2
    | nil =>
      rw [List.nil_append, List.cons.injEq] at hf
      obtain ⟨rfl, rfl⟩ := hf
      obtain ⟨_, _, _, _, _, e3, _, _, h1⟩ := h1
      rw [e3] at hm
      have hj := unmoved_events h1 hm hu
      cases h2 with
      | nil => exact ⟨.inl rfl, fun _ => rfl⟩
      | @cons _ g es' _ _ _ _ _ _ g1 g2 =>
        have hg := frameRel_le (accepts_shrinks c) g1
        have hs : leftOver c = if 7 ≤ c.net.toInt then 69 else 63 := by
          unfold leftOver sizeClasses; split <;> rfl
        rw [hs] at hj
        split at hj
        · refine ⟨.inr ⟨g, ?_, ?_⟩, fun h => by omega⟩
          · congr 1
            cases g2 with
            | nil => rfl
            | cons q1 _ =>
              have := frameRel_le (accepts_shrinks c) q1
              omega
          · obtain ⟨_, _, _, a1, a2, a3, _⟩ := g1
            have : ∀ l : List Event, 2 * l.length ≤ 1 → l = [] := by
              intro l h; cases l with
              | nil => rfl
              | cons _ _ => rw [List.length_cons] at h; omega
            rw [this es' (by omega)] at a1 a2 a3
            exact ⟨a1, a2, a3⟩
        · omega

/-! ### Which velocities are left -/

/-- The angular velocity of a body whose linear velocity is missing. -/
def Skipped (v : Attribute) (w : Vector3f) : Prop :=
  ∃ b, v = .rigidBody b ∧ b.sleeping = false ∧ b.linearVelocity = none ∧ b.angularVelocity = some w

theorem skipped_slow {c : Spec.Ctx} {tag : AttributeTag} {v : Attribute} {i o : Bits}
    (h : AttrAccepts c tag v i o) {w : Vector3f} (hu : Skipped v w) (ho : 2 ≤ o.length) :
    Slow c.net w := by
  obtain ⟨b, rfl, hb, hn, hw⟩ := hu
  rcases h with ⟨bs, h, _⟩ | ⟨_, b', hb', _, _, l, r, j, k, _, _, _, h1, h2⟩
  · cases h with
    | rigidBody h =>
      obtain ⟨_, _, _, _, _, _, h1, h2, _⟩ := h
      rw [hn] at h1
      rcases h1 with ⟨_, y, e, _⟩ | ⟨h, _⟩
      · cases e
      · exact absurd hb h
  · cases hb'
    rw [hn] at h1
    rw [hw] at h2
    obtain ⟨bb, ⟨v, ⟨s, hs, hx, hy, hz, rfl⟩, rfl⟩, rfl⟩ := h2
    have hlog : (sizeClasses c.net).log2 = 4 := by unfold sizeClasses; split <;> rfl
    have hb4 : 4 ≤ (bounded (sizeClasses c.net) s).length := by
      unfold bounded
      rw [List.length_append, bits_length, hlog]
      omega
    have hk : 6 + 3 * (s + 2) < 3 * (sizeClasses c.net + 1) := by
      have h1 : VecTrunc c.net _ _ := h1
      unfold VecTrunc coord at h1
      simp only [List.length_append, bits_length] at h1
      rcases h1 with ⟨h, e⟩ | ⟨_, s', hs', _, h⟩
      · rw [← e] at h
        simp only [List.length_append, bits_length] at h
        omega
      · omega
    have he : s + 1 ≤ if 7 ≤ c.net.toInt then 19 else 17 := by
      unfold sizeClasses at hk
      split at hk <;> split <;> omega
    have hp : (2 : Int) ^ (s + 1) ≤ 2 ^ (if 7 ≤ c.net.toInt then 19 else 17) := by
      exact_mod_cast Nat.pow_le_pow_right (n := 2) (by decide) he
    unfold InClass at hx hy hz
    exact ⟨v.x, v.y, v.z, ⟨by omega, by omega⟩, ⟨by omega, by omega⟩, ⟨by omega, by omega⟩, rfl⟩

theorem skipped_props {c : Spec.Ctx} {cd : ClassDef} {id : ActorId} {us : List UpdatedAttribute}
    {i o : Bits} (h : PropsRel (AttrAccepts c) cd id us i o) {u : UpdatedAttribute} (hm : u ∈ us)
    {w : Vector3f} (hu : Skipped u.attr w) (ho : 1 ≤ o.length) : Slow c.net w := by
  induction h with
  | done => cases hm
  | prop _ _ h1 h2 ih =>
    rcases List.mem_cons.1 hm with rfl | hm
    · have := propsRel_le (accepts_shrinks c) h2
      exact skipped_slow h1 hu (by omega)
    · exact ih hm ho

theorem skipped_events {c : Spec.Ctx} {n : Net} {kn : Known} {es : List Event}
    {i o : Bits} (h : EventsRel n (AttrAccepts c) kn es i o) {u : UpdatedAttribute}
    (hm : u ∈ updates es) {w : Vector3f} (hu : Skipped u.attr w) : Slow c.net w := by
  induction h with
  | done => cases hm
  | event h1 h2 ih =>
    have hle := eventsRel_le (accepts_shrinks c) h2
    cases h1 with
    | new => exact ih hm
    | delete => exact ih hm
    | update _ _ _ h =>
      rcases List.mem_append.1 hm with hm | hm
      · exact skipped_props h hm hu (by omega)
      · exact ih hm

theorem skipped_frames {c : Spec.Ctx} {n : Net} {limit : Nat} {kn : Known} {fs : List Frame}
    {i o : Bits} (h : FramesRel n (AttrAccepts c) limit kn fs i o) {f : Frame} (hf : f ∈ fs)
    {u : UpdatedAttribute} (hm : u ∈ f.updatedActors) {w : Vector3f} (hu : Skipped u.attr w) :
    Slow c.net w := by
  induction h with
  | full => cases hf
  | empty => cases hf
  | stop => cases hf
  | frame h1 _ ih =>
    rcases List.mem_cons.1 hf with rfl | hf
    · obtain ⟨_, _, _, _, _, e3, _, _, h1⟩ := h1
      rw [e3] at hm
      exact skipped_events h1 hm hu
    · exact ih hf

end Boxcars
