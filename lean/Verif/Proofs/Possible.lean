import Verif.Spec.Possible
import Verif.Spec.Stream
import Verif.Proofs.ValueOf
import Verif.Proofs.CutLast
import Verif.Proofs.AttrCost
/-!
# Possible frames can be written, and what is read is possible
-/
namespace Boxcars
open Spec

theorem whole3_iff (net : I32) (v : Vector3i) : (∃ bs, Vec3i net v bs) ↔ Whole3 net v := by
  constructor
  · rintro ⟨bs, s, hs, hx, hy, hz, _⟩
    have key : ∀ x, InClass s x → Coord net x := by
      intro x hx
      unfold InClass at hx
      unfold sizeClasses at hs
      unfold Coord
      have : (2 : Int) ^ (s + 1) ≤ 2 ^ (if 7 ≤ net.toInt then 22 else 20) := by
        have := Nat.pow_le_pow_right (n := 2) (by decide) hs
        split at this <;> split <;> first | exact_mod_cast this | contradiction
      exact ⟨by omega, by omega⟩
    exact ⟨key _ hx, key _ hy, key _ hz⟩
  · rintro ⟨hx, hy, hz⟩
    have key : ∀ x, Coord net x → InClass (sizeClasses net - 1) x := by
      intro x hx
      unfold Coord at hx
      unfold InClass sizeClasses
      split at hx <;> rename_i h
      · rw [if_pos h]; exact hx
      · rw [if_neg h]; exact hx
    refine ⟨_, sizeClasses net - 1, ?_, key _ hx, key _ hy, key _ hz, rfl⟩
    unfold sizeClasses
    split <;> decide

theorem trajectory_iff (net : I32) (sp : SpawnTrajectory) (t : Trajectory) :
    (∃ bs, SpawnEnc net sp t bs) ↔ TrajectoryOf net sp t := by
  cases sp with
  | none => exact ⟨fun ⟨_, h, _⟩ => h, fun h => ⟨[], h, rfl⟩⟩
  | location =>
    constructor
    · rintro ⟨bs, v, h, rfl⟩
      exact ⟨v, (whole3_iff _ _).1 ⟨_, h⟩, rfl⟩
    · rintro ⟨v, h, rfl⟩
      obtain ⟨bs, h⟩ := (whole3_iff _ _).2 h
      exact ⟨bs, v, h, rfl⟩
  | locationAndRotation =>
    constructor
    · rintro ⟨bs, v, r, b, h, _, rfl⟩
      exact ⟨v, r, (whole3_iff _ _).1 ⟨_, h⟩, rfl⟩
    · rintro ⟨v, r, h, rfl⟩
      obtain ⟨b, h⟩ := (whole3_iff _ _).2 h
      exact ⟨_, v, r, b, h, rfl, rfl⟩

variable {n : Net} {c : Spec.Ctx} {known : Known}

/-! ### Writing -/

/-- Actor ids and stream ids take 32 bits at most. -/
def Narrowed (n : Net) : Prop :=
  n.channels < 2 ^ 32 ∧ ∀ o cd, n.cls o = some cd → cd.limit.toNat < 2 ^ 32

theorem bounded_len32 {m : Nat} (h : m < 2 ^ 32) (v : Nat) : (bounded m v).length ≤ 32 := by
  have h1 := bounded_length_le m v
  have h2 : m.log2 ≤ 31 := by
    by_cases e : m = 0
    · rw [e]; decide
    · have := (Nat.log2_lt e).2 h
      omega
  omega

theorem actorId_len (hn : Narrowed n) (id : ActorId) : (actorId n id).length ≤ 32 :=
  bounded_len32 (by have := hn.1; omega) _

theorem trajectory_len {net : I32} {sp : SpawnTrajectory} {t : Trajectory} {bs : Bits}
    (h : SpawnEnc net sp t bs) : bs.length ≤ 101 := by
  have key : ∀ {v b}, Vec3i net v b → b.length ≤ 74 := fun {v b} h =>
    vec_len (net := net) (v := ⟨centi v.x, centi v.y, centi v.z⟩) ⟨v, h, rfl⟩
  cases sp with
  | none => rw [h.2]; decide
  | location =>
    obtain ⟨v, h, _⟩ := h
    exact Nat.le_trans (key h) (by decide)
  | locationAndRotation =>
    obtain ⟨v, r, b, h, rfl, _⟩ := h
    have := key h
    have := rotation_len r
    rw [List.length_append]
    omega

theorem write_props {cd : ClassDef} {id : ActorId} {us : List UpdatedAttribute}
    (hl : cd.limit.toNat < 2 ^ 32) (h : ∀ u ∈ us, UpdateOf c cd id u) :
    ∃ w : Bits, w.length ≤ 1 + (us.map fun u => 50 + valueCost u.attr).sum ∧
      ∀ o, PropsRel (AttrAccepts c) cd id us (w ++ o) o := by
  induction us with
  | nil => exact ⟨[false], by simp, fun o => .done⟩
  | cons u us ih =>
    obtain ⟨w, hlen, hw⟩ := ih fun u hu => h u (.tail _ hu)
    obtain ⟨h1, h2, tag, h3, h4⟩ := h u (.head _)
    obtain ⟨bs, h4⟩ := enc_of_value h4
    subst h1
    refine ⟨true :: (bounded cd.limit.toNat u.streamId.toNat ++ (bs ++ w)), ?_, fun o => ?_⟩
    · have := bounded_len32 hl u.streamId.toNat
      have := attr_cost h4
      simp only [List.length_cons, List.length_append, List.map_cons, List.sum_cons]
      omega
    · have := PropsRel.prop (us := us) (o := o) (j := bs ++ (w ++ o)) h2 h3
        (.inl ⟨bs, h4, rfl⟩) (hw o)
      simpa only [List.cons_append, List.append_assoc] using this

theorem write_event {e : Event} (hn : Narrowed n) (h : EventOf n c known e) :
    ∃ w : Bits, w.length + 1 ≤ eventCost e ∧ ∀ o, EventRel n (AttrAccepts c) known e (w ++ o) o := by
  cases e with
  | new a =>
    obtain ⟨h1, h2, h3, sp, h4, h5⟩ := h
    obtain ⟨t, h5⟩ := (trajectory_iff _ _ _).2 h5
    obtain ⟨nm, hnm⟩ := (whenWord_iff _ _).2 h2
    obtain ⟨cd, h3⟩ := Option.ne_none_iff_exists'.1 h3
    refine ⟨actorId n a.actorId ++ (true :: true :: (nm ++ ([false] ++ (field 32 a.objectId ++ t)))),
      ?_, fun o => ?_⟩
    · have := actorId_len hn a.actorId
      have := word_len hnm
      have := trajectory_len h5
      simp only [List.length_append, List.length_cons, List.length_nil, field_length, eventCost]
      omega
    · have := EventRel.new (A := AttrAccepts c) (known := known) (o := o) h1
        ⟨nm, false, sp, t, hnm, h4, h5, rfl⟩ h3
      simpa only [List.cons_append, List.append_assoc] using this
  | delete id =>
    refine ⟨actorId n id ++ [false], ?_, fun o => ?_⟩
    · have := actorId_len hn id
      simp only [List.length_append, List.length_singleton, eventCost]
      omega
    · have := EventRel.delete (A := AttrAccepts c) (known := known) (o := o) h
      simpa only [List.cons_append, List.append_assoc, List.nil_append] using this
  | update id us =>
    obtain ⟨h1, obj, cd, h2, h3, h4⟩ := h
    obtain ⟨w, hl, hw⟩ := write_props (hn.2 _ _ h3) h4
    refine ⟨actorId n id ++ (true :: false :: w), ?_, fun o => ?_⟩
    · have := actorId_len hn id
      simp only [List.length_append, List.length_cons, eventCost]
      omega
    · have := EventRel.update h1 h2 h3 (hw o)
      simpa only [List.cons_append, List.append_assoc] using this

theorem write_events {es : List Event} (hn : Narrowed n) (h : EventsOf n c known es) :
    ∃ w : Bits, w.length ≤ 1 + (es.map eventCost).sum ∧
      ∀ o, EventsRel n (AttrAccepts c) known es (w ++ o) o := by
  induction es generalizing known with
  | nil => exact ⟨[false], by simp, fun o => .done⟩
  | cons e es ih =>
    obtain ⟨w1, l1, h1⟩ := write_event hn h.1
    obtain ⟨w2, l2, h2⟩ := ih h.2
    refine ⟨true :: (w1 ++ w2), ?_, fun o => ?_⟩
    · simp only [List.length_cons, List.length_append, List.map_cons, List.sum_cons]
      omega
    · have := EventsRel.event (h1 (w2 ++ o)) (h2 o)
      simpa only [List.cons_append, List.append_assoc] using this

theorem write_frames {fs : List Frame} {ess : List (List Event)} (hn : Narrowed n)
    (h : FramesOf n c known fs ess) :
    ∃ w : Bits, w.length ≤ recordsCost ess ∧ ∀ limit o, Ending fs.length limit o →
      ∃ o', FramesRel n (AttrAccepts c) limit known fs (w ++ o) o' := by
  induction fs generalizing known ess with
  | nil =>
    refine ⟨[], by simp, fun limit o he => ?_⟩
    rcases he with ⟨rfl, _⟩ | rfl | ⟨hl, t, d, j, h1, h2, rfl⟩
    · exact ⟨[], .empty⟩
    · exact ⟨o, .full⟩
    · obtain ⟨m, rfl⟩ : ∃ m, limit = m + 1 := ⟨limit - 1, by simp only [List.length_nil] at hl; omega⟩
      exact ⟨j, .stop h1 h2⟩
  | cons f fs ih =>
    cases ess with
    | nil => cases h
    | cons es ess =>
      obtain ⟨t1, t2, t3, e1, e2, e3, h1, h2⟩ := h
      obtain ⟨w1, l1, h1⟩ := write_events hn h1
      obtain ⟨w2, l2, h2⟩ := ih h2
      refine ⟨field 32 f.time ++ (field 32 f.delta ++ (w1 ++ w2)), ?_, fun limit o he => ?_⟩
      · unfold recordsCost at l2 ⊢
        simp only [List.length_append, field_length, List.map_cons, List.sum_cons]
        omega
      · obtain ⟨m, rfl⟩ : ∃ m, limit = m + 1 := by
          refine ⟨limit - 1, ?_⟩
          rcases he with ⟨_, he⟩ | he | ⟨he, _⟩ <;> rw [List.length_cons] at he <;> omega
        have he' : Ending fs.length m o := by
          rcases he with ⟨h, he⟩ | he | ⟨he, h⟩ <;> rw [List.length_cons] at he
          · exact .inl ⟨h, by omega⟩
          · exact .inr (.inl (by omega))
          · exact .inr (.inr ⟨by omega, h⟩)
        obtain ⟨o', h2⟩ := h2 m o he'
        refine ⟨o', .frame ⟨t1, t2, t3, e1, e2, e3, w1 ++ (w2 ++ o), ?_, h1 _⟩ h2⟩
        simp only [List.append_assoc]

/-! ### Reading -/

theorem value_of_moving {tag : AttributeTag} {v : Attribute} {i o : Bits}
    (h : AttrAccepts c tag v i o) (hu : ¬Unmoved v) : ValueOf c tag v := by
  rcases value_of_accepts h with h | ⟨_, b, hb, h⟩
  · exact h
  · exact absurd ⟨b, hb, h.2.2.2.1, h.2.2.2.2⟩ hu

theorem read_props {cd : ClassDef} {id : ActorId} {us : List UpdatedAttribute} {i o : Bits}
    (h : PropsRel (AttrAccepts c) cd id us i o) (hu : ∀ u ∈ us, ¬Unmoved u.attr) :
    ∀ u ∈ us, UpdateOf c cd id u := by
  induction h with
  | done => intro u hm; cases hm
  | prop h1 h2 h3 _ ih =>
    intro u hm
    rcases List.mem_cons.1 hm with rfl | hm
    · exact ⟨rfl, h1, _, h2, value_of_moving h3 (hu _ (.head _))⟩
    · exact ih (fun u hm => hu u (.tail _ hm)) u hm

theorem read_event {e : Event} {i o : Bits} (h : EventRel n (AttrAccepts c) known e i o)
    (hu : ∀ u ∈ updates [e], ¬Unmoved u.attr) : EventOf n c known e := by
  cases h with
  | new h1 h2 h3 =>
    obtain ⟨nm, b, sp, t, g1, g2, g3, _⟩ := h2
    exact ⟨h1, (whenWord_iff _ _).1 ⟨_, g1⟩, (by rw [h3]; exact fun e => by cases e), sp, g2,
      (trajectory_iff _ _ _).1 ⟨_, g3⟩⟩
  | delete h => exact h
  | update h1 h2 h3 h4 =>
    refine ⟨h1, _, _, h2, h3, read_props h4 fun u hm => hu u ?_⟩
    simpa [updates] using hm

theorem updates_cons (e : Event) (es : List Event) : updates (e :: es) = updates [e] ++ updates es := by
  cases e <;> simp [updates]

theorem read_events {es : List Event} {i o : Bits} (h : EventsRel n (AttrAccepts c) known es i o)
    (hu : ∀ u ∈ updates es, ¬Unmoved u.attr) : EventsOf n c known es := by
  induction h with
  | done => trivial
  | event h1 _ ih =>
    rw [updates_cons] at hu
    exact ⟨read_event h1 fun u hm => hu u (List.mem_append_left _ hm),
      ih fun u hm => hu u (List.mem_append_right _ hm)⟩

theorem read_frames {fs : List Frame} {ess : List (List Event)} {k : Known} {i o : Bits}
    (h : FramesAt n (AttrAccepts c) known fs ess k i o)
    (hu : ∀ f ∈ fs, ∀ u ∈ f.updatedActors, ¬Unmoved u.attr) : FramesOf n c known fs ess := by
  induction h with
  | nil => trivial
  | cons h1 _ ih =>
    obtain ⟨t1, t2, t3, e1, e2, e3, j, _, h1⟩ := h1
    exact ⟨t1, t2, t3, e1, e2, e3, read_events h1 (e3 ▸ hu _ (.head _)),
      ih fun f hf => hu f (.tail _ hf)⟩

theorem allMove_iff (fs : List Frame) :
    AllMove fs ↔ ∀ f ∈ fs, ∀ u ∈ f.updatedActors, ¬Unmoved u.attr := by
  constructor
  · rintro h f hf u hu ⟨b, hb, h1, h2⟩
    obtain ⟨g1, g2⟩ := h f hf u hu b hb h1
    rcases h2 with h2 | h2
    · rw [h2] at g1; cases g1
    · rw [h2] at g2; cases g2
  · intro h f hf u hu b hb h1
    have : ¬(b.linearVelocity = none ∨ b.angularVelocity = none) :=
      fun e => h f hf u hu ⟨b, hb, h1, e⟩
    rw [not_or] at this
    exact ⟨Option.isSome_iff_ne_none.2 this.1, Option.isSome_iff_ne_none.2 this.2⟩

theorem moves_of {fs : List Frame} {ess : List (List Event)} (h : FramesOf n c known fs ess) :
    AllMove fs := by
  have key : ∀ (es : List Event) (kn : Known), EventsOf n c kn es → ∀ u ∈ updates es,
      ∃ tag, ValueOf c tag u.attr := by
    intro es
    induction es with
    | nil => intro _ _ u hu; cases hu
    | cons e es ih =>
      intro kn h u hu
      rw [updates_cons] at hu
      rcases List.mem_append.1 hu with hu | hu
      · cases e with
        | new => cases hu
        | delete => cases hu
        | update id us =>
          obtain ⟨⟨_, _, _, _, _, h⟩, _⟩ := h
          have hu : u ∈ us := by simpa [updates] using hu
          obtain ⟨_, _, tag, _, hv⟩ := h u hu
          exact ⟨tag, hv⟩
      · exact ih _ h.2 u hu
  induction fs generalizing known ess with
  | nil => intro f hf; cases hf
  | cons f fs ih =>
    cases ess with
    | nil => cases h
    | cons es ess =>
      obtain ⟨_, _, _, _, _, e3, h1, h2⟩ := h
      intro g hg u hu b hb hs
      rcases List.mem_cons.1 hg with rfl | hg
      · rw [e3] at hu
        obtain ⟨tag, hv⟩ := key _ _ h1 u hu
        rw [hb] at hv
        cases tag <;> try exact hv.elim
        exact ⟨hv.2.2.2.1.2 hs, hv.2.2.2.2.2 hs⟩
      · exact ih h2 g hg u hu b hb hs

end Boxcars
