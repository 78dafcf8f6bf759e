import Verif.Spec.Stream
import Verif.Proofs.History
/-!
# What is written is a stream of frames
-/
namespace Boxcars
open Spec

/-- Declared stream ids are below the limit. -/
theorem declared_lt {body : ReplayBody} {o : ObjectId} {c : ClassDef} (hc : ClassOf body o c)
    {s : StreamId} {d : AttributeTag × ObjectId} (hs : c.attr s = some d)
    (hlt : s.toNat < 2 ^ 31 - 1) : (s.toNat : Int) < c.limit := by
  obtain ⟨_, _, _, _, _, _, hlim⟩ := hc
  have hsi : s.toInt = s.toNat := by
    rw [BitVec.toInt_eq_toNat_cond, if_pos (by omega)]
  rcases hlim with ⟨hno, _⟩ | ⟨m, _, hmax, hl⟩
  · exact absurd (fun h0 => by rw [hs] at h0; cases h0) (hno s)
  · have := hmax s (fun h0 => by rw [hs] at h0; cases h0)
    rw [hl, ← hsi]
    omega

/-- The live actors are known. -/
def Sub (k kn : Known) : Prop := ∀ id o, k id = some o → kn id = some o

/-- The record read back. -/
def Rec.event (n : Net) (k : Known) : Rec → Event
  | .new a _ _ => .new a
  | .delete d => .delete d
  | .update id ps => .update id ((Rec.update id ps).updates n k)

theorem sub_after {n : Net} {k kn : Known} (h : Sub k kn) (r : Rec) :
    Sub (r.live k) (kn.after n (Rec.event n k r)) := by
  intro id o ho
  cases r with
  | new a b w =>
    simp only [Rec.live, Rec.event, Known.after] at ho ⊢
    split at ho
    · rename_i he; rw [if_pos he]; exact ho
    · rename_i he; rw [if_neg he]; exact h _ _ ho
  | delete d =>
    simp only [Rec.live, Rec.event, Known.after] at ho ⊢
    split at ho
    · cases ho
    · rename_i he; rw [if_neg (fun x => he x.1)]; exact h _ _ ho
  | update id' ps => exact h _ _ ho

/-- Classes come from the table. -/
def Classes (n : Net) : Prop :=
  ∀ o c, n.cls o = some c → ∀ (s : StreamId) d, c.attr s = some d → s.toNat < 2 ^ 31 - 1 →
    (s.toNat : Int) < c.limit

theorem puts_rel {x : Ctx} {n : Net} {k : Known} {c : ClassDef} {id : ActorId}
    (hc : classAt n k id = some c)
    (hcl : ∀ (s : StreamId) d, c.attr s = some d → s.toNat < 2 ^ 31 - 1 →
      (s.toNat : Int) < c.limit) (ps : List Put) (h : ∀ p ∈ ps, PutOk x c p) (o : Bits) :
    PropsRel (AttrAccepts x) c id ((Rec.update id ps).updates n k)
      (writePuts c.limit.toNat ps ++ o) o := by
  induction ps with
  | nil => exact .done
  | cons p ps ih =>
    obtain ⟨tag, obj, h1, h2, h3⟩ := h p (List.mem_cons_self ..)
    have := ih (fun q hq => h q (List.mem_cons_of_mem _ hq))
    simp only [Rec.updates, List.filterMap_cons, hc, h1, Option.bind_eq_bind, Option.bind_some,
      Option.pure_def] at this ⊢
    simp only [writePuts, List.cons_append, List.append_assoc]
    exact .prop (hcl _ _ h1 h2) h1 (.inl ⟨_, h3, rfl⟩) this

theorem rec_rel {x : Ctx} {n : Net} (hn : Classes n) {k kn : Known} (hs : Sub k kn) {r : Rec}
    (h : RecOk n x k r) (o : Bits) :
    EventRel n (AttrAccepts x) kn (Rec.event n k r) (r.write n k ++ o) o := by
  cases r with
  | new a b w =>
    obtain ⟨h1, h2, ⟨sp, h3, h4⟩, h5⟩ := h
    cases hc : n.cls a.objectId with
    | none => exact absurd hc h5
    | some c =>
      simp only [Rec.write, Rec.event, List.append_assoc, List.cons_append]
      refine .new h1 ⟨_, b, sp, w, ?_, h3, h4, rfl⟩ hc
      cases hnm : a.nameId with
      | none =>
        rw [hnm] at h2
        exact .inr ⟨by rw [← h2]; simp, rfl, rfl⟩
      | some v =>
        rw [hnm] at h2
        exact .inl ⟨h2.symm, _, rfl, rfl⟩
  | delete d =>
    simp only [Rec.write, Rec.event, List.append_assoc, List.cons_append, List.nil_append]
    exact .delete h
  | update id ps =>
    obtain ⟨h1, c, h2, h3⟩ := h
    simp only [Rec.write, Rec.event, List.append_assoc, List.cons_append, h2]
    have hc := h2
    unfold classAt at hc
    cases hk : k id with
    | none => rw [hk] at hc; cases hc
    | some obj =>
      rw [hk] at hc
      exact .update h1 (hs _ _ hk) hc (puts_rel h2 (hn _ _ hc) ps h3 o)

/-- The records read back. -/
def recEvents (n : Net) : Known → List Rec → List Event
  | _, [] => []
  | k, r :: rs => Rec.event n k r :: recEvents n (r.live k) rs

theorem recs_rel {x : Ctx} {n : Net} (hn : Classes n) {k kn : Known} (hs : Sub k kn)
    (rs : List Rec) (h : RecsOk n x k rs) (o : Bits) :
    EventsRel n (AttrAccepts x) kn (recEvents n k rs) (writeRecs n k rs ++ o) o ∧
      Sub (liveAfter k rs) (kn.afterAll n (recEvents n k rs)) := by
  induction rs generalizing k kn with
  | nil => exact ⟨.done, hs⟩
  | cons r rs ih =>
    obtain ⟨h1, h2⟩ := ih (sub_after (n := n) hs r) h.2
    simp only [writeRecs, List.cons_append, List.append_assoc]
    exact ⟨.event (rec_rel hn hs h.1 _) h1, h2⟩

theorem recEvents_lists (n : Net) (k : Known) (rs : List Rec) :
    news (recEvents n k rs) = rs.flatMap Rec.news ∧
    deletes (recEvents n k rs) = rs.flatMap Rec.deletes ∧
    updates (recEvents n k rs) = recUpdates n k rs := by
  induction rs generalizing k with
  | nil => exact ⟨rfl, rfl, rfl⟩
  | cons r rs ih =>
    obtain ⟨h1, h2, h3⟩ := ih (r.live k)
    cases r with
    | new a b w =>
      exact ⟨congrArg (a :: ·) h1, h2, h3⟩
    | delete d => exact ⟨h1, congrArg (d :: ·) h2, h3⟩
    | update id ps =>
      refine ⟨h1, h2, ?_⟩
      exact congrArg (_ ++ ·) h3

theorem plans_rel {x : Ctx} {n : Net} (hn : Classes n) {k kn : Known} (hs : Sub k kn)
    (ps : List Plan) (h : PlansOk n x k ps) {limit : Nat} {o : Bits}
    (he : Ending ps.length limit o) :
    ∃ o', FramesRel n (AttrAccepts x) limit kn (planFrames n k ps) (writePlans n k ps ++ o) o' := by
  induction ps generalizing k kn limit with
  | nil =>
    rcases he with ⟨rfl, _⟩ | rfl | ⟨hl, t, d, j, h1, h2, rfl⟩
    · exact ⟨[], .empty⟩
    · exact ⟨o, .full⟩
    · obtain ⟨m, rfl⟩ : ∃ m, limit = m + 1 := ⟨limit - 1, by simp only [List.length_nil] at hl; omega⟩
      exact ⟨j, .stop h1 h2⟩
  | cons p ps ih =>
    obtain ⟨h1, h2, h3, h4, h5⟩ := h
    have hl : ∃ m, limit = m + 1 := by
      rcases he with ⟨_, hl⟩ | hl | ⟨hl, _⟩ <;> simp only [List.length_cons] at hl <;>
        exact ⟨limit - 1, by omega⟩
    obtain ⟨m, rfl⟩ := hl
    have he' : Ending ps.length m o := by
      rcases he with ⟨ho, hl⟩ | hl | ⟨hl, hm⟩
      · exact .inl ⟨ho, by simp only [List.length_cons] at hl; omega⟩
      · exact .inr (.inl (by simp only [List.length_cons] at hl; omega))
      · exact .inr (.inr ⟨by simp only [List.length_cons] at hl; omega, hm⟩)
    obtain ⟨r1, r2⟩ := recs_rel hn hs p.recs h4 (writePlans n (liveAfter k p.recs) ps ++ o)
    obtain ⟨o', ho'⟩ := ih r2 h5 he'
    obtain ⟨l1, l2, l3⟩ := recEvents_lists n k p.recs
    refine ⟨o', ?_⟩
    simp only [writePlans, planFrames, List.append_assoc]
    exact .frame ⟨h1, h2, h3, l1.symm, l2.symm, l3.symm, _, rfl, r1⟩ ho'

end Boxcars
