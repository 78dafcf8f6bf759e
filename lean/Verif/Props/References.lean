import Verif.Props.KeyFrames
import Verif.Props.Frames
/-!
# C79: indices that refer to the lists of a replay
-/
namespace Boxcars.Props
open Boxcars Spec

theorem listed_of {r : Replay} (hl : r.objects.length ≤ 25000) {i : BitVec 32} {n : Str}
    (h : r.objects[i.toNat]? = some n) : Listed r.objects i := by
  have hi := (List.getElem?_eq_some_iff.1 h).1
  refine ⟨?_, hi⟩
  rw [BitVec.toInt_eq_toNat_of_lt (by omega)]
  omega

/-- C79, what holds: the object ids of properties, new actors and updates are indices of
objects.

Full statement: `References r fs` in place of `ObjectsListed r fs`.  It is false: see
`references_false`. -/
theorem references_partial {check : CrcCheck} {np : NetworkParse} {env : Env} {data : List Byte}
    (hs : data.length ≤ env.isizeMax) {r : Replay} {fs : List Frame}
    (h : parseWith check np env data = .ok r) (hf : r.networkFrames = some ⟨fs⟩) :
    ObjectsListed r fs := by
  obtain ⟨-, -, -, -, h1, -, -, h4, -⟩ := replay_history hs h hf
  refine ⟨h4, ?_, ?_⟩
  · intro f hm a ha
    obtain ⟨⟨n, -, h5, -⟩, -⟩ := new_actor hs h hf f hm a ha
    exact listed_of h1 h5.1
  · intro f hm u hu
    obtain ⟨n, -, h5, -⟩ := update_type hs h hf f hm u hu
    exact listed_of h1 h5

/-- The lists of names and of class indices are returned as they are in the file and have no
influence on the frames; nor has an entry of the net cache without properties. -/
theorem references_free (check : CrcCheck) (env : Env) (h : Header) (b : ReplayBody)
    (hh : HeaderOk h) (hb : BodyOk b) (f : NetworkFrames) (hf : Network.parse env h b = .ok f)
    (hcap : b.networkData.length * env.frameSize ≤ env.isizeMax)
    (names : List Str) (hn : ListOk TextOk names) (cis : List ClassIndex)
    (hi : ListOk (fun c => StrOk c.cls) cis) (cs : List ClassNetCache)
    (hc : ∀ c ∈ cs, c.properties = []) (hk : (b.netCache ++ cs).length ≤ 25000) (rest : Bytes)
    (hl : (encFile h { b with names := names, classIndices := cis, netCache := b.netCache ++ cs }
      ).length < 2 ^ 31)
    (hr : (encFile h { b with names := names, classIndices := cis, netCache := b.netCache ++ cs }
      ++ rest).length ≤ env.isizeMax) :
    ∃ r, parseWith check .always env (encFile h
        { b with names := names, classIndices := cis, netCache := b.netCache ++ cs } ++ rest) =
        .ok r ∧ r.names = names ∧ r.classIndices = cis ∧ r.netCache = b.netCache ++ cs ∧
      r.objects = b.objects ∧ r.networkFrames = some f := by
  obtain ⟨h1, h2, h3, h4, h5, h6, h7, -, -, h10⟩ := hb
  refine ⟨_, file_round_trip_network check .always env h
    { b with names := names, classIndices := cis, netCache := b.netCache ++ cs } hh
    ⟨h1, h2, h3, h4, h5, h6, h7, hn, hi, ⟨hk, ?_⟩⟩ rest hl hr f ?_ (by simp), rfl, rfl, rfl, rfl, rfl⟩
  · intro c hm
    rcases List.mem_append.1 hm with hm | hm
    · exact h10.2 c hm
    · rw [hc c hm]; exact ⟨by simp, fun _ _ => trivial⟩
  · obtain ⟨fs⟩ := f
    refine (declaration_order env (h := h) (h' := h) (b := b) (b' :=
      { b with names := names, classIndices := cis, netCache := b.netCache ++ cs })
      ⟨rfl, rfl, rfl, rfl, rfl, Iff.rfl, Iff.rfl⟩ ⟨rfl, rfl, fun i => ?_⟩ ?_ h3 hcap fs).1 hf
    · unfold declarations
      rw [List.filter_append, List.flatMap_append]
      have : (cs.filter (fun c => c.objectInd == BitVec.ofNat 32 i)).flatMap (·.properties) = [] := by
        rw [List.flatMap_eq_nil_iff]
        intro c hm
        exact hc c (List.mem_filter.1 hm).1
      rw [this, List.append_nil]
    · have := h7.1
      omega

/-- A file with three frames and four objects; a class index gives another name to the first
object, and another refers to no object; the net cache has an entry for no object; there are no
names, but the new actors have name id 7. -/
def looseFile : Bytes :=
  encFile wroteHeader { wroteBody with
    names := [], classIndices := [⟨"Core.Object".toList, 0⟩, ⟨"TAGame.Car_TA".toList, 77⟩],
    netCache := wroteBody.netCache ++ [⟨-3, 0, 0, []⟩] } ++ []

set_option maxRecDepth 100000 in
theorem loose_accepted : ∃ r, parseWith .always .always Env.default64 looseFile = .ok r ∧
    r.names = [] ∧
    r.classIndices = [⟨"Core.Object".toList, 0⟩, ⟨"TAGame.Car_TA".toList, 77⟩] ∧
    r.netCache = wroteBody.netCache ++ [⟨-3, 0, 0, []⟩] ∧ r.objects = demoObjects ∧
    r.networkFrames = some ⟨planFrames wroteNet Known.none wrotePlan⟩ :=
  references_free .always Env.default64 wroteHeader wroteBody wroteHeader_ok wroteBody_ok _
    wrote_network (by decide +kernel) _ (by unfold ListOk; decide +kernel) _
    (by unfold ListOk StrOk; decide +kernel) _ (by simp) (by decide +kernel) []
    (Nat.lt_of_le_of_lt (m := 10000) (by decide +kernel) (by decide))
    (Room.of_lt (Nat.lt_of_le_of_lt (m := 10000) (by decide +kernel) (by decide))).1

/-- C79 is false of the code in each of the three remaining parts: a class index that is not that
of its class, an entry of the net cache for no object, a name id without a name. -/
theorem references_false : ∃ r fs, parseWith .always .always Env.default64 looseFile = .ok r ∧
    r.networkFrames = some ⟨fs⟩ ∧
    (¬∀ c ∈ r.classIndices, Listed r.objects c.index) ∧
    (¬∀ c ∈ r.classIndices, Listed r.objects c.index →
      r.objects[c.index.toNat]? = some c.cls) ∧
    (¬∀ c ∈ r.netCache, Listed r.objects c.objectInd) ∧
    ¬∀ f ∈ fs, ∀ a ∈ f.newActors, ∀ i, a.nameId = some i → Listed r.names i := by
  obtain ⟨r, h1, h2, h3, h4, h5, h6⟩ := loose_accepted
  refine ⟨r, _, h1, h6, ?_, ?_, ?_, ?_⟩
  · intro h
    have := h ⟨"TAGame.Car_TA".toList, 77⟩ (by rw [h3]; simp)
    rw [h5] at this
    exact absurd this.2 (by decide +kernel)
  · intro h
    have := h ⟨"Core.Object".toList, 0⟩ (by rw [h3]; simp) (by rw [h5]; exact ⟨by decide, by decide +kernel⟩)
    rw [h5] at this
    exact absurd this (by decide +kernel)
  · intro h
    have := h ⟨-3, 0, 0, []⟩ (by rw [h4]; simp)
    exact absurd this.1 (by decide)
  · intro h
    have e : (planFrames wroteNet Known.none wrotePlan)[0]?.map (fun f => f.newActors.head?) =
        some (some (demoNew 5)) := by decide +kernel
    cases hf : (planFrames wroteNet Known.none wrotePlan)[0]? with
    | none => rw [hf] at e; cases e
    | some f =>
      rw [hf] at e
      have ha : demoNew 5 ∈ f.newActors := List.mem_of_mem_head? (Option.some.inj e)
      have := h f (List.mem_of_getElem? hf) _ ha 7 rfl
      rw [h2] at this
      exact absurd this.2 (by decide)

theorem references_fail : ∃ r fs, parseWith .always .always Env.default64 looseFile = .ok r ∧
    r.networkFrames = some ⟨fs⟩ ∧ ObjectsListed r fs ∧ ¬References r fs := by
  obtain ⟨r, fs, h1, h2, -, -, h3, -⟩ := references_false
  have hs : Small Env.default64 looseFile := small64 rfl
    (Nat.lt_of_le_of_lt (m := 10000) (by unfold looseFile; decide +kernel) (by decide))
  exact ⟨r, fs, h1, h2, references_partial hs.len h1 h2, fun h => h3 h.entry⟩

end Boxcars.Props
