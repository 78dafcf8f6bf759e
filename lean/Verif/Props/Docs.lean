import Verif.Spec.Docs
import Verif.Props.Bits
import Verif.Props.Depends
import Verif.Props.NumFrames
import Verif.Proofs.FrameSpec
/-!
# C98: the documentation describes the format
-/
namespace Boxcars.Props
open Spec

theorem docVector_iff {net : I32} (hn : 7 ≤ net.toInt) (v : Vector3i) (b : Bits) :
    Vec3i net v b ↔ ∃ s, DocFits s v ∧ b = docVector s v := by
  have e : sizeClasses net = 22 := if_pos hn
  unfold Vec3i DocFits docVector coord
  rw [e]
  constructor
  · rintro ⟨s, h1, h2, h3, h4, h5⟩; exact ⟨s, ⟨h1, h2, h3, h4⟩, h5⟩
  · rintro ⟨s, ⟨h1, h2, h3, h4⟩, h5⟩; exact ⟨s, h1, h2, h3, h4, h5⟩

/-- The parser reads new actors in the sense of `NewRel`. -/
theorem newActor_exact (d : FrameDecoder) (hw : d.Wf) (id : ActorId) (env : Env) (r : Reader)
    (hv : r.Valid) (a : NewActor) (o : Bits) :
    (∃ r', d.parseNewActor id env r = .ok a r' ∧ r'.bits = o) ↔
      a.actorId = id ∧ NewRel d.netOf a r.bits o :=
  (FrameDecoder.parseNewActor_spec d hw id).okIff env r hv (Nat.le_refl _) a o

/-- C98, as far as it holds: where announcements have names (868.20 on, or 868.14 on
outside LAN matches) and from net version 7 on, those of actors that spawn without a rotation are
exactly those documented. The full statement is without `hs`, `hn`
and `hv`; it fails, see `doc_rotation_never`, `doc_names_old` and `doc_vector_old`. -/
theorem doc_new_partial (d : FrameDecoder) (hw : d.Wf) (hn : d.netOf.named = true)
    (hv : 7 ≤ d.netOf.net.toInt) (id : ActorId) (env : Env) (r : Reader) (hr : r.Valid)
    (a : NewActor) (o : Bits) (hs : d.netOf.spawn a.objectId ≠ some .locationAndRotation) :
    (∃ r', d.parseNewActor id env r = .ok a r' ∧ r'.bits = o) ↔
      a.actorId = id ∧ DocNew d.netOf a r.bits o := by
  rw [newActor_exact d hw id env r hr]
  refine and_congr_right fun _ => ?_
  constructor
  · rintro ⟨nm, b, sp, t, h1, h2, h3, h4⟩
    obtain ⟨_, x, hx, rfl⟩ | ⟨h, _⟩ := h1
    · refine ⟨x, b, sp, t, hx, h2, ?_, h4⟩
      cases sp with
      | none => obtain ⟨e, rfl⟩ := h3; rw [e]; exact .none
      | location =>
        obtain ⟨v, hv', e⟩ := h3
        obtain ⟨s, hf, rfl⟩ := (docVector_iff hv v t).1 hv'
        rw [e]; exact .location hf
      | locationAndRotation => exact absurd h2 hs
    · exact absurd hn h
  · rintro ⟨x, b, sp, t, h1, h2, h3, h4⟩
    refine ⟨_, b, sp, t, .inl ⟨hn, x, h1, rfl⟩, h2, ?_, h4⟩
    cases sp with
    | none => cases e : a.initialTrajectory; rw [e] at h3; cases h3; exact ⟨rfl, rfl⟩
    | location =>
      cases e : a.initialTrajectory
      rw [e] at h3
      cases h3 with
      | location hf => exact ⟨_, (docVector_iff hv _ _).2 ⟨_, hf, rfl⟩, rfl⟩
    | locationAndRotation => exact absurd h2 hs

theorem docRotation_length (y p r : Byte) : (docRotation y p r).length = 24 := by
  simp [docRotation, field_length]

/-- C98 fails for rotations: whatever the angles, and whatever follows, the 24 bits documented are
not what is read: there is a bit in front of each angle, which may be absent. -/
theorem doc_rotation_never (y p r : Byte) (rest : Bits) (env : Env) (rd : Reader) (hv : rd.Valid)
    (hb : rd.bits = docRotation y p r ++ rest) :
    ¬∃ v r', Rotation.decode env rd = .ok v r' ∧ r'.bits = rest := by
  rintro ⟨v, r', h⟩
  have h1 := (rotation_exact env rd hv v rest).1 ⟨r', h⟩
  rw [hb] at h1
  have h2 := congrArg List.length h1
  rw [List.length_append, List.length_append, docRotation_length, rotation_bits] at h2
  omega

/-- C98 fails for every actor that spawns with a rotation: the parser does not get to the end of the
documented announcement, whichever the actor. -/
theorem doc_new_never (d : FrameDecoder) (hw : d.Wf) (hn : d.netOf.named = true)
    (hv : 7 ≤ d.netOf.net.toInt) (id : ActorId) (env : Env) (r : Reader) (hr : r.Valid)
    (a : NewActor) (o : Bits) (hs : d.netOf.spawn a.objectId = some .locationAndRotation)
    (hd : DocNew d.netOf a r.bits o) :
    ¬∃ a' r', d.parseNewActor id env r = .ok a' r' ∧ r'.bits = o := by
  rintro ⟨a', hp⟩
  obtain ⟨_, nm, b, sp, t, h1, h2, h3, h4⟩ := (newActor_exact d hw id env r hr a' o).1 hp
  obtain ⟨x, b', sp', t', g1, g2, g3, g4⟩ := hd
  rw [hs] at g2
  cases g2
  obtain ⟨_, x', hx, rfl⟩ | ⟨h, _⟩ := h1
  · rw [g4] at h4
    obtain ⟨_, h5⟩ := List.append_inj h4 (by rw [field_length, field_length])
    obtain ⟨_, h6⟩ := List.append_inj h5 rfl
    obtain ⟨h7, h8⟩ := List.append_inj h6 (by rw [field_length, field_length])
    have ho : a'.objectId = a.objectId := by
      have e1 := (field_append_iff (w := 32) (x := a.objectId) (i := field 32 a.objectId) (o := [])).1
        (by simp)
      have e2 := (field_append_iff (w := 32) (x := a'.objectId) (i := field 32 a.objectId) (o := [])).1
        (by simpa using h7)
      exact e2.2.1.symm.trans e1.2.1
    rw [ho, hs] at h2
    cases h2
    have ht := List.append_cancel_right h8
    obtain ⟨v, ro, bb, q1, q2, q3⟩ := h3
    generalize a.initialTrajectory = tr at g3
    cases g3 with
    | @both s w yy pp rr hf =>
      rw [q2] at ht
      have k1 := (vecDen_iff (i := bb ++ rotation ro) (o := rotation ro)).2 ⟨_, q1, rfl⟩
      have k2 := (vecDen_iff (i := docVector s w ++ docRotation yy pp rr) (o := docRotation yy pp rr)).2
        ⟨_, (docVector_iff hv w _).2 ⟨s, hf, rfl⟩, rfl⟩
      rw [← ht, k2] at k1
      have := congrArg List.length (congrArg Prod.snd k1)
      simp only [docRotation_length, rotation_bits] at this
      omega
  · exact absurd hn h

/-- C98 fails for older versions: announcements have no name there. -/
theorem doc_names_old (d : FrameDecoder) (hw : d.Wf) (hn : d.netOf.named = false) (id : ActorId)
    (env : Env) (r r' : Reader) (hr : r.Valid) (a : NewActor)
    (h : d.parseNewActor id env r = .ok a r') : ¬DocNew d.netOf a r.bits r'.bits := by
  rintro ⟨x, _, _, _, hx, _⟩
  obtain ⟨_, nm, b, sp, t, h1, _⟩ := (newActor_exact d hw id env r hr a r'.bits).1 ⟨r', h, rfl⟩
  obtain ⟨h, _⟩ | ⟨_, h, _⟩ := h1
  · rw [hn] at h; cases h
  · rw [hx] at h; cases h

/-- C98 fails for older net versions: of size 4 the fifth bit is left out. -/
theorem doc_vector_old {net : I32} (hn : net.toInt < 7) (v v' : Vector3i) (o : Bits)
    (env : Env) (r : Reader) (hr : r.Valid) (hb : r.bits = docVector 4 v ++ o) :
    ¬∃ r', Vector3i.decode net env r = .ok v' r' ∧ r'.bits = o := by
  intro h
  obtain ⟨bs, ⟨s, h1, h2, h3, h4, rfl⟩, h5⟩ := (vector_exact env r hr net v' o).1 h
  have e : sizeClasses net = 20 := if_neg (by omega)
  rw [e] at h1 h5
  rw [hb] at h5
  have h6 := congrArg List.length (List.append_cancel_right h5)
  have l1 : (docVector 4 v).length = 23 := by
    simp only [docVector, List.length_append, bits_length]; rfl
  have l2 : (bounded 20 s ++ (coord s v'.x ++ (coord s v'.y ++ coord s v'.z))).length =
      (bounded 20 s).length + 3 * (s + 2) := by
    simp only [List.length_append, coord, bits_length]; omega
  rw [l1, l2] at h6
  have : ∀ s < 20, (bounded 20 s).length + 3 * (s + 2) ≠ 23 := by decide
  exact this s h1 h6.symm

/-- C98 fails for the width of actor ids: a property "NumChannels" is of no influence. -/
theorem doc_channels_ignored (env : Env) (h : Header) (b : ReplayBody) (p : HeaderProp) :
    Network.parse env { h with properties := ("NumChannels".toList, p) :: h.properties } b =
      Network.parse env h b := by
  have hf : ∀ k : String, "NumChannels" ≠ k →
      List.find? (fun q : Str × HeaderProp => q.1 == k.toList)
        (("NumChannels".toList, p) :: h.properties) =
      h.properties.find? (fun q => q.1 == k.toList) := by
    intro k hk
    rw [List.find?_cons_of_neg]
    intro e
    exact hk (lit_inj.1 (eq_of_beq e))
  have hi : ∀ k : String, "NumChannels" ≠ k →
      headerInt { h with properties := ("NumChannels".toList, p) :: h.properties } k =
        headerInt h k := by
    intro k hk
    unfold headerInt
    rw [hf k hk]
  have hs : ∀ k : String, "NumChannels" ≠ k →
      headerStr { h with properties := ("NumChannels".toList, p) :: h.properties } k =
        headerStr h k := by
    intro k hk
    unfold headerStr
    rw [hf k hk]
  refine network_depends env ⟨rfl, rfl, rfl, hi _ (by decide), by rw [hi _ (by decide)],
    by rw [hs _ (by decide)], by rw [hs _ (by decide)]⟩ ?_
  exact ⟨rfl, rfl, rfl⟩

/-! ### Instances -/

/-- A decoder of version 868.32, net version 10, for three objects: one without a place, one with a
location and one with a rotation too. -/
def docDecoder : FrameDecoder where
  framesLen := 1
  product := ⟨⟨868, 32, 10⟩, 0, 0, 0, 0, 0⟩
  maxChannels := 1023
  channelBits := 9
  objects := []
  networkData := []
  spawns := [.none, .location, .locationAndRotation]
  objectIndAttributes := [none, none, none]
  version := ⟨868, 32, 10⟩
  isLan := false
  isRl223 := false

theorem docDecoder_wf : docDecoder.Wf := by
  refine ⟨by decide, by decide, by decide +kernel, ?_, rfl⟩
  intro o c h
  unfold nth docDecoder at h
  simp only at h
  split at h
  · have := List.mem_of_getElem? h
    simp at this
  · cases h

/-- The bits documented for an actor with the name 7 and the object 1 at (-2, 1, 3). -/
def docBits : Bits := field 32 (7 : I32) ++ ([true] ++ (field 32 (1 : I32) ++
  (docVector 1 ⟨-2, 1, 3⟩ ++ [true, false])))

def docActor : NewActor := ⟨5, some 7, 1, ⟨some ⟨-2, 1, 3⟩, none⟩⟩

theorem docActor_documented : DocNew docDecoder.netOf docActor docBits [true, false] :=
  ⟨7, true, .location, _, rfl, by decide +kernel,
    .location (s := 1) ⟨by decide, by unfold InClass; decide, by unfold InClass; decide,
      by unfold InClass; decide⟩, rfl⟩

/-- `doc_new_partial` on the example. -/
example : ∃ r', docDecoder.parseNewActor 5 Env.default64 ⟨docBits, 30⟩ = .ok docActor r' ∧
    r'.bits = [true, false] :=
  (doc_new_partial docDecoder docDecoder_wf (by decide +kernel) (by decide) 5 Env.default64
    ⟨docBits, 30⟩ (by unfold Reader.Valid; decide +kernel) docActor _ (by decide +kernel)).2
    ⟨rfl, docActor_documented⟩

/-- The same with the object 2 and the angles 1, 2 and 3: `doc_new_never` on the example. -/
example (o : Bits) (h : 30 ≤ o.length) :
    ¬∃ a' r', docDecoder.parseNewActor 5 Env.default64 ⟨field 32 (7 : I32) ++ ([true] ++
      (field 32 (2 : I32) ++ ((docVector 1 ⟨-2, 1, 3⟩ ++ docRotation 1 2 3) ++ o))), 30⟩ = .ok a' r' ∧
      r'.bits = o :=
  doc_new_never docDecoder docDecoder_wf (by decide +kernel) (by decide) 5 Env.default64 _
    (by unfold Reader.Valid; simp; omega)
    ⟨5, some 7, 2, ⟨some ⟨-2, 1, 3⟩, some ⟨some 1, some 2, some 3⟩⟩⟩ o (by decide +kernel)
    ⟨7, true, .locationAndRotation, _, rfl, by decide +kernel,
      .both (s := 1) ⟨by decide, by unfold InClass; decide, by unfold InClass; decide,
        by unfold InClass; decide⟩, rfl⟩

/-- Three angles take 27 bits, not 24. -/
example : (rotation ⟨some 1, some 2, some 3⟩).length = 27 ∧ (docRotation 1 2 3).length = 24 := by decide

/-- A size of 4 takes five bits of the documented 22 sizes, and four bits of 20. -/
example : bounded 22 4 = [false, false, true, false, false] ∧ bounded 20 4 = [false, false, true, false] := by
  decide

end Boxcars.Props
