import Verif.Proofs.ValueFail
import Verif.Props.Failure
/-!
# C53, C54: the error of an attribute value
-/
namespace Boxcars.Props
open Boxcars Spec

/-! ## C53 -/

/-- C53. Decoding a value of any attribute type fails with error `e` exactly on the inputs
for which `AttrFails` names `e`. -/
theorem attr_error_iff (d : AttrDecoder) (hp : d.product.version = d.version) (env : Env)
    (tag : AttributeTag) (r : Reader) (hv : r.Valid) (e : AttributeError) :
    (∃ r', d.decode tag env r = .err e r') ↔ AttrFails d.ctx tag e r.bits :=
  decodeE d hp tag env r hv (Nat.le_refl _) e

/-- C53. An error is named exactly for the inputs on which no value is accepted. -/
theorem attr_error_total (c : Spec.Ctx) (tag : AttributeTag) (i : Bits) :
    (∃ e, AttrFails c tag e i) ↔ ∀ v o, ¬AttrAccepts c tag v i o := (attrErrors c).total tag i

/-- C53. At most one error is named. -/
theorem attr_error_unique (c : Spec.Ctx) (tag : AttributeTag) (e e' : AttributeError) (i : Bits)
    (h : AttrFails c tag e i) (h' : AttrFails c tag e' i) : e = e' :=
  (attrErrors c).unique tag e e' i h h'

/-- C53 for replays: if the value of an attribute is reported, then the class of the object
declares the attribute with some type, and part of the network section starting at the value
fails as that type does. -/
theorem replay_attr_error {env : Env} {h : Header} {body : ReplayBody}
    (hl : body.objects.length ≤ 2 ^ 31) (hn : body.networkData.length < 2 ^ 31) {id : ActorId}
    {obj : ObjectId} {s : StreamId} {e : AttributeError} {ctx : FrameContext}
    (hp : Network.parse env h body = .err (.frameError (.attributeError id obj s e) ctx)) :
    ∃ c cd tag ob j, CtxOf h body c ∧ ClassOf body obj cd ∧ cd.attr s = some (tag, ob) ∧
      j <:+ bytes body.networkData ∧ AttrFails c tag e j ∧ e ≠ .unimplemented := by
  obtain ⟨c, n, ess, known, j, es, us, h2, h3, _⟩ := failure_context hl hn hp
  obtain ⟨cd, tag, ob, k, g1, g2, g3, g4, g5⟩ := frame_value (ends_accepts c) h3
  exact ⟨c, cd, tag, ob, k, h2.ctx, (h2.net.cls _ _).1 g1, g2,
    g3.trans (framesAt_ends (ends_accepts c) h2.frames), g4, g5⟩

/-! Instances. -/

/-- Some version. -/
def failCtx : Spec.Ctx := ⟨868, 20, 10, 1, 2, 3, 4, 5, true⟩

/-- A count of 5 with four bytes behind. -/
example : AttrFails failCtx .string (.tooBigString 5) (field 32 (5 : I32) ++ bits 32 0) :=
  .string (.narrow (by decide) (by decide) (by decide))

/-- A count of 1025. -/
example : AttrFails failCtx .string (.tooBigString 1025) (field 32 (1025 : I32)) :=
  .string (.range (n := 1025) (i := []) (.inl (by decide)))

/-- Platform 3 is not known. -/
example : AttrFails failCtx .uniqueId (.unrecognizedRemoteId 3) (field 8 (3 : Byte) ++ [true]) :=
  .uniqueId (.id (.remote (.unknown (by decide))))

/-- A PlayStation id that ends within its unknown part. -/
example : AttrFails failCtx .uniqueId (.notEnoughDataFor "PS4 Unknown")
    (field 8 (2 : Byte) ++ bits 200 0) :=
  .uniqueId (.id (.remote (.psUnknown (by rw [bits_length]; decide)
    (by rw [bits_length, if_pos (by decide)]; decide))))

/-- The local id is missing. -/
example : AttrFails failCtx .uniqueId (.notEnoughDataFor "UniqueId local_id")
    (field 8 (1 : Byte) ++ (field 64 (77 : BitVec 64) ++ [])) :=
  .uniqueId (.id (.localId (.steam 77) (by decide)))

/-! ## C54

Full statement: the error is `NotEnoughDataFor` exactly if the value is cut off, that is
`(∃ what, AttrFails c tag (.notEnoughDataFor what) i) ↔ CutOff (AttrEnc c tag) i`.
Both directions are false: see `cut_off_text` and `long_title`. -/

/-- C54 for attribute types without texts, player ids and optional velocities: decoding fails
exactly if the data ends within the value, with one error. -/
theorem cut_off_iff_partial (c : Spec.Ctx) (tag : AttributeTag) (what : String)
    (h : plainName c tag = some what) (e : AttributeError) (i : Bits) :
    AttrFails c tag e i ↔ e = .notEnoughDataFor what ∧ CutOff (AttrEnc c tag) i := by
  constructor
  · intro hf
    cases hf with
    | plain h1 h2 => rw [h] at h1; cases h1; exact ⟨rfl, h2⟩
    | qWordString h1 _ => simp [plainName, h1] at h
    | _ => cases h
  · rintro ⟨rfl, h2⟩
    exact .plain h h2

/-- C54, one direction for every attribute type but the rigid body: a value that is cut off
is answered with `NotEnoughDataFor` or `TooBigString`. -/
theorem cut_off_error_partial (c : Spec.Ctx) (tag : AttributeTag) (ht : tag ≠ .rigidBody)
    (i : Bits) (h : CutOff (AttrEnc c tag) i) :
    ∃ e, AttrFails c tag e i ∧ ((∃ what, e = .notEnoughDataFor what) ∨ ∃ n, e = .tooBigString n) := by
  obtain ⟨e, he⟩ := cutOff_fails c tag ht i h
  refine ⟨e, he, ?_⟩
  obtain ⟨v, b, _, hv⟩ := h
  have hno : ∀ e', ¬AttrFails c tag e' (i ++ b) := fun e' h' =>
    ((attrErrors c).total tag _).1 ⟨e', h'⟩ v [] (.inl ⟨_, hv, by simp⟩)
  cases e with
  | notEnoughDataFor w => exact .inl ⟨w, rfl⟩
  | tooBigString n => exact .inr ⟨n, rfl⟩
  | unimplemented =>
    have := ((attrErrors c).unimplemented tag i).1 he
    subst this
    exact absurd (((attrErrors c).unimplemented _ _).2 rfl) (hno _)
  | unrecognizedRemoteId s => exact absurd (unrecognized_extend he b) (hno _)

/-- C54 for rigid bodies: only location and rotation are needed. -/
theorem rigid_body_cut_off_partial (c : Spec.Ctx) (e : AttributeError) (i : Bits) :
    AttrFails c .rigidBody e i ↔ e = .notEnoughDataFor "Rigid Body" ∧ CutOff (RigidBodyHead c) i := by
  constructor
  · intro hf
    cases hf with
    | plain h1 => cases h1
    | rigidBody h => exact ⟨rfl, h⟩
  · rintro ⟨rfl, h⟩
    exact .rigidBody h

/-- C54 fails: a text that is cut off is reported as too big. -/
theorem cut_off_text : ∃ i, CutOff (AttrEnc failCtx .string) i ∧
    ¬∃ what, AttrFails failCtx .string (.notEnoughDataFor what) i := by
  refine ⟨field 32 (2 : I32) ++ bits 8 65, ⟨.string "A".toList, bits 8 0, by decide, ?_⟩, ?_⟩
  · refine .string (.inr (.inl ⟨[65], 0, by decide, ?_, rfl⟩))
    unfold IsCp1252
    decide +kernel
  · rintro ⟨what, h⟩
    cases attr_error_unique _ _ _ _ _ h (.string (.narrow (n := 2) (i := bits 8 65)
      (by decide) (by decide) (by decide)))

/-- C54 fails: a title with a count out of range is reported as not enough data although no
continuation is a value. -/
theorem long_title : ∃ i, AttrFails failCtx .loadoutOnline (.notEnoughDataFor "Loadout Online") i ∧
    ¬CutOff (AttrEnc failCtx .loadoutOnline) i := by
  have hf : ∀ b, OnlineLoadoutFail failCtx (field 8 (1 : Byte) ++ (field 8 (1 : Byte) ++
      (true :: (field 32 (3 : ObjectId) ++ (field 32 (5000 : I32) ++ b))))) := by
    intro b
    refine .inr ⟨1, _, rfl, .here (.inr ⟨1, _, rfl, .here (.inr ⟨true, 3, _, rfl, .inl ⟨?_, .tooBigString 5000, ?_⟩⟩)⟩)⟩
    · exact ⟨rfl, by decide, by decide⟩
    · exact .range (.inl (by decide))
  refine ⟨_, .loadoutOnline (hf []), ?_⟩
  rintro ⟨v, b, _, h⟩
  have h1 := attr_error_total failCtx .loadoutOnline
    (field 8 (1 : Byte) ++ (field 8 (1 : Byte) ++
      (true :: (field 32 (3 : ObjectId) ++ (field 32 (5000 : I32) ++ b)))))
  exact h1.1 ⟨_, .loadoutOnline (hf b)⟩ v [] (.inl ⟨_, h, by simp⟩)

end Boxcars.Props
