import Verif.Proofs.CutShort
import Verif.Props.AttrFail
/-!
# C54: which errors tell that a value is cut off
-/
namespace Boxcars.Props
open Boxcars Spec

/-- C54. With such an error the value can be completed. -/
theorem cut_error {c : Spec.Ctx} {tag : AttributeTag} {e : AttributeError} {i : Bits}
    (h : AttrFails c tag e i) (he : CutError e) : CutOff (AttrEnc c tag) i := cutError_cut h he

/-- C54. With such an error it can not, and the error stays the same whatever follows. -/
theorem final_error {c : Spec.Ctx} {tag : AttributeTag} {e : AttributeError} {i : Bits}
    (h : AttrFails c tag e i) (he : FinalError e) :
    ¬CutOff (AttrEnc c tag) i ∧ ∀ b, AttrFails c tag e (i ++ b) := by
  refine ⟨?_, finalError_stays h he⟩
  rintro ⟨v, b, _, hv⟩
  exact ((attrErrors c).total tag _).1 ⟨e, finalError_stays h he b⟩ v [] (.inl ⟨_, hv, by simp⟩)

/-- No value starts with data that is answered with some error whatever follows. -/
theorem stuck {c : Spec.Ctx} {tag : AttributeTag} {i : Bits}
    (h : ∀ b, b ≠ [] → ∃ e, AttrFails c tag e (i ++ b)) : ¬CutOff (AttrEnc c tag) i := by
  rintro ⟨v, b, hb, hv⟩
  exact ((attrErrors c).total tag _).1 (h b hb) v [] (.inl ⟨_, hv, by simp⟩)

/-- A loadout with one product, a title of 5000 characters. -/
def longTitle : Bits := field 8 (1 : Byte) ++ (field 8 (1 : Byte) ++
  (true :: (field 32 (3 : ObjectId) ++ field 32 (5000 : I32))))

theorem longTitle_fails (b : Bits) : OnlineLoadoutFail failCtx (longTitle ++ b) := by
  have : longTitle ++ b = field 8 (1 : Byte) ++ (field 8 (1 : Byte) ++
      (true :: (field 32 (3 : ObjectId) ++ (field 32 (5000 : I32) ++ b)))) := by
    simp [longTitle]
  rw [this]
  refine .inr ⟨1, _, rfl, .here (.inr ⟨1, _, rfl, .here (.inr ⟨true, 3, _, rfl, .inl ⟨?_, .tooBigString 5000, ?_⟩⟩)⟩)⟩
  · exact ⟨rfl, by decide, by decide⟩
  · exact .range (.inl (by decide))

/-- C54. The five names are given to values that can not be completed as well: the count of a text
of which 31 bits say that it is out of range, a platform of which seven bits say that it is unknown,
a title that is too long. -/
theorem vague_names {what : String} (h : what ∈ vagueNames) :
    ∃ tag i, AttrFails failCtx tag (.notEnoughDataFor what) i ∧ ¬CutOff (AttrEnc failCtx tag) i := by
  simp only [vagueNames, List.mem_cons, List.not_mem_nil, or_false] at h
  rcases h with rfl | rfl | rfl | rfl | rfl
  · refine ⟨.string, bits 31 (2 ^ 30), .string (.count (by rw [bits_length]; decide)), stuck ?_⟩
    intro b hb
    match b, hb with
    | x :: b, _ =>
      cases x
      · exact ⟨_, .string (.range (n := 0x40000000) (i := b) (.inl (by decide)))⟩
      · exact ⟨_, .string (.range (n := 0xc0000000) (i := b) (.inr (by decide)))⟩
  · refine ⟨.uniqueId, bits 7 3, .uniqueId (.system (by decide)), stuck ?_⟩
    intro b hb
    match b, hb with
    | x :: b, _ =>
      cases x
      · exact ⟨_, .uniqueId (.id (s := 3) (i := b) (.remote (.unknown (by decide))))⟩
      · exact ⟨_, .uniqueId (.id (s := 131) (i := b) (.remote (.unknown (by decide))))⟩
  · refine ⟨.partyLeader, bits 7 3, .partyLeader (.system (by decide)), stuck ?_⟩
    intro b hb
    match b, hb with
    | x :: b, _ =>
      cases x
      · exact ⟨_, .partyLeader (.id (s := 3) (i := b) (by decide) (.remote (.unknown (by decide))))⟩
      · exact ⟨_, .partyLeader (.id (s := 131) (i := b) (by decide) (.remote (.unknown (by decide))))⟩
  · have := longTitle_fails []
    rw [List.append_nil] at this
    exact ⟨.loadoutOnline, longTitle, .loadoutOnline this,
      stuck fun b _ => ⟨_, .loadoutOnline (longTitle_fails b)⟩⟩
  · have := longTitle_fails []
    rw [List.append_nil] at this
    exact ⟨.loadoutsOnline, longTitle, .loadoutsOnline (.inl this),
      stuck fun b _ => ⟨_, .loadoutsOnline (.inl (longTitle_fails b))⟩⟩

/-- C54. Exactly which errors tell that the value is cut off. -/
theorem cut_error_iff {e : AttributeError} (h : ∃ c tag i, AttrFails c tag e i) :
    (∀ c tag i, AttrFails c tag e i → CutOff (AttrEnc c tag) i) ↔ CutError e := by
  refine ⟨fun hc => ?_, fun he c tag i hi => cut_error hi he⟩
  obtain ⟨c, tag, i, hi⟩ := h
  have hf : ¬FinalError e := fun hf => (final_error hi hf).1 (hc c tag i hi)
  cases e with
  | notEnoughDataFor w =>
    intro hw
    obtain ⟨tag, i, h1, h2⟩ := vague_names hw
    exact h2 (hc _ _ _ h1)
  | tooBigString n => simp only [FinalError] at hf; exact ⟨by omega, by omega⟩
  | unimplemented => exact hf trivial
  | unrecognizedRemoteId => exact hf trivial

/-- C54. The five names are given to values that can be completed, too. -/
theorem vague_names_cut {what : String} (h : what ∈ vagueNames) :
    ∃ tag, AttrFails failCtx tag (.notEnoughDataFor what) [] ∧ CutOff (AttrEnc failCtx tag) [] := by
  simp only [vagueNames, List.mem_cons, List.not_mem_nil, or_false] at h
  have h0 : ByteList (ByteList (ProductAttrEnc failCtx)) [] (field 8 0) := ⟨[], by decide, .nil, rfl⟩
  rcases h with rfl | rfl | rfl | rfl | rfl
  · exact ⟨.string, .string (.count (by decide)), .string [], _, by decide, .string (.inl ⟨rfl, rfl⟩)⟩
  · exact ⟨.uniqueId, .uniqueId (.system (by decide)), _, _, by simp [field, bits],
      .uniqueId (uniqueId_some _)⟩
  · exact ⟨.partyLeader, .partyLeader (.system (by decide)), _, _, by simp [bits],
      .partyLeader (.inl ⟨rfl, rfl⟩)⟩
  · exact ⟨.loadoutOnline, .loadoutOnline (.inl (by decide)), _, _, by simp [bits],
      .loadoutOnline h0⟩
  · exact ⟨.loadoutsOnline, .loadoutsOnline (.inl (.inl (by decide))), .loadoutsOnline ⟨[], [], false, false⟩,
      _, by simp [field, bits], .loadoutsOnline ⟨_, _, h0, h0, rfl⟩⟩

/-- An instance: a text of two characters of which one byte is there is reported as too big, and is
cut off; of one with 1025 characters no end helps. -/
example : CutError (.tooBigString 2) ∧ FinalError (.tooBigString 1025) ∧
    CutError (.notEnoughDataFor "Rigid Body") ∧ ¬CutError (.notEnoughDataFor "System id") :=
  ⟨⟨by decide, by decide⟩, .inl (by decide), by unfold CutError; decide,
    fun h => h (by decide)⟩

end Boxcars.Props
