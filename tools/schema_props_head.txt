import Verif.Proofs.Schema
import Verif.Props.NetSample
/-!
# C68: the format of serialized replays

The part "Generated" is generated by `tools/gen_schema.py`.
-/
namespace Boxcars.Props
open Boxcars Spec

/-- C68. What is written for a replay are exactly the values of its schema. -/
theorem replay_schema (j : SVal) : (∃ r, serReplay r = j) ↔ Has replayShape j := (replay_fits j).symm

/-- C68. What is written for a header value are exactly the values of the eight shapes. -/
theorem prop_schema (j : SVal) : (∃ p, serProp p = j) ↔ ∃ s ∈ propShapes, Has s j := by
  constructor
  · rintro ⟨p, rfl⟩
    cases serProp_has p with | prop hm h => exact ⟨_, hm, h⟩
  · rintro ⟨s, hm, h⟩
    exact prop_of_has _ (.prop hm h)

/-- C68. What is written for frames are exactly the values of their schema. -/
theorem frames_schema (j : SVal) : (∃ fs, (cList cFrame).ser fs = j) ↔ Has (.list frameShape) j :=
  (list_fits frame_fits j).symm

/-- C68. A value that follows the schema of frames is read as the frames it is written for. -/
theorem schema_read (j : SVal) (h : Has (.list frameShape) j) :
    ∃ fs, (cList cFrame).de j = some fs ∧ (cList cFrame).ser fs = j := by
  obtain ⟨fs, rfl⟩ := (frames_schema j).2 h
  exact ⟨fs, (list_ll Frame_ll.opt).rt fs, rfl⟩

/-- The entries of a written struct, in order. -/
def Entries (j : SVal) (kvs : List (String × SVal)) : Prop := j = .map kvs

/-! ### Generated -/

