import Verif.Proofs.File
/-!
# A small replay file used by the examples
-/
namespace Boxcars.Props
open Boxcars Spec

/-- A well-formed file: version 868.20.10, one integer property `Id = -7`, empty
body. -/
def sample : List Byte :=
  [0x3e, 0x00, 0x00, 0x00, 0x60, 0xb8, 0x07, 0xd0, 0x64, 0x03, 0x00, 0x00, 0x14, 0x00,
   0x00, 0x00, 0x0a, 0x00, 0x00, 0x00, 0x02, 0x00, 0x00, 0x00, 0x47, 0x00, 0x03, 0x00,
   0x00, 0x00, 0x49, 0x64, 0x00, 0x0c, 0x00, 0x00, 0x00, 0x49, 0x6e, 0x74, 0x50, 0x72,
   0x6f, 0x70, 0x65, 0x72, 0x74, 0x79, 0x00, 0x04, 0x00, 0x00, 0x00, 0x00, 0x00, 0x00,
   0x00, 0xf9, 0xff, 0xff, 0xff, 0x05, 0x00, 0x00, 0x00, 0x4e, 0x6f, 0x6e, 0x65, 0x00,
   0x28, 0x00, 0x00, 0x00, 0xf5, 0x9a, 0x89, 0x13, 0x00, 0x00, 0x00, 0x00, 0x00, 0x00,
   0x00, 0x00, 0x00, 0x00, 0x00, 0x00, 0x00, 0x00, 0x00, 0x00, 0x00, 0x00, 0x00, 0x00,
   0x00, 0x00, 0x00, 0x00, 0x00, 0x00, 0x00, 0x00, 0x00, 0x00, 0x00, 0x00, 0x00, 0x00,
   0x00, 0x00, 0x00, 0x00, 0x00, 0x00]

/-- It is accepted with both checksums verified, and read correctly. -/
theorem sample_check :
    (match parseWith .always .always Env.default64 sample with
     | .ok r =>
       (match r.properties with
        | [(k, .int v)] => k == "Id".toList && v == -7
        | _ => false) && r.netVersion == some 10 && r.networkFrames == some ⟨[]⟩
     | _ => false) = true := by
  decide +kernel

theorem sample_ok : ∃ r, parseWith .always .always Env.default64 sample = .ok r := by
  have h := sample_check
  cases hp : parseWith .always .always Env.default64 sample with
  | ok r => exact ⟨r, rfl⟩
  | err e => rw [hp] at h; cases h
  | fault f => rw [hp] at h; cases h

/-- The outcome is the given error. -/
def failsWith {α : Type} (r : Res ParseError α) (e : ParseError) : Bool :=
  match r with
  | .err e' => decide (e' = e)
  | _ => false

theorem eq_of_failsWith {α : Type} {r : Res ParseError α} {e : ParseError}
    (h : failsWith r e = true) : r = .err e := by
  cases r <;> simp_all [failsWith]

/-- The header and body of the sample and their bytes. -/
def sampleHeader : Header := ⟨868, 20, some 10, "G".toList, [("Id".toList, .int (-7))]⟩
def sampleBody : ReplayBody := ⟨[], [], [], [], [], [], [], [], [], []⟩
def sampleHeaderBytes : Bytes := (sample.drop 8).take 62
def sampleBodyBytes : Bytes := sample.drop 78

theorem utf8_ascii_none : utf8 "None".toList = [0x4e, 0x6f, 0x6e, 0x65] := by decide +kernel

/-- The sample derives from the grammar. -/
theorem sample_headerSec : HeaderSec sampleHeader sampleHeaderBytes := by
  refine ⟨word 10, word 2 ++ ([0x47#8] ++ [0#8]),
    (sampleHeaderBytes.drop 18), ?_, ?_, ?_, by decide +kernel⟩
  · show NetVersionField 868 20 (some 10) (word 10)
    unfold NetVersionField
    rw [if_pos (by decide)]
    exact ⟨10, rfl, rfl⟩
  · exact .inr (.inl ⟨[0x47#8], 0#8, by decide, by unfold IsCp1252; decide +kernel, by decide +kernel⟩)
  · have h : PropList (decide ((868 : BitVec 32) = 0 ∧ (20 : BitVec 32) = 0))
        [("Id".toList, .int (-7))]
        ((word 3 ++ (utf8 "Id".toList ++ [0#8])) ++ ((word 12 ++ (utf8 "IntProperty".toList ++ [0#8])) ++
          ([4#8, 0#8, 0#8, 0#8, 0#8, 0#8, 0#8, 0#8] ++ (word (-7) ++
            (word 5 ++ (utf8 "None".toList ++ [0#8])))))) :=
      .prop (by decide +kernel) (.inr ⟨0#8, by decide +kernel, by decide +kernel⟩)
        (.inr ⟨0#8, by decide +kernel, by decide +kernel⟩) rfl (.int _)
        (.done (.inr ⟨0#8, by decide +kernel, by decide +kernel⟩))
    have e : sampleHeaderBytes.drop 18 =
        ((word 3 ++ (utf8 "Id".toList ++ [0#8])) ++ ((word 12 ++ (utf8 "IntProperty".toList ++ [0#8])) ++
          ([4#8, 0#8, 0#8, 0#8, 0#8, 0#8, 0#8, 0#8] ++ (word (-7) ++
            (word 5 ++ (utf8 "None".toList ++ [0#8])))))) := by decide +kernel
    rw [e]; exact h

theorem sample_bodySec : BodySec sampleBody sampleBodyBytes := by
  have nil : ∀ {α : Type} (g : α → Bytes → Prop), ListField g [] (word 0) :=
    fun g => ⟨[], Nat.zero_le _, .nil, rfl⟩
  exact ⟨word 0, word 0, word 0, word 0, word 0, word 0, word 0, word 0, word 0, nil _, nil _,
    by decide, nil _, nil _, nil _, nil _, nil _, nil _, nil _, by decide +kernel⟩

end Boxcars.Props
