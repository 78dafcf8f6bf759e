import Verif.Proofs.Replay
/-!
# A small replay with network data, used by the examples

Made with `Spec.encFile` and the encodings of `Spec/Bits.lean`.  It has three frames:

1. actors 5 and 300 announced as balls, actor 5 updated twice;
2. both deleted;
3. actor 5 updated; the time difference of this frame is not a number.

In `demoStray` the third frame updates actor 300 instead.
-/
namespace Boxcars.Props
open Boxcars Spec

def demo : List Byte :=
  [0x45, 0x00, 0x00, 0x00, 0xbf, 0x57, 0x09, 0x3c, 0x64, 0x03, 0x00, 0x00, 0x14, 0x00, 0x00,
   0x00, 0x0a, 0x00, 0x00, 0x00, 0x02, 0x00, 0x00, 0x00, 0x47, 0x00, 0x0a, 0x00, 0x00, 0x00,
   0x4e, 0x75, 0x6d, 0x46, 0x72, 0x61, 0x6d, 0x65, 0x73, 0x00, 0x0c, 0x00, 0x00, 0x00, 0x49,
   0x6e, 0x74, 0x50, 0x72, 0x6f, 0x70, 0x65, 0x72, 0x74, 0x79, 0x00, 0x04, 0x00, 0x00, 0x00,
   0x00, 0x00, 0x00, 0x00, 0x03, 0x00, 0x00, 0x00, 0x05, 0x00, 0x00, 0x00, 0x4e, 0x6f, 0x6e,
   0x65, 0x00, 0xf0, 0x00, 0x00, 0x00, 0xe0, 0xa2, 0xcd, 0x51, 0x00, 0x00, 0x00, 0x00, 0x00,
   0x00, 0x00, 0x00, 0x3b, 0x00, 0x00, 0x00, 0x00, 0x00, 0x80, 0x3f, 0x00, 0x00, 0x00, 0x3f,
   0x0b, 0xf8, 0x00, 0x00, 0x00, 0x00, 0x00, 0x00, 0x00, 0x00, 0x18, 0x0f, 0xb0, 0x80, 0x3a,
   0xb2, 0x2c, 0x7d, 0x00, 0x00, 0x00, 0x00, 0x00, 0x00, 0x00, 0x00, 0x8c, 0x07, 0x00, 0x00,
   0x00, 0xfc, 0x03, 0x00, 0x00, 0xf0, 0xb3, 0x00, 0x59, 0x02, 0x00, 0x00, 0x00, 0x08, 0x00,
   0x00, 0xf8, 0x6f, 0x01, 0x7d, 0x00, 0x00, 0x00, 0x00, 0x00, 0x00, 0x00, 0x00, 0x00, 0x00,
   0x00, 0x00, 0x00, 0x04, 0x00, 0x00, 0x00, 0x0f, 0x00, 0x00, 0x00, 0x54, 0x41, 0x47, 0x61,
   0x6d, 0x65, 0x2e, 0x42, 0x61, 0x6c, 0x6c, 0x5f, 0x54, 0x41, 0x00, 0x12, 0x00, 0x00, 0x00,
   0x54, 0x41, 0x47, 0x61, 0x6d, 0x65, 0x2e, 0x52, 0x42, 0x41, 0x63, 0x74, 0x6f, 0x72, 0x5f,
   0x54, 0x41, 0x00, 0x1a, 0x00, 0x00, 0x00, 0x54, 0x41, 0x47, 0x61, 0x6d, 0x65, 0x2e, 0x52,
   0x42, 0x41, 0x63, 0x74, 0x6f, 0x72, 0x5f, 0x54, 0x41, 0x3a, 0x62, 0x46, 0x72, 0x6f, 0x7a,
   0x65, 0x6e, 0x00, 0x22, 0x00, 0x00, 0x00, 0x54, 0x41, 0x47, 0x61, 0x6d, 0x65, 0x2e, 0x52,
   0x42, 0x41, 0x63, 0x74, 0x6f, 0x72, 0x5f, 0x54, 0x41, 0x3a, 0x54, 0x65, 0x6c, 0x65, 0x70,
   0x6f, 0x72, 0x74, 0x43, 0x6f, 0x75, 0x6e, 0x74, 0x65, 0x72, 0x00, 0x00, 0x00, 0x00, 0x00,
   0x00, 0x00, 0x00, 0x00, 0x01, 0x00, 0x00, 0x00, 0x01, 0x00, 0x00, 0x00, 0x00, 0x00, 0x00,
   0x00, 0x00, 0x00, 0x00, 0x00, 0x02, 0x00, 0x00, 0x00, 0x02, 0x00, 0x00, 0x00, 0x00, 0x00,
   0x00, 0x00, 0x03, 0x00, 0x00, 0x00, 0x01, 0x00, 0x00, 0x00]

def demoStray : List Byte :=
  [0x45, 0x00, 0x00, 0x00, 0xbf, 0x57, 0x09, 0x3c, 0x64, 0x03, 0x00, 0x00, 0x14, 0x00, 0x00,
   0x00, 0x0a, 0x00, 0x00, 0x00, 0x02, 0x00, 0x00, 0x00, 0x47, 0x00, 0x0a, 0x00, 0x00, 0x00,
   0x4e, 0x75, 0x6d, 0x46, 0x72, 0x61, 0x6d, 0x65, 0x73, 0x00, 0x0c, 0x00, 0x00, 0x00, 0x49,
   0x6e, 0x74, 0x50, 0x72, 0x6f, 0x70, 0x65, 0x72, 0x74, 0x79, 0x00, 0x04, 0x00, 0x00, 0x00,
   0x00, 0x00, 0x00, 0x00, 0x03, 0x00, 0x00, 0x00, 0x05, 0x00, 0x00, 0x00, 0x4e, 0x6f, 0x6e,
   0x65, 0x00, 0xef, 0x00, 0x00, 0x00, 0x45, 0xe5, 0x2d, 0x47, 0x00, 0x00, 0x00, 0x00, 0x00,
   0x00, 0x00, 0x00, 0x3a, 0x00, 0x00, 0x00, 0x00, 0x00, 0x80, 0x3f, 0x00, 0x00, 0x00, 0x3f,
   0x0b, 0xf8, 0x00, 0x00, 0x00, 0x00, 0x00, 0x00, 0x00, 0x00, 0x18, 0x0f, 0xb0, 0x80, 0x3a,
   0xb2, 0x2c, 0x7d, 0x00, 0x00, 0x00, 0x00, 0x00, 0x00, 0x00, 0x00, 0x8c, 0x07, 0x00, 0x00,
   0x00, 0xfc, 0x03, 0x00, 0x00, 0xf0, 0xb3, 0x00, 0x59, 0x02, 0x00, 0x00, 0x00, 0x08, 0x00,
   0x00, 0xf8, 0x2f, 0x4b, 0x05, 0x00, 0x00, 0x00, 0x00, 0x00, 0x00, 0x00, 0x00, 0x00, 0x00,
   0x00, 0x00, 0x04, 0x00, 0x00, 0x00, 0x0f, 0x00, 0x00, 0x00, 0x54, 0x41, 0x47, 0x61, 0x6d,
   0x65, 0x2e, 0x42, 0x61, 0x6c, 0x6c, 0x5f, 0x54, 0x41, 0x00, 0x12, 0x00, 0x00, 0x00, 0x54,
   0x41, 0x47, 0x61, 0x6d, 0x65, 0x2e, 0x52, 0x42, 0x41, 0x63, 0x74, 0x6f, 0x72, 0x5f, 0x54,
   0x41, 0x00, 0x1a, 0x00, 0x00, 0x00, 0x54, 0x41, 0x47, 0x61, 0x6d, 0x65, 0x2e, 0x52, 0x42,
   0x41, 0x63, 0x74, 0x6f, 0x72, 0x5f, 0x54, 0x41, 0x3a, 0x62, 0x46, 0x72, 0x6f, 0x7a, 0x65,
   0x6e, 0x00, 0x22, 0x00, 0x00, 0x00, 0x54, 0x41, 0x47, 0x61, 0x6d, 0x65, 0x2e, 0x52, 0x42,
   0x41, 0x63, 0x74, 0x6f, 0x72, 0x5f, 0x54, 0x41, 0x3a, 0x54, 0x65, 0x6c, 0x65, 0x70, 0x6f,
   0x72, 0x74, 0x43, 0x6f, 0x75, 0x6e, 0x74, 0x65, 0x72, 0x00, 0x00, 0x00, 0x00, 0x00, 0x00,
   0x00, 0x00, 0x00, 0x01, 0x00, 0x00, 0x00, 0x01, 0x00, 0x00, 0x00, 0x00, 0x00, 0x00, 0x00,
   0x00, 0x00, 0x00, 0x00, 0x02, 0x00, 0x00, 0x00, 0x02, 0x00, 0x00, 0x00, 0x00, 0x00, 0x00,
   0x00, 0x03, 0x00, 0x00, 0x00, 0x01, 0x00, 0x00, 0x00]

def demoObjects : List Str :=
  ["TAGame.Ball_TA", "TAGame.RBActor_TA", "TAGame.RBActor_TA:bFrozen",
   "TAGame.RBActor_TA:TeleportCounter"].map String.toList

def demoNew (id : ActorId) : NewActor :=
  ⟨id, some 7, 0, ⟨some ⟨1, -2, 0⟩, some ⟨some 3, none, none⟩⟩⟩

def demoFrames : List Frame :=
  [⟨0x3f800000, 0x3f000000, [demoNew 5, demoNew 300], [],
     [⟨5, 0, 2, .boolean true⟩, ⟨5, 1, 3, .byte 200⟩]⟩,
   ⟨0x3fc00000, 0x3f000000, [], [5, 300], []⟩,
   ⟨0x40000000, 0x7fc00000, [], [], [⟨5, 1, 3, .byte 7⟩]⟩]

set_option maxRecDepth 100000 in
theorem demo_check :
    (match parseWith .always .always Env.default64 demo with
     | .ok r => r.networkFrames == some ⟨demoFrames⟩ && r.objects == demoObjects &&
        r.netCache == [⟨1, 0, 0, [⟨2, 0⟩, ⟨3, 1⟩]⟩]
     | _ => false) = true := by
  decide +kernel

theorem demo_ok : ∃ r, parseWith .always .always Env.default64 demo = .ok r ∧
    r.networkFrames = some ⟨demoFrames⟩ ∧ r.objects = demoObjects ∧
    r.netCache = [⟨1, 0, 0, [⟨2, 0⟩, ⟨3, 1⟩]⟩] := by
  have h := demo_check
  cases hp : parseWith .always .always Env.default64 demo with
  | ok r =>
    rw [hp] at h
    simp only [Bool.and_eq_true, beq_iff_eq] at h
    exact ⟨r, rfl, h.1.1, h.1.2, h.2⟩
  | err e => rw [hp] at h; cases h
  | fault f => rw [hp] at h; cases h

set_option maxRecDepth 100000 in
/-- The updates of an actor that does not exist are an error; it comes with the two frames
before, and the actors still announced. -/
theorem demoStray_check :
    (match parseWith .always .always Env.default64 demoStray with
     | .err (.networkError (.frameError (.missingActor id) c)) =>
       id == 300 && c.frames == demoFrames.take 2 && c.actors == [(5, 0)] && c.newActors == [] &&
         c.updatedActors == [] && c.objects == demoObjects
     | _ => false) = true := by
  decide +kernel

end Boxcars.Props
