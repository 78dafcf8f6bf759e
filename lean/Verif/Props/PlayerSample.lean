import Verif.Proofs.Replay
/-!
# A small replay with two players, used by the examples

Made like the one of `NetSample.lean`.  In the first frame actors 5 and 6 get the names A and B
and the pings 10 and 20.  In the second actor 5 has ping 11, actor 7 turns out to be the car of
actor 6, and is demolished by actor 5.  The header lists the name A.
-/
namespace Boxcars.Props
open Boxcars Spec

def players : List Byte :=
  [0xa3, 0x00, 0x00, 0x00, 0xc2, 0x67, 0x00, 0x57, 0x64, 0x03, 0x00, 0x00, 0x14, 0x00, 0x00,
   0x00, 0x0a, 0x00, 0x00, 0x00, 0x02, 0x00, 0x00, 0x00, 0x47, 0x00, 0x0a, 0x00, 0x00, 0x00,
   0x4e, 0x75, 0x6d, 0x46, 0x72, 0x61, 0x6d, 0x65, 0x73, 0x00, 0x0c, 0x00, 0x00, 0x00, 0x49,
   0x6e, 0x74, 0x50, 0x72, 0x6f, 0x70, 0x65, 0x72, 0x74, 0x79, 0x00, 0x04, 0x00, 0x00, 0x00,
   0x00, 0x00, 0x00, 0x00, 0x02, 0x00, 0x00, 0x00, 0x0c, 0x00, 0x00, 0x00, 0x50, 0x6c, 0x61,
   0x79, 0x65, 0x72, 0x53, 0x74, 0x61, 0x74, 0x73, 0x00, 0x0e, 0x00, 0x00, 0x00, 0x41, 0x72,
   0x72, 0x61, 0x79, 0x50, 0x72, 0x6f, 0x70, 0x65, 0x72, 0x74, 0x79, 0x00, 0x34, 0x00, 0x00,
   0x00, 0x00, 0x00, 0x00, 0x00, 0x01, 0x00, 0x00, 0x00, 0x05, 0x00, 0x00, 0x00, 0x4e, 0x61,
   0x6d, 0x65, 0x00, 0x0c, 0x00, 0x00, 0x00, 0x53, 0x74, 0x72, 0x50, 0x72, 0x6f, 0x70, 0x65,
   0x72, 0x74, 0x79, 0x00, 0x06, 0x00, 0x00, 0x00, 0x00, 0x00, 0x00, 0x00, 0x02, 0x00, 0x00,
   0x00, 0x41, 0x00, 0x05, 0x00, 0x00, 0x00, 0x4e, 0x6f, 0x6e, 0x65, 0x00, 0x05, 0x00, 0x00,
   0x00, 0x4e, 0x6f, 0x6e, 0x65, 0x00, 0x7f, 0x01, 0x00, 0x00, 0xe0, 0xe3, 0xb3, 0x5b, 0x00,
   0x00, 0x00, 0x00, 0x00, 0x00, 0x00, 0x00, 0x61, 0x00, 0x00, 0x00, 0x00, 0x00, 0x80, 0x3f,
   0x00, 0x00, 0x00, 0x3f, 0x0b, 0xf8, 0x00, 0x00, 0x00, 0x00, 0x00, 0x00, 0x00, 0x00, 0x18,
   0x0f, 0xd0, 0x80, 0x0f, 0x00, 0x00, 0x00, 0x00, 0x00, 0x00, 0x00, 0x80, 0xf1, 0x00, 0x0f,
   0xf8, 0x00, 0x00, 0x00, 0x00, 0x00, 0x00, 0x00, 0x00, 0x18, 0x0f, 0xb0, 0x80, 0x22, 0x00,
   0x00, 0x00, 0x10, 0x04, 0xa0, 0x01, 0x45, 0x00, 0x00, 0x00, 0x40, 0x08, 0xc0, 0x02, 0x9a,
   0x82, 0x06, 0x34, 0x0a, 0x00, 0x00, 0x80, 0x7f, 0x00, 0x00, 0x00, 0x7e, 0x16, 0xd0, 0x16,
   0x3c, 0xa0, 0x36, 0x00, 0x00, 0x00, 0xf8, 0x02, 0x00, 0x00, 0x80, 0x07, 0x00, 0x00, 0x00,
   0x40, 0x05, 0x2a, 0x00, 0x00, 0x00, 0x00, 0x00, 0x00, 0x00, 0x00, 0x00, 0x00, 0x00, 0x00,
   0x06, 0x00, 0x00, 0x00, 0x0f, 0x00, 0x00, 0x00, 0x54, 0x41, 0x47, 0x61, 0x6d, 0x65, 0x2e,
   0x42, 0x61, 0x6c, 0x6c, 0x5f, 0x54, 0x41, 0x00, 0x12, 0x00, 0x00, 0x00, 0x54, 0x41, 0x47,
   0x61, 0x6d, 0x65, 0x2e, 0x52, 0x42, 0x41, 0x63, 0x74, 0x6f, 0x72, 0x5f, 0x54, 0x41, 0x00,
   0x28, 0x00, 0x00, 0x00, 0x45, 0x6e, 0x67, 0x69, 0x6e, 0x65, 0x2e, 0x50, 0x6c, 0x61, 0x79,
   0x65, 0x72, 0x52, 0x65, 0x70, 0x6c, 0x69, 0x63, 0x61, 0x74, 0x69, 0x6f, 0x6e, 0x49, 0x6e,
   0x66, 0x6f, 0x3a, 0x50, 0x6c, 0x61, 0x79, 0x65, 0x72, 0x4e, 0x61, 0x6d, 0x65, 0x00, 0x22,
   0x00, 0x00, 0x00, 0x45, 0x6e, 0x67, 0x69, 0x6e, 0x65, 0x2e, 0x50, 0x6c, 0x61, 0x79, 0x65,
   0x72, 0x52, 0x65, 0x70, 0x6c, 0x69, 0x63, 0x61, 0x74, 0x69, 0x6f, 0x6e, 0x49, 0x6e, 0x66,
   0x6f, 0x3a, 0x50, 0x69, 0x6e, 0x67, 0x00, 0x22, 0x00, 0x00, 0x00, 0x45, 0x6e, 0x67, 0x69,
   0x6e, 0x65, 0x2e, 0x50, 0x61, 0x77, 0x6e, 0x3a, 0x50, 0x6c, 0x61, 0x79, 0x65, 0x72, 0x52,
   0x65, 0x70, 0x6c, 0x69, 0x63, 0x61, 0x74, 0x69, 0x6f, 0x6e, 0x49, 0x6e, 0x66, 0x6f, 0x00,
   0x21, 0x00, 0x00, 0x00, 0x54, 0x41, 0x47, 0x61, 0x6d, 0x65, 0x2e, 0x43, 0x61, 0x72, 0x5f,
   0x54, 0x41, 0x3a, 0x52, 0x65, 0x70, 0x6c, 0x69, 0x63, 0x61, 0x74, 0x65, 0x64, 0x44, 0x65,
   0x6d, 0x6f, 0x6c, 0x69, 0x73, 0x68, 0x00, 0x00, 0x00, 0x00, 0x00, 0x00, 0x00, 0x00, 0x00,
   0x01, 0x00, 0x00, 0x00, 0x01, 0x00, 0x00, 0x00, 0x00, 0x00, 0x00, 0x00, 0x00, 0x00, 0x00,
   0x00, 0x04, 0x00, 0x00, 0x00, 0x02, 0x00, 0x00, 0x00, 0x00, 0x00, 0x00, 0x00, 0x03, 0x00,
   0x00, 0x00, 0x01, 0x00, 0x00, 0x00, 0x04, 0x00, 0x00, 0x00, 0x02, 0x00, 0x00, 0x00, 0x05,
   0x00, 0x00, 0x00, 0x03, 0x00, 0x00, 0x00]

def playersObjects : List Str :=
  ["TAGame.Ball_TA", "TAGame.RBActor_TA", "Engine.PlayerReplicationInfo:PlayerName",
   "Engine.PlayerReplicationInfo:Ping", "Engine.Pawn:PlayerReplicationInfo",
   "TAGame.Car_TA:ReplicatedDemolish"].map String.toList

def playersUpdates : List (List UpdatedAttribute) :=
  [[⟨5, 0, 2, .string "A".toList⟩, ⟨6, 0, 2, .string "B".toList⟩, ⟨5, 1, 3, .byte 10⟩,
    ⟨6, 1, 3, .byte 20⟩],
   [⟨5, 1, 3, .byte 11⟩, ⟨7, 2, 4, .activeActor ⟨true, 6⟩⟩,
    ⟨7, 3, 5, .demolish ⟨true, 5, true, 7, ⟨0, 0, 0⟩, ⟨0, 0, 0⟩⟩⟩]]

def playersTimes : List F32 := [0x3f800000, 0x3fc00000]

set_option maxRecDepth 100000 in
theorem players_check :
    (match parseWith .onError .always Env.default64 players with
     | .ok r => r.objects == playersObjects &&
        (match r.networkFrames with
         | some n => n.frames.map (fun f => f.updatedActors) == playersUpdates &&
            n.frames.map (fun f => f.time) == playersTimes
         | none => false)
     | _ => false) = true := by
  decide +kernel

theorem players_ok : ∃ r n, parseWith .onError .always Env.default64 players = .ok r ∧
    r.objects = playersObjects ∧ r.networkFrames = some n ∧
    n.frames.map (fun f => f.updatedActors) = playersUpdates ∧
    n.frames.map (fun f => f.time) = playersTimes := by
  have h := players_check
  cases hp : parseWith .onError .always Env.default64 players with
  | ok r =>
    rw [hp] at h
    simp only [Bool.and_eq_true, beq_iff_eq] at h
    cases hn : r.networkFrames with
    | none => rw [hn] at h; cases h.2
    | some n =>
      rw [hn] at h
      simp only [Bool.and_eq_true, beq_iff_eq] at h
      exact ⟨r, n, rfl, h.1, hn, h.2⟩
  | err e => rw [hp] at h; cases h
  | fault f => rw [hp] at h; cases h

end Boxcars.Props
