import Verif.Proofs.Binary
import Verif.Props.JsonSize
import Verif.Props.NetSample
import Verif.Props.Schema
import Verif.Props.Serde
/-!
# C86: frames survive a format that does not describe itself
-/
namespace Boxcars.Props
open Boxcars Spec Json Binary

variable {check : CrcCheck} {np : NetworkParse} {env : Env} {data : List Byte} {r : Replay}

/-- The bytes written for frames. -/
def persist (fs : List Frame) : List Byte := binWrite (.list frameShape) ((cList cFrame).ser fs)

/-- The frames read from bytes, all of which must be used. -/
def restore (bs : List Byte) : Option (List Frame) :=
  match binRead (.list frameShape) bs with
  | some (j, []) => (cList cFrame).de j
  | _ => none

/-- The shapes of all values in frames can be told apart without names. -/
theorem frames_binOk : binOk (.list frameShape) = true := by decide +kernel

theorem persist_read {fs : List Frame} (h : sizes frameSize fs < 2 ^ 50) (t : List Byte) :
    binRead (.list frameShape) (persist fs ++ t) = some ((cList cFrame).ser fs, t) := by
  have hl := frames_len (fmt := fun _ => []) (fun _ _ => by decide) ⟨fs⟩
  have e : len (compact (fun _ => []) ((cList cFrame).ser fs)) ≤
      len (compact (fun _ => []) (serNetworkFrames ⟨fs⟩)) := by
    show _ ≤ len (compact (fun _ => []) (.map [("frames", (cList cFrame).ser fs)]))
    rw [map_len, fieldsLen]
    omega
  exact has_rt ((frames_schema _).1 ⟨fs, rfl⟩) frames_binOk (fmt := fun _ => [])
    (by simp only at hl; omega) t

/-- C86. Frames are restored exactly, whatever floats they contain. -/
theorem binary_frames {fs : List Frame} (h : sizes frameSize fs < 2 ^ 50) :
    restore (persist fs) = some fs := by
  have := persist_read h []
  rw [List.append_nil] at this
  rw [restore, this]
  exact (list_ll Frame_ll.opt).rt fs

/-- C86. In particular those of every replay. -/
theorem binary_replay (hs : data.length ≤ env.isizeMax) (h : parseWith check np env data = .ok r)
    {n : NetworkFrames} (hn : r.networkFrames = some n) :
    restore (persist n.frames) = some n.frames := by
  obtain ⟨k, _, _, h1, h2⟩ := size_parts hs h
  unfold framesSize at h1
  rw [hn] at h1
  exact binary_frames (by simp only at h1; omega)

/-- C86. Nothing is restored when the end of the bytes is missing. -/
theorem binary_cut {fs : List Frame} (h : sizes frameSize fs < 2 ^ 50) {p t : List Byte}
    (ht : t ≠ []) (hp : persist fs = p ++ t) : restore p = none := by
  have hr := persist_read h []
  rw [List.append_nil, hp] at hr
  rw [restore]
  cases hb : binRead (.list frameShape) p with
  | none => rfl
  | some q =>
    obtain ⟨j, b⟩ := q
    have := binRead_more t _ _ _ _ hb
    rw [hr] at this
    cases b with
    | nil => exact absurd (by cases this; rfl) ht
    | cons => cases this

/-- C86. Nor when there are further bytes. -/
theorem binary_long {fs : List Frame} (h : sizes frameSize fs < 2 ^ 50) {t : List Byte}
    (ht : t ≠ []) : restore (persist fs ++ t) = none := by
  rw [restore, persist_read h t]
  cases t with
  | nil => exact absurd rfl ht
  | cons => rfl

/-- C86. Different frames are written differently. -/
theorem binary_injective {fs gs : List Frame} (h : sizes frameSize fs < 2 ^ 50)
    (h' : sizes frameSize gs < 2 ^ 50) (e : persist fs = persist gs) : fs = gs := by
  have h1 := binary_frames h
  rw [e, binary_frames h'] at h1
  cases h1
  rfl

set_option maxRecDepth 100000 in
/-- The frames of the sample replay, of which the last has a time difference that is not a number and
that JSON does not keep. -/
theorem demo_binary :
    (persist demoFrames).length = 225 ∧ restore (persist demoFrames) = some demoFrames ∧
      (persist demoFrames).take 12 = [3, 0, 0, 0, 0, 0, 0, 0, 0, 0, 0x80, 0x3f] ∧
      (cList cFrame).de (toJson ((cList cFrame).ser demoFrames)) = none := by
  decide +kernel

set_option maxRecDepth 100000 in
/-- A number of 64 bits is written and read as a text: its position, its length and its digits. -/
example : (persist [⟨0, 0, [], [], [⟨5, 1, 3, .qWord 76561198122624102⟩]⟩]).drop 52 =
      [25, 0, 0, 0, 17, 0, 0, 0, 0, 0, 0, 0] ++ utf8 "76561198122624102".toList ∧
    restore (persist [⟨0, 0, [], [], [⟨5, 1, 3, .qWord 76561198122624102⟩]⟩]) =
      some [⟨0, 0, [], [], [⟨5, 1, 3, .qWord 76561198122624102⟩]⟩] := by
  decide +kernel

end Boxcars.Props
