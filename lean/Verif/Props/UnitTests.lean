import Verif.Model.Parser
import Verif.Model.Equal
import Verif.Model.Display
import Verif.Model.Json

/-!
# The unit tests of the crate, run against the model

Tests, not proofs: each `example` replays one `#[test]` function of `/repo/src` on the bytes that
the test uses, against the definitions of `Verif/Model`.  They tie the model to values that
the authors of the crate observed from the code itself.  The tests that read a whole replay file are not
here but in the run described in `DESIGN.md`.
-/

namespace Boxcars.UnitTests

open Boxcars

/-- `Result::unwrap` of a run from the start of the data. -/
def got {α : Type} (p : P α) (data : List Byte) : Option α :=
  match p Env.default64 (CoreSt.init data) with
  | .ok a _ => some a
  | _ => none

/-- `Result::unwrap_err`. -/
def failed {α : Type} (p : P α) (data : List Byte) : Option ParseError :=
  match p Env.default64 (CoreSt.init data) with
  | .err e _ => some e
  | _ => none

/-- `parse_rdict` on its own, as the tests of `src/header.rs` call it. -/
def rdict (data : List Byte) : P (List (Str × HeaderProp)) :=
  parseRdict (data.length + 1) .standard

/-- `append_none`, `src/header.rs:214-220`. -/
def appendNone (data : List Byte) : List Byte :=
  data ++ [5, 0, 0, 0, 78, 111, 110, 101, 0]

/-- `assert_eq!` of `unwrap()` with a dictionary: the derived `==`. -/
def isDict (r : Option (List (Str × HeaderProp))) (d : List (String × HeaderProp)) : Bool :=
  match r with
  | some r => eqProps r (d.map fun p => (p.1.toList, p.2))
  | none => false

/-- `assets/replays/partial/rdict_one.replay`. -/
def rdictOne : List Byte := [
  11, 0, 0, 0, 80, 108, 97, 121, 101, 114, 78, 97, 109, 101, 0, 12, 0, 0, 0, 83, 116, 114, 80,
  114, 111, 112, 101, 114, 116, 121, 0, 15, 0, 0, 0, 0, 0, 0, 0, 11, 0, 0, 0, 99, 111, 109, 97,
  103, 111, 111, 115, 105, 101, 0, 5, 0, 0, 0, 78, 111, 110, 101, 0]

/-- `assets/replays/partial/rdict_int.replay`. -/
def rdictInt : List Byte := [
  11, 0, 0, 0, 80, 108, 97, 121, 101, 114, 84, 101, 97, 109, 0, 12, 0, 0, 0, 73, 110, 116, 80,
  114, 111, 112, 101, 114, 116, 121, 0, 4, 0, 0, 0, 0, 0, 0, 0, 0, 0, 0, 0, 5, 0, 0, 0, 78,
  111, 110, 101, 0]

/-- `assets/replays/partial/rdict_bool.replay`. -/
def rdictBool : List Byte := [
  5, 0, 0, 0, 98, 66, 111, 116, 0, 13, 0, 0, 0, 66, 111, 111, 108, 80, 114, 111, 112, 101, 114,
  116, 121, 0, 0, 0, 0, 0, 0, 0, 0, 0, 0, 5, 0, 0, 0, 78, 111, 110, 101, 0]

/-- `assets/replays/partial/rdict_name.replay`. -/
def rdictName : List Byte := [
  10, 0, 0, 0, 77, 97, 116, 99, 104, 84, 121, 112, 101, 0, 13, 0, 0, 0, 78, 97, 109, 101, 80,
  114, 111, 112, 101, 114, 116, 121, 0, 11, 0, 0, 0, 0, 0, 0, 0, 7, 0, 0, 0, 79, 110, 108, 105,
  110, 101, 0]

/-- `assets/replays/partial/rdict_float.replay`. -/
def rdictFloat : List Byte := [
  10, 0, 0, 0, 82, 101, 99, 111, 114, 100, 70, 80, 83, 0, 14, 0, 0, 0, 70, 108, 111, 97, 116,
  80, 114, 111, 112, 101, 114, 116, 121, 0, 4, 0, 0, 0, 0, 0, 0, 0, 0, 0, 240, 65]

/-- `assets/replays/partial/rdict_qword.replay`. -/
def rdictQword : List Byte := [
  9, 0, 0, 0, 79, 110, 108, 105, 110, 101, 73, 68, 0, 14, 0, 0, 0, 81, 87, 111, 114, 100, 80,
  114, 111, 112, 101, 114, 116, 121, 0, 8, 0, 0, 0, 0, 0, 0, 0, 151, 218, 110, 8, 1, 0, 16, 1]

/-- `assets/replays/partial/rdict_byte.replay`. -/
def rdictByte : List Byte := [
  9, 0, 0, 0, 80, 108, 97, 116, 102, 111, 114, 109, 0, 13, 0, 0, 0, 66, 121, 116, 101, 80, 114,
  111, 112, 101, 114, 116, 121, 0, 25, 0, 0, 0, 0, 0, 0, 0, 15, 0, 0, 0, 79, 110, 108, 105,
  110, 101, 80, 108, 97, 116, 102, 111, 114, 109, 0, 21, 0, 0, 0, 79, 110, 108, 105, 110, 101,
  80, 108, 97, 116, 102, 111, 114, 109, 95, 83, 116, 101, 97, 109, 0]

/-- `assets/replays/partial/rdict_unrecognized.replay`. -/
def rdictUnrecognized : List Byte := [
  9, 0, 0, 0, 80, 108, 97, 116, 102, 111, 114, 109, 0, 13, 0, 0, 0, 66, 105, 116, 101, 80, 114,
  111, 112, 101, 114, 116, 121, 0, 25, 0, 0, 0, 0, 0, 0, 0, 15, 0, 0, 0, 79, 110, 108, 105,
  110, 101, 80, 108, 97, 116, 102, 111, 114, 109, 0, 21, 0, 0, 0, 79, 110, 108, 105, 110, 101,
  80, 108, 97, 116, 102, 111, 114, 109, 95, 83, 116, 101, 97, 109, 0]

/-- `assets/replays/partial/rdict_array.replay`. -/
def rdictArray : List Byte := [
  6, 0, 0, 0, 71, 111, 97, 108, 115, 0, 14, 0, 0, 0, 65, 114, 114, 97, 121, 80, 114, 111, 112,
  101, 114, 116, 121, 0, 247, 3, 0, 0, 0, 0, 0, 0, 7, 0, 0, 0, 6, 0, 0, 0, 102, 114, 97, 109,
  101, 0, 12, 0, 0, 0, 73, 110, 116, 80, 114, 111, 112, 101, 114, 116, 121, 0, 4, 0, 0, 0, 0,
  0, 0, 0, 185, 1, 0, 0, 11, 0, 0, 0, 80, 108, 97, 121, 101, 114, 78, 97, 109, 101, 0, 12, 0,
  0, 0, 83, 116, 114, 80, 114, 111, 112, 101, 114, 116, 121, 0, 13, 0, 0, 0, 0, 0, 0, 0, 9, 0,
  0, 0, 67, 97, 107, 101, 98, 111, 115, 115, 0, 11, 0, 0, 0, 80, 108, 97, 121, 101, 114, 84,
  101, 97, 109, 0, 12, 0, 0, 0, 73, 110, 116, 80, 114, 111, 112, 101, 114, 116, 121, 0, 4, 0,
  0, 0, 0, 0, 0, 0, 1, 0, 0, 0, 5, 0, 0, 0, 78, 111, 110, 101, 0, 6, 0, 0, 0, 102, 114, 97,
  109, 101, 0, 12, 0, 0, 0, 73, 110, 116, 80, 114, 111, 112, 101, 114, 116, 121, 0, 4, 0, 0, 0,
  0, 0, 0, 0, 202, 6, 0, 0, 11, 0, 0, 0, 80, 108, 97, 121, 101, 114, 78, 97, 109, 101, 0, 12,
  0, 0, 0, 83, 116, 114, 80, 114, 111, 112, 101, 114, 116, 121, 0, 15, 0, 0, 0, 0, 0, 0, 0, 11,
  0, 0, 0, 83, 97, 115, 104, 97, 32, 75, 97, 117, 110, 0, 11, 0, 0, 0, 80, 108, 97, 121, 101,
  114, 84, 101, 97, 109, 0, 12, 0, 0, 0, 73, 110, 116, 80, 114, 111, 112, 101, 114, 116, 121,
  0, 4, 0, 0, 0, 0, 0, 0, 0, 0, 0, 0, 0, 5, 0, 0, 0, 78, 111, 110, 101, 0, 6, 0, 0, 0, 102,
  114, 97, 109, 101, 0, 12, 0, 0, 0, 73, 110, 116, 80, 114, 111, 112, 101, 114, 116, 121, 0, 4,
  0, 0, 0, 0, 0, 0, 0, 176, 13, 0, 0, 11, 0, 0, 0, 80, 108, 97, 121, 101, 114, 78, 97, 109,
  101, 0, 12, 0, 0, 0, 83, 116, 114, 80, 114, 111, 112, 101, 114, 116, 121, 0, 18, 0, 0, 0, 0,
  0, 0, 0, 14, 0, 0, 0, 83, 105, 108, 101, 110, 116, 87, 97, 114, 114, 105, 111, 114, 0, 11, 0,
  0, 0, 80, 108, 97, 121, 101, 114, 84, 101, 97, 109, 0, 12, 0, 0, 0, 73, 110, 116, 80, 114,
  111, 112, 101, 114, 116, 121, 0, 4, 0, 0, 0, 0, 0, 0, 0, 0, 0, 0, 0, 5, 0, 0, 0, 78, 111,
  110, 101, 0, 6, 0, 0, 0, 102, 114, 97, 109, 101, 0, 12, 0, 0, 0, 73, 110, 116, 80, 114, 111,
  112, 101, 114, 116, 121, 0, 4, 0, 0, 0, 0, 0, 0, 0, 194, 19, 0, 0, 11, 0, 0, 0, 80, 108, 97,
  121, 101, 114, 78, 97, 109, 101, 0, 12, 0, 0, 0, 83, 116, 114, 80, 114, 111, 112, 101, 114,
  116, 121, 0, 14, 0, 0, 0, 0, 0, 0, 0, 10, 0, 0, 0, 106, 101, 102, 102, 114, 101, 121, 106,
  49, 0, 11, 0, 0, 0, 80, 108, 97, 121, 101, 114, 84, 101, 97, 109, 0, 12, 0, 0, 0, 73, 110,
  116, 80, 114, 111, 112, 101, 114, 116, 121, 0, 4, 0, 0, 0, 0, 0, 0, 0, 1, 0, 0, 0, 5, 0, 0,
  0, 78, 111, 110, 101, 0, 6, 0, 0, 0, 102, 114, 97, 109, 101, 0, 12, 0, 0, 0, 73, 110, 116,
  80, 114, 111, 112, 101, 114, 116, 121, 0, 4, 0, 0, 0, 0, 0, 0, 0, 119, 22, 0, 0, 11, 0, 0, 0,
  80, 108, 97, 121, 101, 114, 78, 97, 109, 101, 0, 12, 0, 0, 0, 83, 116, 114, 80, 114, 111,
  112, 101, 114, 116, 121, 0, 15, 0, 0, 0, 0, 0, 0, 0, 11, 0, 0, 0, 71, 79, 79, 83, 69, 32, 76,
  79, 82, 68, 0, 11, 0, 0, 0, 80, 108, 97, 121, 101, 114, 84, 101, 97, 109, 0, 12, 0, 0, 0, 73,
  110, 116, 80, 114, 111, 112, 101, 114, 116, 121, 0, 4, 0, 0, 0, 0, 0, 0, 0, 0, 0, 0, 0, 5, 0,
  0, 0, 78, 111, 110, 101, 0, 6, 0, 0, 0, 102, 114, 97, 109, 101, 0, 12, 0, 0, 0, 73, 110, 116,
  80, 114, 111, 112, 101, 114, 116, 121, 0, 4, 0, 0, 0, 0, 0, 0, 0, 195, 23, 0, 0, 11, 0, 0, 0,
  80, 108, 97, 121, 101, 114, 78, 97, 109, 101, 0, 12, 0, 0, 0, 83, 116, 114, 80, 114, 111,
  112, 101, 114, 116, 121, 0, 15, 0, 0, 0, 0, 0, 0, 0, 11, 0, 0, 0, 71, 79, 79, 83, 69, 32, 76,
  79, 82, 68, 0, 11, 0, 0, 0, 80, 108, 97, 121, 101, 114, 84, 101, 97, 109, 0, 12, 0, 0, 0, 73,
  110, 116, 80, 114, 111, 112, 101, 114, 116, 121, 0, 4, 0, 0, 0, 0, 0, 0, 0, 0, 0, 0, 0, 5, 0,
  0, 0, 78, 111, 110, 101, 0, 6, 0, 0, 0, 102, 114, 97, 109, 101, 0, 12, 0, 0, 0, 73, 110, 116,
  80, 114, 111, 112, 101, 114, 116, 121, 0, 4, 0, 0, 0, 0, 0, 0, 0, 109, 27, 0, 0, 11, 0, 0, 0,
  80, 108, 97, 121, 101, 114, 78, 97, 109, 101, 0, 12, 0, 0, 0, 83, 116, 114, 80, 114, 111,
  112, 101, 114, 116, 121, 0, 18, 0, 0, 0, 0, 0, 0, 0, 14, 0, 0, 0, 83, 105, 108, 101, 110,
  116, 87, 97, 114, 114, 105, 111, 114, 0, 11, 0, 0, 0, 80, 108, 97, 121, 101, 114, 84, 101,
  97, 109, 0, 12, 0, 0, 0, 73, 110, 116, 80, 114, 111, 112, 101, 114, 116, 121, 0, 4, 0, 0, 0,
  0, 0, 0, 0, 0, 0, 0, 0, 5, 0, 0, 0, 78, 111, 110, 101, 0]

/-- `assets/replays/partial/text.replay`. -/
def text : List Byte := [
  24, 0, 0, 0, 84, 65, 71, 97, 109, 101, 46, 82, 101, 112, 108, 97, 121, 95, 83, 111, 99, 99,
  97, 114, 95, 84, 65, 0]

/-- `assets/replays/partial/utf-16-text.replay`. -/
def utf16Text : List Byte := [
  244, 255, 255, 255, 35, 38, 68, 0, 91, 0, 101, 0, 93, 0, 33, 0, 118, 0, 49, 0, 122, 0, 122,
  0, 35, 38, 0, 0]

/-- Bytes `0x1ad..0x1c4` of `assets/replays/partial/windows_1252.replay`. -/
def windows1252 : List Byte := [
  19, 0, 0, 0, 99, 97, 117, 100, 105, 108, 108, 109, 97, 110, 54, 48, 48, 48, 179, 40, 50, 41,
  0]

/-- Bytes `0xf6cce..0xf6d50` of `assets/replays/good/rumble.replay`. -/
def tickmarks : List Byte := [
  7, 0, 0, 0, 10, 0, 0, 0, 84, 101, 97, 109, 49, 71, 111, 97, 108, 0, 140, 1, 0, 0, 10, 0, 0,
  0, 84, 101, 97, 109, 48, 71, 111, 97, 108, 0, 157, 6, 0, 0, 10, 0, 0, 0, 84, 101, 97, 109,
  48, 71, 111, 97, 108, 0, 131, 13, 0, 0, 10, 0, 0, 0, 84, 101, 97, 109, 49, 71, 111, 97, 108,
  0, 149, 19, 0, 0, 10, 0, 0, 0, 84, 101, 97, 109, 48, 71, 111, 97, 108, 0, 74, 22, 0, 0, 10,
  0, 0, 0, 84, 101, 97, 109, 48, 71, 111, 97, 108, 0, 150, 23, 0, 0, 10, 0, 0, 0, 84, 101, 97,
  109, 48, 71, 111, 97, 108, 0, 64, 27, 0, 0]

/-- Bytes `0x12ca..0x12ca + 508` of `assets/replays/good/rumble.replay`. -/
def keyframes : List Byte := [
  42, 0, 0, 0, 129, 175, 200, 64, 0, 0, 0, 0, 0, 0, 0, 0, 160, 97, 130, 65, 208, 0, 0, 0, 57,
  24, 2, 0, 5, 150, 210, 65, 159, 1, 0, 0, 222, 164, 5, 0, 11, 207, 17, 66, 250, 1, 0, 0, 158,
  58, 7, 0, 171, 223, 57, 66, 201, 2, 0, 0, 245, 109, 9, 0, 193, 241, 97, 66, 152, 3, 0, 0, 28,
  255, 12, 0, 175, 1, 133, 66, 103, 4, 0, 0, 91, 158, 16, 0, 230, 6, 153, 66, 54, 5, 0, 0, 210,
  103, 20, 0, 137, 30, 173, 66, 6, 6, 0, 0, 222, 6, 24, 0, 192, 43, 193, 66, 216, 6, 0, 0, 40,
  76, 27, 0, 141, 41, 212, 66, 11, 7, 0, 0, 58, 52, 28, 0, 132, 43, 232, 66, 218, 7, 0, 0, 29,
  45, 30, 0, 242, 45, 252, 66, 169, 8, 0, 0, 136, 166, 33, 0, 14, 27, 8, 67, 120, 9, 0, 0, 225,
  90, 37, 0, 158, 31, 18, 67, 71, 10, 0, 0, 229, 166, 40, 0, 230, 35, 28, 67, 22, 11, 0, 0,
  243, 67, 44, 0, 4, 46, 38, 67, 230, 11, 0, 0, 113, 233, 47, 0, 21, 50, 48, 67, 181, 12, 0, 0,
  203, 166, 51, 0, 63, 54, 58, 67, 132, 13, 0, 0, 63, 84, 55, 0, 255, 72, 72, 67, 240, 13, 0,
  0, 76, 25, 57, 0, 123, 82, 82, 67, 192, 14, 0, 0, 57, 80, 59, 0, 142, 86, 92, 67, 143, 15, 0,
  0, 94, 192, 62, 0, 196, 90, 102, 67, 94, 16, 0, 0, 235, 121, 66, 0, 23, 95, 112, 67, 45, 17,
  0, 0, 38, 60, 70, 0, 196, 101, 122, 67, 253, 17, 0, 0, 79, 0, 74, 0, 176, 51, 130, 67, 204,
  18, 0, 0, 96, 204, 77, 0, 238, 54, 135, 67, 155, 19, 0, 0, 12, 93, 81, 0, 18, 121, 140, 67,
  3, 20, 0, 0, 28, 14, 83, 0, 39, 123, 145, 67, 210, 20, 0, 0, 45, 70, 85, 0, 124, 126, 150,
  67, 161, 21, 0, 0, 206, 225, 88, 0, 41, 130, 155, 67, 112, 22, 0, 0, 92, 130, 92, 0, 173, 2,
  160, 67, 184, 22, 0, 0, 52, 191, 93, 0, 25, 6, 165, 67, 135, 23, 0, 0, 83, 254, 95, 0, 180,
  43, 170, 67, 4, 24, 0, 0, 248, 246, 97, 0, 252, 45, 175, 67, 211, 24, 0, 0, 123, 242, 99, 0,
  58, 49, 180, 67, 162, 25, 0, 0, 49, 141, 103, 0, 182, 50, 185, 67, 113, 26, 0, 0, 56, 61,
  107, 0, 113, 54, 190, 67, 64, 27, 0, 0, 88, 179, 110, 0, 64, 74, 197, 67, 174, 27, 0, 0, 171,
  135, 112, 0, 230, 75, 202, 67, 125, 28, 0, 0, 91, 178, 114, 0, 35, 79, 207, 67, 76, 29, 0, 0,
  53, 78, 118, 0, 96, 82, 212, 67, 27, 30, 0, 0, 150, 214, 121, 0]

set_option maxRecDepth 100000

/-! ## `src/crc.rs` -/

/-- `single_byte_test`, `src/crc.rs:91-93`. -/
example : Crc.calcCrc [0xa0] = 0x76cc8c81#32 := by decide +kernel

/-! ## `src/core_parser.rs` -/

/-- `parse_text_encoding`. -/
example : got parseStr text = some "TAGame.Replay_Soccar_TA".toList := by decide +kernel

/-- `parse_text_encoding_bad`. -/
example : failed parseStr (text.take (text.length - 1)) = some (.insufficientData 24 23) := by decide +kernel

/-- `parse_text_zero_size`. -/
example : got parseStr [0, 0, 0, 0, 0] = some [] := by decide +kernel

/-- `parse_text_zero_size2`. -/
example : got parseText [0, 0, 0, 0, 0] = some [] := by decide +kernel

/-- `parse_text_too_large`. -/
example : failed parseText [0xcc, 0xcc, 0xcc, 0xcc, 0xcc] = some (.textTooLarge (-858993460)) := by decide +kernel

/-- `parse_text_encoding_bad_2`. -/
example : failed parseStr (text.take 2) = some (.insufficientData 4 2) := by decide +kernel

/-- `parse_utf16_string`. -/
example : got parseText utf16Text = some "\u2623D[e]!v1zz\u2623".toList := by decide +kernel

/-- `test_windows1252_string`. -/
example : got parseText windows1252 = some "caudillman6000\u00b3(2)".toList := by decide +kernel

/-- `parse_invalid_utf16_string`. -/
example : got parseText [0xfd, 0xff, 0xff, 0xff, 0xd8, 0xd8, 0x00, 0x00, 0x00, 0x00] =
    some [Char.ofNat 0xfffd, Char.ofNat 0] := by decide +kernel

/-! ## `src/header.rs` -/

/-- `rdict_no_elements`. -/
example : isDict (got (rdict (appendNone [])) (appendNone []))
    [] = true := by decide +kernel

/-- `rdict_one_element`. -/
example : isDict (got (rdict (rdictOne)) (rdictOne))
    [("PlayerName", .str "comagoosie".toList)] = true := by decide +kernel

/-- `rdict_one_int_element`. -/
example : isDict (got (rdict (rdictInt)) (rdictInt))
    [("PlayerTeam", .int 0)] = true := by decide +kernel

/-- `rdict_one_bool_element`. -/
example : isDict (got (rdict (rdictBool)) (rdictBool))
    [("bBot", .bool false)] = true := by decide +kernel

/-- `rdict_one_name_element`. -/
example : isDict (got (rdict (appendNone rdictName)) (appendNone rdictName))
    [("MatchType", .name "Online".toList)] = true := by decide +kernel

/-- `rdict_one_float_element`: `0x41f00000` is 30.0. -/
example : isDict (got (rdict (appendNone rdictFloat)) (appendNone rdictFloat))
    [("RecordFPS", .float 0x41f00000)] = true := by decide +kernel

/-- `rdict_one_qword_element`. -/
example : isDict (got (rdict (appendNone rdictQword)) (appendNone rdictQword))
    [("OnlineID", .qword 76561198101748375)] = true := by decide +kernel

/-- An element of `expected` in `rdict_one_array_element`. -/
def goal (frame : I32) (name : String) (team : I32) : List (Str × HeaderProp) :=
  [("frame".toList, .int frame), ("PlayerName".toList, .str name.toList),
    ("PlayerTeam".toList, .int team)]

/-- `rdict_one_array_element`. -/
example : isDict (got (rdict (appendNone rdictArray)) (appendNone rdictArray))
    [("Goals", .array [goal 441 "Cakeboss" 1,
      goal 1738 "Sasha Kaun" 0,
      goal 3504 "SilentWarrior" 0,
      goal 5058 "jeffreyj1" 1,
      goal 5751 "GOOSE LORD" 0,
      goal 6083 "GOOSE LORD" 0,
      goal 7021 "SilentWarrior" 0])] = true := by decide +kernel

/-- `rdict_one_byte_element`. -/
example : isDict (got (rdict (appendNone rdictByte)) (appendNone rdictByte))
    [("Platform", .byte "OnlinePlatform".toList (some "OnlinePlatform_Steam".toList))] = true := by decide +kernel

/-- Floats do not occur in the error of `rdict_unrecognized_property`. -/
def anyFmt : Display.Fmt := ⟨fun _ => [], fun _ => [], fun _ => [], fun _ => [], fun _ => []⟩

/-- `rdict_unrecognized_property`. -/
example : (failed (rdict (appendNone rdictUnrecognized)) (appendNone rdictUnrecognized)).map
    (Display.parseError anyFmt) =
    some "Did not expect a property of: BiteProperty".toList := by decide +kernel

/-! ## `src/parser.rs` -/

/-- `key_frame_list`. -/
example : (got parseKeyframe keyframes).map List.length = some 42 := by decide +kernel

/-- `tickmark_list`. -/
example : (got parseTickmarks tickmarks).map (fun t => (t.length, t.head?)) =
    some (7, some ⟨"Team1Goal".toList, 396⟩) := by decide +kernel

/-- `test_the_parsing_empty`. -/
example : (failed (parserParse .never .never) []).isSome = true := by decide +kernel

/-! ## `src/network/models.rs` and `src/network/mod.rs` -/

/-- `Option::unwrap` of a decoder. -/
def decoded {α : Type} (m : BM Unit α) (data : List Byte) : Option α :=
  match m Env.default64 (Reader.new data) with
  | .ok a _ => some a
  | _ => none

/-- `test_decode_vector`. -/
example : decoded (Vector3i.decode 5) [0b00000110, 0b00001000, 0b11011000, 0b00001101] =
    some ⟨0, 0, 93⟩ := by decide +kernel

/-- `test_decode_rotation`. -/
example : decoded Rotation.decode [0b00000101, 0b00000000] = some ⟨some 2, none, none⟩ := by decide +kernel

/-- `test_version_triplets`; `a < b` is `!(a >= b)`. -/
example : (fun v : VersionTriplet => (v.netVersion, [v.ge 19 27 1, v.ge 18 28 1, v.ge 18 27 2, v.ge 18 27 1,
      v.ge 17 27 1, v.ge 18 26 1, v.ge 18 27 0])) ⟨18, 27, 1⟩ =
    (1, [false, false, false, true, true, true, true]) := by decide +kernel

/-! ## `src/models.rs`

`to_json` with the text of 10.2 given. -/

/-- `to_json`. -/
def toJson (v : HeaderProp) : Str := Json.compact (fun _ => "10.2".toList) (serProp v)

/-- `serialize_header_array`, the whole text. -/
example : toJson (.array [
    [("frame".toList, .int 441), ("PlayerName".toList, .str "rust is awesome".toList)],
    [("frame".toList, .int 1738), ("PlayerName".toList, .str "rusty".toList)]]) =
    ("[{\"frame\":441,\"PlayerName\":\"rust is awesome\"}," ++
      "{\"frame\":1738,\"PlayerName\":\"rusty\"}]").toList := by decide +kernel

/-- `serialize_header_bool`. -/
example : toJson (.bool false) = "false".toList ∧ toJson (.bool true) = "true".toList := by decide +kernel

/-- `serialize_header_numbers`. -/
example : toJson (.byte "a".toList (some "B".toList)) = "{\"kind\":\"a\",\"value\":\"B\"}".toList ∧
    toJson (.qword 10) = "\"10\"".toList ∧ toJson (.float 0x41233333) = "10.2".toList ∧
    toJson (.int 11) = "11".toList := by decide +kernel

/-- `serialize_header_str`. -/
example : toJson (.str "hello world".toList) = "\"hello world\"".toList ∧
    toJson (.name "hello world".toList) = "\"hello world\"".toList := by decide +kernel

end Boxcars.UnitTests
