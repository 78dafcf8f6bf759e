import Verif.Model.Display
import Verif.Proofs.JsonSize
/-!
# The lengths of the fixed parts of error messages

Generated from the literals of `Model/Display.lean` and `Spec/Message.lean`.
-/
namespace Boxcars.MessageSize
open Boxcars Spec Display Json

theorem l1 : len (t " (time: ") = 8 := by decide +kernel
theorem l2 : len (t " / ") = 3 := by decide +kernel
theorem l3 : len (t " and crc check failed. Replay is corrupt") = 40 := by decide +kernel
theorem l4 : len (t " at offset (") = 12 := by decide +kernel
theorem l5 : len (t " but received ") = 14 := by decide +kernel
theorem l6 : len (t " bytes from index ") = 18 := by decide +kernel
theorem l7 : len (t " bytes, but only ") = 17 := by decide +kernel
theorem l8 : len (t " delta: ") = 8 := by decide +kernel
theorem l9 : len (t " for actor id / actor object id / attribute id: ") = 48 := by decide +kernel
theorem l10 : len (t " in network cache data. ") = 24 := by decide +kernel
theorem l11 : len (t " in object hierarchy: ") = 22 := by decide +kernel
theorem l12 : len (t " is too large") = 13 := by decide +kernel
theorem l13 : len (t " left") = 5 := by decide +kernel
theorem l14 : len (t " references out of range object index: ") = 39 := by decide +kernel
theorem l15 : len (t "(") = 1 := by decide +kernel
theorem l16 : len (t ")") = 1 := by decide +kernel
theorem l17 : len (t ") on ") = 5 := by decide +kernel
theorem l18 : len (t "): ") = 3 := by decide +kernel
theorem l19 : len (t ", ") = 2 := by decide +kernel
theorem l20 : len (t ", delta: ") = 9 := by decide +kernel
theorem l21 : len (t "- No actor information decoded") = 30 := by decide +kernel
theorem l22 : len (t ". ") = 2 := by decide +kernel
theorem l23 : len (t "<none>") = 6 := by decide +kernel
theorem l24 : len (t "<unknown>") = 9 := by decide +kernel
theorem l25 : len (t "Could not decode replay ") = 24 := by decide +kernel
theorem l26 : len (t "Crc mismatch. Expected ") = 23 := by decide +kernel
theorem l27 : len (t "Current frame: ") = 15 := by decide +kernel
theorem l28 : len (t "Did not expect a property of: ") = 30 := by decide +kernel
theorem l29 : len (t "Does not have an attribute implementation") = 41 := by decide +kernel
theorem l30 : len (t "Error decoding frame: ") = 22 := by decide +kernel
theorem l31 : len (t "Failed to parse ") = 16 := by decide +kernel
theorem l32 : len (t "Insufficient data. Expected ") = 28 := by decide +kernel
theorem l33 : len (t "Last actor update:") = 18 := by decide +kernel
theorem l34 : len (t "Last new actor:") = 15 := by decide +kernel
theorem l35 : len (t "Not enough data to decode attribute ") = 36 := by decide +kernel
theorem l36 : len (t "Out of bounds") = 13 := by decide +kernel
theorem l37 : len (t "Retrace frame: ") = 15 := by decide +kernel
theorem l38 : len (t "Stream id of ") = 13 := by decide +kernel
theorem l39 : len (t "Text of size ") = 13 := by decide +kernel
theorem l40 : len (t "Too many frames to decode: ") = 27 := by decide +kernel
theorem l41 : len (t "Unable decode data as utf8: ") = 28 := by decide +kernel
theorem l42 : len (t "Unexpected size for string: ") = 28 := by decide +kernel
theorem l43 : len (t "Unrecognized remote id of ") = 26 := by decide +kernel
theorem l44 : len (t "\n") = 1 := by decide +kernel
theorem l45 : len (t "], ") = 3 := by decide +kernel
theorem l46 : len (t "]. ") = 3 := by decide +kernel
theorem l47 : len (t "actor id: ") = 10 := by decide +kernel
theorem l48 : len (t "actor object id: ") = 17 := by decide +kernel
theorem l49 : len (t "all attributes with that stream id: [") = 37 := by decide +kernel
theorem l50 : len (t "attribute decoding error encountered: ") = 38 := by decide +kernel
theorem l51 : len (t "attribute object id: ") = 21 := by decide +kernel
theorem l52 : len (t "attribute object name: ") = 23 := by decide +kernel
theorem l53 : len (t "attribute stream id: ") = 21 := by decide +kernel
theorem l54 : len (t "attribute unknown or not implemented:") = 37 := by decide +kernel
theorem l55 : len (t "attribute update references unknown actor: ") = 43 := by decide +kernel
theorem l56 : len (t "attribute: ") = 11 := by decide +kernel
theorem l57 : len (t "delta is out of range: ") = 23 := by decide +kernel
theorem l58 : len (t "did not find attribute id (") = 27 := by decide +kernel
theorem l59 : len (t "found attribute (") = 17 := by decide +kernel
theorem l60 : len (t "incomplete utf-8 byte sequence from index ") = 42 := by decide +kernel
theorem l61 : len (t "invalid utf-8 sequence of ") = 26 := by decide +kernel
theorem l62 : len (t "list of size ") = 13 := by decide +kernel
theorem l63 : len (t "location: ") = 10 := by decide +kernel
theorem l64 : len (t "name id: ") = 9 := by decide +kernel
theorem l65 : len (t "new actor object id out of range: ") = 34 := by decide +kernel
theorem l66 : len (t "no known attributes found for actor id / object id: ") = 52 := by decide +kernel
theorem l67 : len (t "not enough data to decode ") = 26 := by decide +kernel
theorem l68 : len (t "object id: ") = 11 := by decide +kernel
theorem l69 : len (t "object id: <none>") = 17 := by decide +kernel
theorem l70 : len (t "object name: ") = 13 := by decide +kernel
theorem l71 : len (t "rotation: ") = 10 := by decide +kernel
theorem l72 : len (t "searching all attributes with the same stream id, ") = 50 := by decide +kernel
theorem l73 : len (t "time is out of range: ") = 22 := by decide +kernel
theorem l74 : len (t "unknown attributes: [") = 21 := by decide +kernel
theorem l75 : len "".toList = 0 := by decide +kernel
theorem l76 : len " (time: ".toList = 8 := by decide +kernel
theorem l77 : len " delta: ".toList = 8 := by decide +kernel
theorem l78 : len " in network cache data. ".toList = 24 := by decide +kernel
theorem l79 : len " in object hierarchy: ".toList = 22 := by decide +kernel
theorem l80 : len "(".toList = 1 := by decide +kernel
theorem l81 : len ")".toList = 1 := by decide +kernel
theorem l82 : len ") on ".toList = 5 := by decide +kernel
theorem l83 : len ", ".toList = 2 := by decide +kernel
theorem l84 : len ", delta: ".toList = 9 := by decide +kernel
theorem l85 : len "- No actor information decoded".toList = 30 := by decide +kernel
theorem l86 : len "---------------".toList = 15 := by decide +kernel
theorem l87 : len "------------------".toList = 18 := by decide +kernel
theorem l88 : len "<none>".toList = 6 := by decide +kernel
theorem l89 : len "Current frame: ".toList = 15 := by decide +kernel
theorem l90 : len "Last actor update:".toList = 18 := by decide +kernel
theorem l91 : len "Last new actor:".toList = 15 := by decide +kernel
theorem l92 : len "Retrace frame: ".toList = 15 := by decide +kernel
theorem l93 : len "\n".toList = 1 := by decide +kernel
theorem l94 : len "], ".toList = 3 := by decide +kernel
theorem l95 : len "]. ".toList = 3 := by decide +kernel
theorem l96 : len "actor id: ".toList = 10 := by decide +kernel
theorem l97 : len "all attributes with that stream id: [".toList = 37 := by decide +kernel
theorem l98 : len "attribute object id: ".toList = 21 := by decide +kernel
theorem l99 : len "attribute object name: ".toList = 23 := by decide +kernel
theorem l100 : len "attribute stream id: ".toList = 21 := by decide +kernel
theorem l101 : len "attribute: ".toList = 11 := by decide +kernel
theorem l102 : len "did not find attribute id (".toList = 27 := by decide +kernel
theorem l103 : len "found attribute (".toList = 17 := by decide +kernel
theorem l104 : len "location: ".toList = 10 := by decide +kernel
theorem l105 : len "name id: ".toList = 9 := by decide +kernel
theorem l106 : len "object id: ".toList = 11 := by decide +kernel
theorem l107 : len "object id: <none>".toList = 17 := by decide +kernel
theorem l108 : len "object name: ".toList = 13 := by decide +kernel
theorem l109 : len "rotation: ".toList = 10 := by decide +kernel
theorem l110 : len "searching all attributes with the same stream id, ".toList = 50 := by decide +kernel
theorem l111 : len "unknown attributes: [".toList = 21 := by decide +kernel

/-- Add up the lengths of the parts of a text. -/
macro "lits" : tactic => `(tactic| simp only [len_append, len_nil,
  l1, l2, l3, l4, l5, l6, l7, l8, l9, l10, l11, l12, l13, l14, l15, l16, l17, l18, l19, l20, l21,
  l22, l23, l24, l25, l26, l27, l28, l29, l30, l31, l32, l33, l34, l35, l36, l37, l38, l39, l40,
  l41, l42, l43, l44, l45, l46, l47, l48, l49, l50, l51, l52, l53, l54, l55, l56, l57, l58, l59,
  l60, l61, l62, l63, l64, l65, l66, l67, l68, l69, l70, l71, l72, l73, l74, l75, l76, l77, l78,
  l79, l80, l81, l82, l83, l84, l85, l86, l87, l88, l89, l90, l91, l92, l93, l94, l95, l96, l97,
  l98, l99, l100, l101, l102, l103, l104, l105, l106, l107, l108, l109, l110, l111])

end Boxcars.MessageSize
