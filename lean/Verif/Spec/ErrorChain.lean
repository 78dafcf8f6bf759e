import Verif.Model.ErrorSource
/-!
# What is told about an error

By its message, and by the messages of its causes.
-/
namespace Boxcars.Spec

/-- The error, its cause, the cause of its cause, and so on. -/
inductive Chain : AnyError → List AnyError → Prop where
  | last {e} : e.source = none → Chain e [e]
  | cause {e c l} : e.source = some c → Chain c l → Chain e (e :: l)

/-- Frame errors that differ in a number printed the same way at most (two NaNs). -/
inductive SameFrame (text : F32 → Str) : FrameError → FrameError → Prop where
  | same {e} : SameFrame text e e
  | time {x y} : text x = text y → SameFrame text (.timeOutOfRange x) (.timeOutOfRange y)
  | delta {x y} : text x = text y → SameFrame text (.deltaOutOfRange x) (.deltaOutOfRange y)

/-- The same error, apart from the state of the decoder at a failing frame. -/
inductive SameError (text : F32 → Str) : ParseError → ParseError → Prop where
  | same {e} : SameError text e e
  | frame {e e' c c'} : SameFrame text e e' →
      SameError text (.networkError (.frameError e c)) (.networkError (.frameError e' c'))
  | within {s o e e'} : SameError text e e' → SameError text (.parseError s o e) (.parseError s o e')
  | corrupt {s e e'} : SameError text e e' → SameError text (.corruptReplay s e) (.corruptReplay s e')

/-- The same error, apart from why the content of a section with a wrong checksum was not
understood. -/
inductive SameButCorrupt : ParseError → ParseError → Prop where
  | same {e} : SameButCorrupt e e
  | corrupt {s e e'} : SameButCorrupt (.corruptReplay s e) (.corruptReplay s e')

/-- The parts of a file an error can be in. -/
def partNames : List String :=
  ["header size", "header crc", "header data", "major version", "minor version", "net version",
   "game type", "header properties", "property size", "array property size", "content size",
   "content crc", "content data", "levels", "keyframes", "network size", "network data",
   "debug info", "tickmarks", "packages", "objects", "names", "class index", "net cache"]

/-- An error of a part without named parts. -/
inductive Simple : ParseError → Prop where
  | utf8 {e} : Simple (.utf8Error e)
  | text {n} : Simple (.textTooLarge n)
  | short {a b} : Simple (.insufficientData a b)
  | kind {s} : Simple (.unexpectedProperty s)
  | list {n} : Simple (.listTooLarge n)

/-- An error inside a named part.  Only sizes are named inside another part. -/
inductive Located : ParseError → Prop where
  | named {s o e} : s ∈ partNames → Simple e → Located (.parseError s o e)
  | size {s o o' a b} : s = "property size" ∨ s = "array property size" →
      Located (.parseError "header properties" o (.parseError s o' (.insufficientData a b)))

/-- The errors files are answered with. -/
inductive Answer : ParseError → Prop where
  | located {e} : Located e → Answer e
  | corrupt {s e} : s = "header" ∨ s = "body" → Located e → Answer (.corruptReplay s e)
  | mismatch {a b} : Answer (.crcMismatch a b)
  | network {e} : Answer (.networkError e)

end Boxcars.Spec
