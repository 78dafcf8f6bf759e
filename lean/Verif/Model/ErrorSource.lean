import Verif.Model.Display
/-!
# Model of the causes of errors, `src/errors.rs`

`Error::source` of the error types.  `&(dyn Error + 'static)` is one of the error types of the
crate or `core::str::Utf8Error`.
-/
namespace Boxcars

/-- An error of some type. -/
inductive AnyError where
  | parse (e : ParseError)
  | utf8 (e : Utf8Error)
  | network (e : NetworkError)
  | frame (e : FrameError)
  | attribute (e : AttributeError)
  deriving DecidableEq

namespace AnyError

/-- `Error::source`: for `ParseError` lines 60-70, `AttributeError` lines 86-90, `FrameError`
lines 359-366, `NetworkError` lines 400-407.  `core::str::Utf8Error` has none. -/
def source : AnyError → Option AnyError
  | .parse (.utf8Error e) => some (.utf8 e)
  | .parse (.corruptReplay _ e) => some (.parse e)
  | .parse (.parseError _ _ e) => some (.parse e)
  | .parse (.networkError e) => some (.network e)
  | .parse _ => none
  | .utf8 _ => none
  | .network (.frameError e _) => some (.frame e)
  | .network _ => none
  | .frame (.attributeError _ _ _ e) => some (.attribute e)
  | .frame _ => none
  | .attribute _ => none

/-- `Display` of an error. -/
def message (f : Display.Fmt) : AnyError → Str
  | .parse e => Display.parseError f e
  | .utf8 e => Display.utf8Error e
  | .network e => Display.networkError f e
  | .frame e => Display.frameError f e
  | .attribute e => Display.attributeError e

end AnyError
end Boxcars
