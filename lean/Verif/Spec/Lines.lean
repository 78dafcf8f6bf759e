import Verif.Model.Display
/-!
# Texts of the file in a message

The names that a message contains as they are in the file.
-/
namespace Boxcars.Spec

/-- The names that may be in the message of an error: an unknown kind of property, or the names of
the objects.  The cause of a corrupt replay is not part of its message. -/
def rawNames : ParseError → List Str
  | .unexpectedProperty p => [p]
  | .parseError _ _ e => rawNames e
  | .networkError (.frameError _ ctx) => ctx.objects
  | _ => []

/-- `a` consists of characters that satisfy `P` and at most `n` line breaks. -/
def Lines (P : Char → Prop) (n : Nat) (a : Str) : Prop :=
  a.count '\n' ≤ n ∧ ∀ c ∈ a, c = '\n' ∨ P c

end Boxcars.Spec
