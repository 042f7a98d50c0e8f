import Verif.Spec.Lexical

/-!
# A comment behind a semicolon
-/

namespace Verif.Spec

/-- A semicolon with white space and the start of a comment behind it on its line. -/
def SemiComment (t : Str) : Prop :=
  ∃ c g k rest, t = c ++ ';' :: (g ++ '/' :: k :: rest) ∧ (∀ x ∈ g, White x ∧ x ≠ '\n') ∧ (k = '/' ∨ k = '*')

end Verif.Spec
