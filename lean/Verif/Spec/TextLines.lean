import Verif.Spec.Sp3
/-!
# The lines of a text file
-/
namespace S2E.Sp3
open S2E.Log

/-- `L` are the lines of the file: each ended by a line feed, except that a last line that is not empty need not be. -/
def IsLines (f : Str) (L : List Str) : Prop :=
  (∀ l ∈ L, '\n' ∉ l) ∧ (f = text L ∨ ∃ M l, L = M ++ [l] ∧ l ≠ [] ∧ f = text M ++ l)

end S2E.Sp3
