import Verif.Spec.WriteCut
/-
What the tools make of a file that is cut.
-/
namespace PyULog.Spec
open PyULog

/-- `a` is the head of the text `b` and its first `n` lines after that -/
def FirstLines (n : Nat) (a b : Str) : Prop :=
  ∃ (head : Str) (lines : List Str), b = head ++ lines.flatten ∧ a = head ++ (lines.take n).flatten ∧
    ∀ l ∈ head :: lines, l.getLast? = some '\n'


end PyULog.Spec
