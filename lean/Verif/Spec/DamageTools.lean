import Verif.Spec.Damage
import Verif.Spec.Lost
/-
What the tools make of a log with a damaged or a lost sample.
-/
namespace PyULog.Spec
open PyULog

/-- two texts of the same number of lines after the first one, of which one may differ -/
def OneLineDiffers (a b : Str) : Prop :=
  ∃ (head : Str) (lines lines' : List Str) (i : Nat), a = head ++ lines.flatten ∧ b = head ++ lines'.flatten ∧
    lines'.length = lines.length ∧ (∀ j, j ≠ i → lines'[j]? = lines[j]?) ∧
    ∀ l ∈ head :: lines ++ lines', l.getLast? = some '\n'

/-- the text `b` is `a` without one of the lines after the first -/
def OneLineLess (a b : Str) : Prop :=
  ∃ (head : Str) (lines lines' : List Str), a = head ++ lines.flatten ∧ b = head ++ lines'.flatten ∧
    OneLess lines lines' ∧ ∀ l ∈ head :: lines, l.getLast? = some '\n'

/-- the text has one line after the first -/
def OneLineOnly (a : Str) : Prop := ∃ head line : Str, a = head ++ line ∧ ∀ l ∈ [head, line], l.getLast? = some '\n'

/-- no column of the topic with this id has characters -/
def NoCharacters (id : Nat) (v : ULog) : Prop := ∀ d ∈ v.dataList, d.msgId = id → ∀ f ∈ d.fields, f.type ≠ .char

end PyULog.Spec
