import Verif.Spec.LostKey
import Verif.Model.Tools
import Verif.Model.Info
/-
What the tools show of an entry with a given key.
-/
namespace PyULog.Spec
open PyULog

/-- the parameters that `ulog_params` prints with these options -/
def printedParams (o : ParamOpts) (u : ULog) : Dict Str Value :=
  match o.default with
  | none => u.initialParams
  | some w => (u.defaultParams.get? (if w = py! "system" then 0 else 1)).getD []

/-- what is shown of the entry with key `k`, nothing if there is none -/
def partOf {α β : Type} (d : Dict Str α) (k : Str) (f : α → List β) : List β :=
  match d.get? k with
  | some x => f x
  | none => []

/-- the texts are equal but for one part -/
def DifferAt {β : Type} (c c' t t' : List β) : Prop := ∃ a b, t = a ++ c ++ b ∧ t' = a ++ c' ++ b

/-- both raise the same exception, or both give results related by `R` -/
def SameResult {α : Type} (R : α → α → Prop) (r s : Except PyErr α) : Prop :=
  (∃ e, r = .error e ∧ s = .error e) ∨ ∃ t t', r = .ok t ∧ s = .ok t' ∧ R t t'

end PyULog.Spec
