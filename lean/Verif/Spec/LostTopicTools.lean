import Verif.Spec.LostTopic
/-
What the tools make of a log of which one subscription is missing.
-/
namespace PyULog.Spec
open PyULog

/-- the first line of the report about a corrupt log -/
def warningLine (corrupt : Bool) : List Str := if corrupt then [py! "Warning: file has data corruption(s)"] else []

/-- the reports are the same, but for the warning, the line with the duration, and the lines of the table for the
datasets with this id -/
def SameReport (id : Nat) (v v' : ULog) (lines lines' : List Str) : Prop :=
  ∃ (time time' : Str) (middle : List Str) (table : List (Dataset × Str)), (table.map (·.1)).Perm v.dataList ∧
    lines = warningLine v.fileCorrupt ++ time :: middle ++ table.map (·.2) ∧
    lines' = warningLine v'.fileCorrupt ++ time' :: middle ++
      (table.filter fun r => decide (r.1.msgId ≠ id)).map (·.2) ∧
    (v'.lastTs = v.lastTs → time' = time)

end PyULog.Spec
