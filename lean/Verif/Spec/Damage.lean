import Verif.Spec.Writer
/-
A log in which the values of one sample are damaged.
-/
namespace PyULog.Spec
open PyULog

/-- two datasets with the same columns and number of rows, of which one row may have other values -/
structure OneRowDiffers (d d' : Dataset) : Prop where
  head : { d' with data := [] } = { d with data := [] }
  columns : d'.data.map (fun c => (c.1, c.2.length)) = d.data.map (fun c => (c.1, c.2.length))
  row : ∃ i, ∀ name j, j ≠ i → cell d' name j = cell d name j

/-- the log `v'` is `v` but for one row of the topic with this id, the last timestamp, and the times of the
parameter changes and dropouts -/
structure DamagedIn (id : Nat) (v v' : ULog) : Prop where
  rest : { v' with lastTs := 0, changedParams := [], dropouts := [], dataList := [] }
    = { v with lastTs := 0, changedParams := [], dropouts := [], dataList := [] }
  params : v'.changedParams.map (·.2) = v.changedParams.map (·.2)
  dropouts : v'.dropouts.map (·.duration) = v.dropouts.map (·.duration)
  data : ∃ f : Dataset → Dataset, v'.dataList = v.dataList.map f ∧
    ∀ d ∈ v.dataList, OneRowDiffers d (f d) ∧ (d.msgId ≠ id → f d = d)

end PyULog.Spec
