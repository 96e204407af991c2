import Verif.Spec.CanWrite
import Verif.Model.Names
/-
A log that was written again by `write_ulog`, as the command line tools see it.
-/
namespace PyULog.Spec
open PyULog

/-- `u` is loaded from a file and written with `write_ulog`, and `v` is loaded from the new file. `ComesBack`
are the conditions of C83; messages are not filtered in the second run. -/
def Rewritten (u v : ULog) : Prop :=
  ∃ fuel cfg bs b fuel2 cfg2, load fuel cfg bs = .ok u ∧ ComesBack u ∧ writeUlog u = .ok b ∧
    cfg2.filter = .all ∧ cfg2.headerOnly = false ∧ cfg2.depth = cfg.depth ∧
    b.length < fuel2 ∧ b.length ≤ 2 ^ 50 ∧ load fuel2 cfg2 b = .ok v

/-- no parameter has the type `bool` -/
def NoBoolParams (u : ULog) : Prop :=
  (∀ p ∈ u.initialParams, NotBool p.2) ∧ (∀ p ∈ u.defaultParams, ∀ q ∈ p.2, NotBool q.2) ∧
    ∀ p ∈ u.changedParams, NotBool p.2.2

/-- the samples of every topic are in the order of time, and every value is what the writer stores -/
def RowsInOrder (u : ULog) : Prop :=
  (∀ d ∈ u.dataList, ∀ i j, i < j → j < rowCount d → timeAt d i ≤ timeAt d j) ∧
    ∀ d ∈ u.dataList, ∀ f ∈ d.fields, ∀ i v, cell d f.name i = some v → stored f.type v = v

/-- the log was made by PX4 -/
def FromPx4 (u : ULog) : Prop := u.info.get? (py! "sys_name") = some (.str (py! "PX4"))

end PyULog.Spec
