import Verif.Spec.Lost
/-
A log of which one subscription is missing.
-/
namespace PyULog.Spec
open PyULog

/-- the log `v'` is `v` without the dataset with this id, but for the last timestamp and the times of the
parameter changes and dropouts; the id is reported as missing if it had samples -/
structure LostTopic (id : Nat) (v v' : ULog) : Prop where
  rest : { v' with lastTs := 0, changedParams := [], dropouts := [], dataList := [], missingIds := [], fileCorrupt := false }
    = { v with lastTs := 0, changedParams := [], dropouts := [], dataList := [], missingIds := [], fileCorrupt := false }
  params : v'.changedParams.map (·.2) = v.changedParams.map (·.2)
  dropouts : v'.dropouts.map (·.duration) = v.dropouts.map (·.duration)
  data : v'.dataList = v.dataList.filter fun d => decide (d.msgId ≠ id)
  corrupt : v.fileCorrupt = true → v'.fileCorrupt = true
  missing : ∀ i, i ≠ id → (i ∈ v'.missingIds ↔ i ∈ v.missingIds)
  reported : ∀ d ∈ v.dataList, d.msgId = id → id ∈ v'.missingIds ∧ v'.fileCorrupt = true
  lastTs : v'.lastTs ≤ v.lastTs

/-- the subscription can be decoded, its topic is wanted, and there is room for a timestamp in its samples -/
def SubscribesAfter (cfg : Cfg) (defs pre : List (Nat × Bytes)) (p : Bytes) (u0 : ULog) : Prop :=
  ∀ u w, runDefs cfg defs u0 = .done u → runData cfg pre u = .done w →
    ∃ s, parseAddLogged cfg.ign w.formats cfg.depth p = .ok s ∧ cfg.filter.accepts s.name = true ∧
      tsPos s.fields + 8 ≤ rowSize s.fields

end PyULog.Spec
