import Verif.Spec.DamageMsg
import Verif.Spec.Messages
/-
A log of which one message is missing.
-/
namespace PyULog.Spec
open PyULog

/-- one element of the list is missing -/
def OneLess {α : Type} (l l' : List α) : Prop := ∃ i, i < l.length ∧ l' = l.eraseIdx i

/-- the messages of all tags are the same, but for one that is missing -/
def OneTagLess (t t' : Dict Nat (List TagMsg)) : Prop :=
  ∃ tag, (∀ x, x ≠ tag → t'.get? x = t.get? x) ∧
    (t'.get? tag = t.get? tag ∨ OneLess ((t.get? tag).getD []) ((t'.get? tag).getD []))

/-- the dataset without this row -/
def withoutRow (i : Nat) (d : Dataset) : Dataset := { d with data := d.data.map fun c => (c.1, c.2.eraseIdx i) }

/-- the dataset has one row -/
def oneRow (d : Dataset) : Bool := d.data.all fun c => decide (c.2.length = 1)

/-- the datasets without row `i` of the topic with this id; a topic without rows has no dataset -/
def withoutSample (id i : Nat) (l : List Dataset) : List Dataset :=
  (l.filter fun d => !(decide (d.msgId = id) && oneRow d)).map fun d => if d.msgId = id then withoutRow i d else d

/-- the log `v'` is `v` without one row of the topic with this id, but for the last timestamp and the times
of the parameter changes and dropouts -/
structure LostIn (id : Nat) (v v' : ULog) : Prop where
  rest : { v' with lastTs := 0, changedParams := [], dropouts := [], dataList := [] }
    = { v with lastTs := 0, changedParams := [], dropouts := [], dataList := [] }
  params : v'.changedParams.map (·.2) = v.changedParams.map (·.2)
  dropouts : v'.dropouts.map (·.duration) = v.dropouts.map (·.duration)
  data : v'.dataList = v.dataList ∨ ∃ i, v'.dataList = withoutSample id i v.dataList ∧
    ∀ d ∈ v.dataList, d.msgId = id → ∀ c ∈ d.data, i < c.2.length

/-- the sample is accepted: its id is subscribed, and it has the size of the topic, in which there is room for
the timestamp -/
def AcceptedAfter (cfg : Cfg) (defs pre : List (Nat × Bytes)) (p : Bytes) (u0 : ULog) : Prop :=
  ∀ u w, runDefs cfg defs u0 = .done u → runData cfg pre u = .done w → ∃ s, w.subs.get? (leAt p 0 2) = some s ∧
    p.length = 2 + rowSize s.fields ∧ tsPos s.fields + 8 ≤ rowSize s.fields

/-- the timestamp of the sample is not larger than those before -/
def NotNewest (cfg : Cfg) (defs pre : List (Nat × Bytes)) (p : Bytes) (u0 : ULog) : Prop :=
  ∀ u w s, runDefs cfg defs u0 = .done u → runData cfg pre u = .done w → w.subs.get? (leAt p 0 2) = some s →
    leAt p (2 + tsPos s.fields) 8 ≤ w.lastTs

end PyULog.Spec
