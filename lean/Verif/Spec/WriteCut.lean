import Verif.Spec.WriteLeft
import Verif.Spec.Frames
/-
A file of `write_ulog` that is cut: an interrupted copy, or a disk that is full.
-/
namespace PyULog.Spec
open PyULog

/-- a dataset with its first `n` rows -/
def firstRows (n : Nat) (d : Dataset) : Dataset :=
  { d with data := d.data.map fun c => (c.1, c.2.take n) }

/-- `a` is the begin of `l`, and the time `t` lies between `a` and what is missing -/
def UpTo (key : α → Int) (t : Int) (a l : List α) : Prop :=
  ∃ rest, l = a ++ rest ∧ (∀ x ∈ a, key x ≤ t) ∧ ∀ x ∈ rest, t ≤ key x

/-- number of samples and messages of a log -/
def itemCount (v : ULog) : Nat :=
  (v.dataList.map rowCount).sum + v.logged.length + (v.tagged.map fun p => p.2.length).sum
    + v.dropouts.length + v.changedParams.length

/-- `w` is the log `v` up to the time `t`: it has all the definitions, of each topic the first rows, and
of each kind of message the first ones; what is there is not later than `t`, what is missing not earlier -/
structure LogUpTo (t : Int) (w v : ULog) : Prop where
  definitions : { definitionsOf w with lastTs := 0 } = { definitionsOf v with lastTs := 0 }
  rows : ∃ n : Nat → Nat,
    w.dataList = (v.dataList.filter fun d => decide (0 < n d.msgId)).map (fun d => firstRows (n d.msgId) d) ∧
    ∀ d ∈ v.dataList, n d.msgId ≤ rowCount d ∧ ∀ i, i < rowCount d →
      (i < n d.msgId → timeAt d i ≤ t) ∧ (n d.msgId ≤ i → t ≤ timeAt d i)
  logged : UpTo (fun m => (m.ts : Int)) t w.logged v.logged
  tagged : ∀ k, UpTo (fun m => (m.ts : Int)) t ((w.tagged.get? k).getD []) ((v.tagged.get? k).getD [])
  tags : (w.tagged.map (·.1)).Nodup ∧ ∀ p ∈ w.tagged, p.2 ≠ []
  dropouts : w.dropouts <+: v.dropouts
  changed : w.changedParams <+: v.changedParams
  last : w.startTs ≤ w.lastTs ∧ w.lastTs ≤ v.lastTs

end PyULog.Spec
