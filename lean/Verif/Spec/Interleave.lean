import Verif.Spec.Frames
import Verif.Spec.Messages
/-
Streams of messages: the samples of one message id, and the logged texts.
-/
namespace PyULog.Spec
open PyULog

/-- the stream of a message: data messages have the stream of their id -/
def stream (m : Nat × Bytes) : Option Nat := if m.1 = tyD then some (leAt m.2 0 2) else none

/-- A data message that can be processed by the object `u`, because its id is subscribed with a complete
timestamp or filtered out, or a readable text message. The size of a data message may be wrong. -/
def Taken (cfg : Cfg) (u : ULog) (m : Nat × Bytes) : Prop :=
  (m.1 = tyL ∧ ∃ x, parseLogging cfg.ign m.2 = .ok x) ∨
  (m.1 = tyD ∧ 2 ≤ m.2.length ∧
    ((∃ s, u.subs.get? (leAt m.2 0 2) = some s ∧ tsPos s.fields + 8 ≤ rowSize s.fields) ∨
     (u.subs.get? (leAt m.2 0 2) = none ∧ leAt m.2 0 2 ∈ u.filteredIds)))

/-- two lists of messages with the same streams: they differ in the interleaving only -/
def SameStreams (a b : List (Nat × Bytes)) : Prop :=
  ∀ c, (a.filter fun m => decide (stream m = c)) = b.filter fun m => decide (stream m = c)

end PyULog.Spec
