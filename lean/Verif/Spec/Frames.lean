import Verif.Model.Read
import Verif.Spec.Trace
/-
Processing of a list of messages without a file: the property statements compare it with reading the
bytes of the messages.
-/
namespace PyULog.Spec
open PyULog

/-- size and type fit into the message header -/
def Fits (m : Nat × Bytes) : Prop := m.1 < 256 ∧ m.2.length < 65536

instance (m : Nat × Bytes) : Decidable (Fits m) := inferInstanceAs (Decidable (_ ∧ _))

/-- the bytes do not contain the sync sequence -/
def NoSync (b : Bytes) : Prop := ∀ i, ¬ OccursAt syncMagic b i

/-- a message that belongs into a data section, or has an unknown type and can be skipped -/
def DataFrame (m : Nat × Bytes) : Prop :=
  Fits m ∧ (isDataType m.1 ∨ (¬ isDataType m.1 ∧ ¬ badHeader m.1 m.2.length ∧ NoSync m.2))

/-- message types of the definition section that do not end it -/
def isPureDefType (ty : Nat) : Prop := ty ∈ [tyI, tyM, tyF, tyP, tyQ, tyB]

instance (ty : Nat) : Decidable (isPureDefType ty) := inferInstanceAs (Decidable (_ ∈ _))

/-- a message that belongs into a definition section, or has an unknown type and can be skipped -/
def DefFrame (m : Nat × Bytes) : Prop :=
  Fits m ∧ (isPureDefType m.1 ∨ (¬ isDefType m.1 ∧ ¬ badHeader m.1 m.2.length))

/-- result of processing a list of messages: all processed; ended early by a `struct.error`; or an
exception left the constructor -/
inductive Run where
  | done (u : ULog)
  | stopped (u : ULog)
  | raised (e : PyErr)
  deriving DecidableEq, Repr

/-- process the messages of a data section one after the other -/
def runData (cfg : Cfg) : List (Nat × Bytes) → ULog → Run
  | [], u => .done u
  | m :: l, u =>
    match handleData cfg u m.1 m.2 with
    | none => runData cfg l u
    | some (.ok u) => runData cfg l u
    | some (.err .indexError u) => runData cfg l { u with fileCorrupt := true }
    | some (.err .structError u) => .stopped u
    | some (.err e _) => .raised e

/-- process the messages of a definition section one after the other -/
def runDefs (cfg : Cfg) : List (Nat × Bytes) → ULog → Run
  | [], u => .done u
  | m :: l, u =>
    match handleDef cfg u m.1 m.2 with
    | none => runDefs cfg l u
    | some (.ok u) => runDefs cfg l u
    | some (.err .indexError u) => runDefs cfg l { u with fileCorrupt := true }
    | some (.err e _) => .raised e

/-- end of a section: datasets are built -/
def finish : Run → LoadRes
  | .done u => .ofExcept (finalize u)
  | .stopped u => .ofExcept (finalize u)
  | .raised e => .raised e

/-- load a list of definition messages and a list of data section messages, starting with the object
`u` of the file header -/
def loadMsgs (cfg : Cfg) (defs msgs : List (Nat × Bytes)) (u : ULog) : LoadRes :=
  match runDefs cfg defs u with
  | .done u => if cfg.headerOnly then .ok u else finish (runData cfg msgs u)
  | .stopped u => .ok u
  | .raised e => .raised e

/-- the bytes are too few for the message they start -/
def Incomplete (b : Bytes) : Prop := b.length < 3 ∨ b.length < 3 + leAt b 0 2

/-- messages without the ones of unknown type -/
def known (isKnown : Nat → Bool) (l : List (Nat × Bytes)) : List (Nat × Bytes) :=
  l.filter fun m => isKnown m.1

/-- the messages that are completely contained in the first `k` bytes -/
def completeIn : Nat → List (Nat × Bytes) → List (Nat × Bytes)
  | _, [] => []
  | k, m :: l => if 3 + m.2.length ≤ k then m :: completeIn (k - (3 + m.2.length)) l else []

/-- process the sections of a log with appended data: the datasets of a section are built before the
next section starts -/
def runSections (cfg : Cfg) : List (List (Nat × Bytes)) → ULog → LoadRes
  | [], u => .ok u
  | s :: ss, u =>
    match finish (runData cfg s u) with
    | .ok u => runSections cfg ss u
    | r => r

/-- bytes of sections that each end with the beginning of a message -/
def encSections (l : List (List (Nat × Bytes) × Bytes)) : Bytes :=
  l.flatMap fun s => encMsgs s.1 ++ s.2

/-- the file offsets where these sections end, when the first one starts at offset `p` -/
def sectionEnds : Nat → List (List (Nat × Bytes) × Bytes) → List Nat
  | _, [] => []
  | p, s :: ss =>
    (p + (encMsgs s.1 ++ s.2).length) :: sectionEnds (p + (encMsgs s.1 ++ s.2).length) ss

end PyULog.Spec
