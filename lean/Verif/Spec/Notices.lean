import Verif.Model.Notices
import Verif.Spec.LoadError
/-
What the reader prints, from the messages of the file.
-/
namespace PyULog.Spec
open PyULog

/-- the states of the reader at the messages of the definition section -/
def defStates (cfg : Cfg) (bs : Bytes) : Nat → RS → List RS
  | 0, _ => []
  | n + 1, s => s :: match defStep cfg bs s with
    | .cont s' => defStates cfg bs n s'
    | _ => []

/-- the states of a load at the messages of the definition section -/
def loadStates (fuel : Nat) (cfg : Cfg) (bs : Bytes) : List RS :=
  match readHeader bs with
  | .error _ => []
  | .ok u => defStates cfg bs fuel { pos := 16, cur := 16, u := u }

/-- flag bits at `pos`: they should be the first message, with forty bytes -/
def saidFlags (bs : Bytes) (pos : Nat) : List Notice :=
  if pos + 3 ≤ bs.length ∧ byteAt bs (pos + 2) = tyB then
    (if min (pos + 3 + leAt bs pos 2) bs.length ≠ 19 + leAt bs pos 2 then
      [.flagsLate (min (pos + 3 + leAt bs pos 2) bs.length)] else []) ++
    (if 40 < leAt bs pos 2 then [.flagsLong] else [])
  else []

open Classical in
/-- a definition message that has not the form it should have is reported while the file is not known to be corrupt -/
noncomputable def saidDef (cfg : Cfg) (x : Tr) : List Notice :=
  if DefObstacle cfg x.2.2 x.2.1 .indexError ∧ x.1.fileCorrupt = false then [.badDefs] else []

/-- a data message of the subscription `id`, which is unknown and was not excluded by the filter -/
def NoSubscription (x : Tr) (id : Nat) : Prop :=
  x.2.1 = tyD ∧ 2 ≤ x.2.2.length ∧ leAt x.2.2 0 2 = id ∧ x.1.subs.get? id = none ∧ id ∉ x.1.filteredIds

open Classical in
/-- a message of the data section -/
noncomputable def said (cfg : Cfg) (x : Tr) : List Notice :=
  if NoSubscription x (leAt x.2.2 0 2) ∧ leAt x.2.2 0 2 ∉ x.1.missingIds then [.noSub (leAt x.2.2 0 2)]
  else if DataObstacle cfg x.1 x.2.2 x.2.1 .indexError ∧ x.1.fileCorrupt = false then [.badData]
  else []

/-- the reports of a message that has not the form it should have -/
def badLine : Notice → Bool
  | .badDefs | .badData => true
  | _ => false

/-- the reports about the version and the flags -/
def hintLine : Notice → Bool
  | .version | .flagsLate _ | .flagsLong => true
  | _ => false

/-- the subscription that a report is about -/
def subjectOf : Notice → Option Nat
  | .noSub id => some id
  | _ => none

end PyULog.Spec
