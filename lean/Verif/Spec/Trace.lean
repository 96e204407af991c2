import Verif.Model.Read
import Verif.Spec.Format
/-
Observers of a run of the reader: which messages were processed, in which order, and the state of
the object before each. The property statements about whole loads refer to these lists.
-/
namespace PyULog
open Spec

instance (ty : Nat) : Decidable (isDataType ty) := inferInstanceAs (Decidable (_ ∈ _))
instance (ty : Nat) : Decidable (isDefType ty) := inferInstanceAs (Decidable (_ ∈ _))
instance (ty n : Nat) : Decidable (badHeader ty n) := inferInstanceAs (Decidable (_ ∨ _))

/-- one processed message: state of the object before it, message type, payload -/
abbrev Tr := ULog × Nat × Bytes

/-- the message that the data section reader processes at state `s`, if any: complete, of a known
type, and not past the end of the section -/
def msgAt (bs : Bytes) (readUntil : Nat) (s : RS) : List Tr :=
  if s.pos + 3 ≤ bs.length ∧ s.pos + 3 + leAt bs s.pos 2 ≤ bs.length ∧
      s.cur + 3 + leAt bs s.pos 2 ≤ readUntil ∧ isDataType (byteAt bs (s.pos + 2)) then
    [(s.u, byteAt bs (s.pos + 2), (bs.drop (s.pos + 3)).take (leAt bs s.pos 2))]
  else []

/-- messages processed by at most `n` iterations of the data section loop -/
def dataTrace (cfg : Cfg) (bs : Bytes) (readUntil : Nat) : Nat → RS → List Tr
  | 0, _ => []
  | n + 1, s =>
    msgAt bs readUntil s ++
      match dataStep cfg bs readUntil s with
      | .cont s' => dataTrace cfg bs readUntil n s'
      | _ => []

/-- messages processed in one section -/
def sectionTrace (cfg : Cfg) (bs : Bytes) (readUntil pos : Nat) (u : ULog) : List Tr :=
  dataTrace cfg bs readUntil (bs.length + 1) { pos := pos, cur := pos, u := u }

/-- messages processed, section by section -/
def sectionsTrace (cfg : Cfg) (bs : Bytes) : List Nat → Nat → ULog → List (List Tr)
  | [], pos, u => [sectionTrace cfg bs NO_LIMIT pos u]
  | off :: offs, pos, u =>
    sectionTrace cfg bs off pos u ::
      match readData cfg bs off pos u with
      | .ok u => sectionsTrace cfg bs offs off u
      | _ => []

/-- the definition message processed at `s`, if any -/
def defAt (bs : Bytes) (s : RS) : List Tr :=
  if s.pos + 3 ≤ bs.length ∧ byteAt bs (s.pos + 2) ∈ [tyI, tyM, tyF, tyP, tyQ, tyB] then
    [(s.u, byteAt bs (s.pos + 2), (bs.drop (s.pos + 3)).take (leAt bs s.pos 2))]
  else []

/-- messages processed by at most `n` iterations of the definition section loop -/
def defsTrace (cfg : Cfg) (bs : Bytes) : Nat → RS → List Tr
  | 0, _ => []
  | n + 1, s =>
    defAt bs s ++
      match defStep cfg bs s with
      | .cont s' => defsTrace cfg bs n s'
      | _ => []

/-- state at the end of the definition section, if it ends -/
def afterDefs (fuel : Nat) (cfg : Cfg) (bs : Bytes) : Option RS :=
  match readHeader bs with
  | .error _ => none
  | .ok u =>
    match defLoop cfg bs fuel { pos := 16, cur := 16, u := u } with
    | .done s => some s
    | _ => none

/-- definition messages processed by a load -/
def defTrace (fuel : Nat) (cfg : Cfg) (bs : Bytes) : List Tr :=
  match readHeader bs with
  | .error _ => []
  | .ok u => defsTrace cfg bs fuel { pos := 16, cur := 16, u := u }

/-- data section messages processed by a load, section by section -/
def fileTrace (fuel : Nat) (cfg : Cfg) (bs : Bytes) : List (List Tr) :=
  match afterDefs fuel cfg bs with
  | none => []
  | some s =>
    if cfg.headerOnly then []
    else sectionsTrace cfg bs (if hasDataAppended s.u then s.u.appendedOffsets else []) s.pos s.u

end PyULog
