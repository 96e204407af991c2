import Verif.Spec.DamageMsg
import Verif.Spec.Messages
/-
A log of which one info message or parameter is missing or differs.
-/
namespace PyULog.Spec
open PyULog

/-- the key of an info message, multi info message, parameter or default parameter that can be decoded -/
def keyOf (ign : Bool) (m : Nat × Bytes) : Option Str :=
  if m.1 = tyI ∨ m.1 = tyP then (keyValue ign m.2).map (·.2.1)
  else if (m.1 = tyM ∨ m.1 = tyQ) ∧ 1 ≤ m.2.length then (keyValue ign (m.2.drop 1)).map (·.2.1)
  else none

/-- the entries of the dictionary with other keys, in their order -/
def others {α : Type} (k : Str) (d : Dict Str α) : List (Str × α) := d.filter fun e => decide (e.1 ≠ k)

/-- the dictionaries are equal, but for the entry with this key if `kind` holds -/
def SameBut {α : Type} (kind : Prop) (k : Str) (d d' : Dict Str α) : Prop :=
  others k d' = others k d ∧ (¬ kind → d' = d)

/-- the logs are equal, but for the entries with key `k` in the dictionaries of messages of type `ty` -/
structure OnlyKey (ty : Nat) (k : Str) (v v' : ULog) : Prop where
  rest : { v' with info := [], infoTypes := [], infoMulti := [], infoMultiTypes := [], initialParams := [],
                   defaultParams := [] }
    = { v with info := [], infoTypes := [], infoMulti := [], infoMultiTypes := [], initialParams := [],
               defaultParams := [] }
  info : SameBut (ty = tyI) k v.info v'.info
  infoTypes : SameBut (ty = tyI) k v.infoTypes v'.infoTypes
  infoMulti : SameBut (ty = tyM) k v.infoMulti v'.infoMulti
  infoMultiTypes : SameBut (ty = tyM) k v.infoMultiTypes v'.infoMultiTypes
  initial : SameBut (ty = tyP) k v.initialParams v'.initialParams
  defaults : (∀ i, others k ((v'.defaultParams.get? i).getD []) = others k ((v.defaultParams.get? i).getD [])) ∧
    (ty ≠ tyQ → v'.defaultParams = v.defaultParams)

/-- both loads raise the same exception, or both give logs related by `R` -/
def SameLoad (R : ULog → ULog → Prop) (r s : LoadRes) : Prop :=
  (∃ e, r = .raised e ∧ s = .raised e) ∨ ∃ v v', r = .ok v ∧ s = .ok v' ∧ R v v'

/-- the file with this message between the other definitions -/
def fileDef (hdr : Bytes) (pre : List (Nat × Bytes)) (m : Nat × Bytes) (post msgs : List (Nat × Bytes)) : Bytes :=
  hdr ++ encMsgs (pre ++ m :: post) ++ encMsgs msgs

end PyULog.Spec
