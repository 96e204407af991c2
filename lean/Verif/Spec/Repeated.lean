import Verif.Spec.Frames
/-
Messages that are written several times in a row.
-/
namespace PyULog.Spec
open PyULog

/-- the file with the definition `m` written `n + 1` times in a row -/
def fileDefRep (hdr : Bytes) (pre : List (Nat × Bytes)) (m : Nat × Bytes) (n : Nat) (post msgs : List (Nat × Bytes)) : Bytes :=
  hdr ++ encMsgs (pre ++ (m :: List.replicate n m ++ post)) ++ encMsgs msgs

/-- the file with the message `m` of the data section written `n + 1` times in a row -/
def fileRep (hdr : Bytes) (defs pre : List (Nat × Bytes)) (m : Nat × Bytes) (n : Nat) (post : List (Nat × Bytes)) : Bytes :=
  hdr ++ encMsgs defs ++ encMsgs (pre ++ (m :: List.replicate n m ++ post))

/-- message types of the data section that each add an entry to a list or to a count: multi info, changed
parameter, text, tagged text, sample, dropout, sync -/
def addsEntry (ty : Nat) : Prop := ty ∈ [tyM, tyP, tyL, tyC, tyD, tyO, tyS]

instance (ty : Nat) : Decidable (addsEntry ty) := inferInstanceAs (Decidable (_ ∈ _))

end PyULog.Spec
