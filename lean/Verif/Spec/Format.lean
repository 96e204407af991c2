import Verif.Model.Basic
/-
Independent restatement of the ULog file format facts that the property statements use.
Nothing here refers to the model's own constants.
-/
namespace PyULog.Spec
open PyULog

/-- "ULog" 0x01 0x12 0x35 -/
def magic : Bytes := [0x55, 0x4c, 0x6f, 0x67, 0x01, 0x12, 0x35]

/-- the 8 bytes of a sync message payload -/
def syncMagic : Bytes := [0x2F, 0x73, 0x13, 0x20, 0x25, 0x0C, 0xBB, 0x12]

/-- the file starts with a complete ULog header -/
def HeaderOk (bs : Bytes) : Prop := 16 ≤ bs.length ∧ bs.take 7 = magic

/-- value of byte `i` (0 outside the file) -/
def byteAt (bs : Bytes) (i : Nat) : Nat := (bs.getD i 0).toNat

/-- little-endian value of the `n` bytes at offset `off` -/
def leAt (bs : Bytes) (off n : Nat) : Nat :=
  ((List.range n).map fun i => byteAt bs (off + i) * 256 ^ i).sum

/-- the byte sequence `pat` occurs at offset `i` -/
def OccursAt (pat bs : Bytes) (i : Nat) : Prop := (bs.drop i).take pat.length = pat

instance : Decidable (OccursAt pat bs i) := inferInstanceAs (Decidable (_ = _))

/-- message type letters -/
def tyA : Nat := 'A'.toNat
def tyB : Nat := 'B'.toNat
def tyC : Nat := 'C'.toNat
def tyD : Nat := 'D'.toNat
def tyF : Nat := 'F'.toNat
def tyI : Nat := 'I'.toNat
def tyL : Nat := 'L'.toNat
def tyM : Nat := 'M'.toNat
def tyO : Nat := 'O'.toNat
def tyP : Nat := 'P'.toNat
def tyQ : Nat := 'Q'.toNat
def tyS : Nat := 'S'.toNat

/-- message types with a meaning in the data section -/
def isDataType (ty : Nat) : Prop := ty ∈ [tyI, tyM, tyP, tyQ, tyA, tyL, tyC, tyD, tyO, tyS]

/-- message types with a meaning in the definition section (the last three end it) -/
def isDefType (ty : Nat) : Prop := ty ∈ [tyI, tyM, tyF, tyP, tyQ, tyB, tyA, tyL, tyC]

/-- a header that cannot be a message of a future type: type 0, no payload, or more than 10000
bytes -/
def badHeader (ty size : Nat) : Prop := ty = 0 ∨ size = 0 ∨ 10000 < size

/-- `i` is the first offset at or after `p` where `pat` occurs -/
def FirstAt (pat bs : Bytes) (p i : Nat) : Prop :=
  p ≤ i ∧ OccursAt pat bs i ∧ ∀ j, p ≤ j → j < i → ¬ OccursAt pat bs j

/-- a message on disk: 16-bit size, type byte, payload -/
def encMsg (m : Nat × Bytes) : Bytes :=
  [UInt8.ofNat (m.2.length % 256), UInt8.ofNat (m.2.length / 256), UInt8.ofNat m.1] ++ m.2

/-- a sequence of messages on disk -/
def encMsgs (l : List (Nat × Bytes)) : Bytes := l.flatMap encMsg

end PyULog.Spec
