import Verif.Spec.Db
import Verif.Spec.SampleRun
/-
Databases used by the examples.
-/
namespace PyULog.Sample
open PyULog Spec

/-- stands for the hash function -/
def hash (b : Bytes) : Str := b.map fun x => Char.ofNat x.toNat

/-- the sample file without its short data message -/
def clean : Bytes := header ++ encMsgs defs ++ encMsgs (msgs.eraseIdx 12)

/-- another file -/
def other : Bytes := header ++ encMsgs (defs.take 3) ++ encMsgs (msgs.take 3)

/-- a file with an info-multiple number -/
def multiNumber : Bytes := header ++ encMsgs [(tyM, 0 :: kv (py! "int32_t m") [5, 0, 0, 0])]

/-- a file that starts at 2⁶³ microseconds -/
def lateStart : Bytes := header.take 8 ++ leEnc 8 (2 ^ 63)

/-- a file with two subscriptions of the same name and multi id -/
def sameName : Bytes := header ++ encMsgs (defs.take 1) ++
  encMsgs [(tyA, [0, 3, 0] ++ asc (py! "a")), da 110 7, (tyA, [0, 5, 0] ++ asc (py! "a")),
    (tyD, leEnc 2 5 ++ leEnc 8 111 ++ leEnc 2 1)]

/-- a file with the sample -∞ at 110 -/
def negInf : Bytes := header ++ encMsgs [(tyF, asc (py! "a:uint64_t timestamp;float x;"))] ++
  encMsgs [(tyA, [0, 3, 0] ++ asc (py! "a")), (tyD, leEnc 2 3 ++ leEnc 8 110 ++ leEnc 4 0xFF800000)]

/-- a file with a topic that has no timestamp -/
def noTime : Bytes := header ++ encMsgs [(tyF, asc (py! "a:uint64_t time;float x;"))] ++
  encMsgs [(tyA, [0, 3, 0] ++ asc (py! "a")), (tyD, leEnc 2 3 ++ leEnc 8 110 ++ leEnc 4 0)]

/-- a file with a topic that has a column without a name -/
def unnamed : Bytes := header ++ encMsgs [(tyF, asc (py! "a:uint64_t timestamp;uint8_t ;"))] ++
  encMsgs [(tyA, [0, 3, 0] ++ asc (py! "a")), (tyD, leEnc 2 3 ++ leEnc 8 110 ++ [7])]

/-- the object made by the constructor -/
def conObj : ConRes → DbObj
  | .ok o => o
  | _ => { pk := none, sha := [], lazyLoaded := true, log := {} }

/-- the object made from a file -/
def fileObj (f : Bytes) : DbObj := conObj (construct hash 20 {} {} none (some (.name f)) true)

/-- no fault -/
def noFault : Nat → Option PyErr := fun _ => none

/-- a disk that is full from the `n`-th statement on -/
def faultAt (n : Nat) : Nat → Option PyErr := fun i => if n ≤ i then some .operationalError else none

/-- one log stored -/
def db1 : DB := ((fileObj clean).save noFault false {}).2.1

/-- two logs stored -/
def db2 : DB := ((fileObj other).save noFault false db1).2.1

/-- the first log deleted again -/
def db3 : DB := deleteRows 1 db2

theorem load_clean : load 20 {} clean = .ok (get (load 20 {} clean)) := by decide +kernel
theorem con_clean : construct hash 20 {} {} none (some (.name clean)) true = .ok (fileObj clean) := by decide +kernel
theorem save1 : (fileObj clean).save noFault false {} = (none, db1, { fileObj clean with pk := some 1 }) := by
  decide +kernel
theorem save2 : (fileObj other).save noFault false db1 = (none, db2, { fileObj other with pk := some 2 }) := by
  decide +kernel

theorem reach1 : Reach db1 := .step _ _ _ (.refl _) (.save noFault false (fileObj clean) {})
theorem later12 : Later db1 db2 := .step _ _ _ (.refl _) (.save noFault false (fileObj other) db1)
theorem reach2 : Reach db2 := .step _ _ _ reach1 (.save noFault false (fileObj other) db1)
theorem reach3 : Reach db3 :=
  .step _ _ _ reach2 (.delete { pk := some 1, sha := [], lazyLoaded := true, log := {} } db2 db3 _ rfl)

end PyULog.Sample
