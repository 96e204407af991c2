import Verif.Spec.Format
import Verif.Model.Text
/-
A small log file used by the examples that accompany the theorems.
-/
namespace PyULog.Sample
open PyULog Spec

/-- bytes of an ASCII string -/
def asc (s : Str) : Bytes := s.map fun c => UInt8.ofNat c.toNat

/-- payload of an info or parameter message -/
def kv (typeKey : Str) (v : Bytes) : Bytes := UInt8.ofNat typeKey.length :: asc typeKey ++ v

/-- header with start timestamp 100 -/
def header : Bytes :=
  [0x55, 0x4c, 0x6f, 0x67, 0x01, 0x12, 0x35, 0x01, 100, 0, 0, 0, 0, 0, 0, 0]

def defs : List (Nat × Bytes) := [
  (tyF, asc (py! "a:uint64_t timestamp;int16_t x;")),
  (tyF, asc (py! "b:a[2] in;uint64_t timestamp;uint8_t[2] _padding0;")),
  (tyI, kv (py! "char[3] sys") (asc (py! "PX4"))),
  (tyM, 0 :: kv (py! "char[1] m") (asc (py! "u"))),
  (tyP, kv (py! "int32_t K") [5, 0, 0, 0]),
  (tyP, kv (py! "int32_t K") [6, 0, 0, 0]),
  (tyQ, 5 :: kv (py! "int32_t K") [7, 0, 0, 0])]

/-- a sample of topic `a` (subscription id 3) -/
def da (ts x : Nat) : Nat × Bytes := (tyD, leEnc 2 3 ++ leEnc 8 ts ++ leEnc 2 x)

/-- a sample of topic `b` (subscription id 4) -/
def db (ts : Nat) : Nat × Bytes :=
  (tyD, leEnc 2 4 ++ leEnc 8 1 ++ leEnc 2 2 ++ leEnc 8 3 ++ leEnc 2 4 ++ leEnc 8 ts)

def msgs : List (Nat × Bytes) := [
  (tyA, [0, 3, 0] ++ asc (py! "a")),
  (tyA, [1, 4, 0] ++ asc (py! "b")),
  da 110 7,
  (tyP, kv (py! "int32_t K") [8, 0, 0, 0]),
  (tyL, 54 :: leEnc 8 111 ++ asc (py! "hi")),
  db 120,
  (tyM, 1 :: kv (py! "char[1] m") (asc (py! "v"))),
  (tyM, 0 :: kv (py! "char[1] m") (asc (py! "w"))),
  (tyO, [20, 0]),
  da 115 (2 ^ 16 - 9),
  (tyC, 54 :: leEnc 2 9 ++ leEnc 8 121 ++ asc (py! "ho")),
  (tyQ, 2 :: kv (py! "int32_t K") [9, 0, 0, 0]),
  (tyD, leEnc 2 3 ++ [1, 2]),
  (tyP, kv (py! "int32_t K") [10, 0, 0, 0])]

/-- the whole file -/
def file : Bytes := header ++ encMsgs defs ++ encMsgs msgs

end PyULog.Sample
