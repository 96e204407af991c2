import Verif.Model.Text
/-
Basic ULog types, `struct.pack/unpack` of one value, and the binary32/binary64 conversion
that happens because Python holds every float as a 64-bit double.
-/
namespace PyULog

/-- The keys of `ULog._UNPACK_TYPES` (core.py:49-62). -/
inductive BT where
  | i8 | u8 | i16 | u16 | i32 | u32 | i64 | u64 | f32 | f64 | bool | char
  deriving DecidableEq, Repr

/-- type name of each key (core.py:50-61) -/
def BT.name : BT → Str
  | .i8 => py! "int8_t" | .u8 => py! "uint8_t"
  | .i16 => py! "int16_t" | .u16 => py! "uint16_t"
  | .i32 => py! "int32_t" | .u32 => py! "uint32_t"
  | .i64 => py! "int64_t" | .u64 => py! "uint64_t"
  | .f32 => py! "float" | .f64 => py! "double"
  | .bool => py! "bool" | .char => py! "char"

/-- all keys in dictionary order -/
def BT.all : List BT :=
  [.i8, .u8, .i16, .u16, .i32, .u32, .i64, .u64, .f32, .f64, .bool, .char]

/-- `_UNPACK_TYPES[t][1]`: size in bytes (core.py:50-61), also `ULog.get_field_size`
(core.py:65-71) on a known type -/
def BT.size : BT → Nat
  | .i8 => 1 | .u8 => 1 | .i16 => 2 | .u16 => 2 | .i32 => 4 | .u32 => 4
  | .i64 => 8 | .u64 => 8 | .f32 => 4 | .f64 => 8 | .bool => 1 | .char => 1

/-- `t in ULog._UNPACK_TYPES` / lookup by name -/
def BT.ofName (s : Str) : Option BT := BT.all.find? (fun t => t.name = s)

/-- the code is a two's complement integer code (`b h i q`) -/
def BT.signed : BT → Bool
  | .i8 | .i16 | .i32 | .i64 => true
  | _ => false

/-! ### binary32 <-> binary64 on bit patterns -/

/-- C conversion `(double)x` of the binary32 with bit pattern `b < 2^32`
(used by `struct.unpack('<f')` and by numpy scalars). Signalling NaNs become quiet, as on
x86-64 and AArch64 hardware. -/
def widen (b : Nat) : Nat :=
  let s := b / 2 ^ 31
  let e := b / 2 ^ 23 % 256
  let m := b % 2 ^ 23
  if e = 255 then
    if m = 0 then s * 2 ^ 63 + 2047 * 2 ^ 52
    else s * 2 ^ 63 + 2047 * 2 ^ 52 + (2 ^ 22 + m % 2 ^ 22) * 2 ^ 29
  else
    let M := if e = 0 then m else m + 2 ^ 23
    if M = 0 then s * 2 ^ 63
    else
      -- value M * 2^(E - 150) with E = max e 1
      let l := Nat.log2 M
      s * 2 ^ 63 + (l + max e 1 + 873) * 2 ^ 52 + (M * 2 ^ (52 - l) - 2 ^ 52)

/-- round-to-nearest-even of `M / 2^k` -/
def rne (M k : Nat) : Nat :=
  let q := M / 2 ^ k
  let r := M % 2 ^ k
  if 2 * r < 2 ^ k then q
  else if 2 ^ k < 2 * r then q + 1
  else if k = 0 then q
  else q + q % 2

/-- `struct.pack('<f', x)` for the double with bit pattern `b < 2^64`: round to nearest even,
`OverflowError` when a finite value does not fit (CPython `PyFloat_Pack4`). -/
def narrow (b : Nat) : Except PyErr Nat :=
  let s := b / 2 ^ 63
  let e := b / 2 ^ 52 % 2048
  let m := b % 2 ^ 52
  if e = 2047 then
    if m = 0 then .ok (s * 2 ^ 31 + 255 * 2 ^ 23)
    else .ok (s * 2 ^ 31 + 255 * 2 ^ 23 + (2 ^ 22 + m / 2 ^ 29 % 2 ^ 22))
  else
    let M := if e = 0 then m else m + 2 ^ 52
    if M = 0 then .ok (s * 2 ^ 31)
    else
      -- value M * 2^(E - 1075), E = max e 1; quantum 2^(q - 1075) with q >= 1075 - 149 = 926
      let E := max e 1
      let q := max 926 (Nat.log2 M + E - 23)
      let R := if E ≤ q then rne M (q - E) else M * 2 ^ (E - q)
      let f := (q - 926) * 2 ^ 23 + R
      if f < 255 * 2 ^ 23 then .ok (s * 2 ^ 31 + f) else .error .overflowError

/-- `float(n)` for a Python or numpy integer (`PyFloat_AsDouble`): nearest double, ties to even;
`none` when the number is beyond the range of doubles -/
def intToF64 (n : Int) : Option Nat :=
  let s := if n < 0 then 2 ^ 63 else 0
  let m := n.natAbs
  if m = 0 then some 0
  else
    let l := Nat.log2 m
    let R := if l ≤ 52 then m * 2 ^ (52 - l) else rne m (l - 52)
    let f := (l + 1022) * 2 ^ 52 + R
    if f < 2047 * 2 ^ 52 then some (s + f) else none

/-- the number passed to the codes `f` and `d`: `struct` reports every failing conversion as
`struct.error` -/
def floatArg (n : Int) : Except PyErr Nat :=
  match intToF64 n with
  | some x => .ok x
  | none => .error .structError

/-! ### Python values held by `msg_info_dict`, parameters -/

/-- Values produced by `_MessageInfo` (core.py:578-593). `float` holds the binary64 bit pattern. -/
inductive Value where
  | str (s : Str)
  | bytes (b : Bytes)
  | int (n : Int)
  | float (bits : Nat)
  | bool (b : Bool)
  deriving DecidableEq, Repr

/-- `struct.unpack('<' + code, b)` for one basic type (core.py:590-591) -/
def unpackScalar (t : BT) (b : Bytes) : Except PyErr Value :=
  if b.length ≠ t.size then .error .structError
  else match t with
    | .i8 | .i16 | .i32 | .i64 => .ok (.int (toSigned t.size (leNat b)))
    | .u8 | .u16 | .u32 | .u64 => .ok (.int (leNat b))
    | .f32 => .ok (.float (widen (leNat b)))
    | .f64 => .ok (.float (leNat b))
    | .bool => .ok (.bool (decide (leNat b ≠ 0)))
    | .char => .ok (.bytes b)

/-- range check and two's complement of `struct.pack` for integer codes -/
def packInt (t : BT) (n : Int) : Except PyErr Bytes :=
  if t.signed then
    if -(2 : Int) ^ (8 * t.size - 1) ≤ n ∧ n < (2 : Int) ^ (8 * t.size - 1) then
      .ok (leEnc t.size (ofSigned t.size n))
    else .error .structError
  else
    if 0 ≤ n ∧ n < (2 : Int) ^ (8 * t.size) then .ok (leEnc t.size n.toNat)
    else .error .structError

/-- `struct.pack('<' + code, v)` (core.py:365-366) -/
def packScalar (t : BT) (v : Value) : Except PyErr Bytes :=
  match t with
  | .i8 | .u8 | .i16 | .u16 | .i32 | .u32 | .i64 | .u64 =>
    match v with
    | .int n => packInt t n
    | .bool b => packInt t (if b then 1 else 0)
    | _ => .error .structError
  | .f32 =>
    match v with
    | .float x => (narrow x).map (leEnc 4)
    | .int n => do (narrow (← floatArg n)).map (leEnc 4)
    | .bool b => do (narrow (← floatArg (if b then 1 else 0))).map (leEnc 4)
    | _ => .error .structError
  | .f64 =>
    match v with
    | .float x => .ok (leEnc 8 x)
    | .int n => (floatArg n).map (leEnc 8)
    | .bool b => (floatArg (if b then 1 else 0)).map (leEnc 8)
    | _ => .error .structError
  | .bool =>
    -- truth value of the object
    match v with
    | .int n => .ok [if n ≠ 0 then 1 else 0]
    | .bool b => .ok [if b then 1 else 0]
    | .float x => .ok [if x % 2 ^ 63 ≠ 0 then 1 else 0]
    | .str s => .ok [if s ≠ [] then 1 else 0]
    | .bytes b => .ok [if b ≠ [] then 1 else 0]
  | .char =>
    match v with
    | .bytes [b] => .ok [b]
    | _ => .error .structError

/-! ### numpy scalars of the dataset columns -/

/-- Element of a numpy column: integer kinds, `float32`, `float64` (bit patterns). -/
inductive NpVal where
  | int (n : Int)
  | f32 (bits : Nat)
  | f64 (bits : Nat)
  deriving DecidableEq, Repr

/-- Reading one element of a structured array with little-endian dtype (core.py:49-62,521-526):
`bool` and `char` fields are `np.int8`. -/
def npDecode (t : BT) (b : Bytes) : NpVal :=
  match t with
  | .i8 | .i16 | .i32 | .i64 => .int (toSigned t.size (leNat b))
  | .u8 | .u16 | .u32 | .u64 => .int (leNat b)
  | .bool | .char => .int (toSigned 1 (leNat b))
  | .f32 => .f32 (leNat b)
  | .f64 => .f64 (leNat b)

/-- `struct.pack('<' + field_encoding, field_data)` in `_make_data_items` (core.py:430-441),
including the `chr`/`bytes` conversion of `char` fields (core.py:438-439). Code points above
127 cannot occur in an `np.int8` column; they are given `struct.error` here. -/
def packNp (t : BT) (v : NpVal) : Except PyErr Bytes :=
  match t with
  | .i8 | .u8 | .i16 | .u16 | .i32 | .u32 | .i64 | .u64 =>
    match v with
    | .int n => packInt t n
    | _ => .error .structError
  | .f32 =>
    match v with
    | .f32 x => (narrow (widen x)).map (leEnc 4)
    | .f64 x => (narrow x).map (leEnc 4)
    | .int n => do (narrow (← floatArg n)).map (leEnc 4)
  | .f64 =>
    match v with
    | .f32 x => .ok (leEnc 8 (widen x))
    | .f64 x => .ok (leEnc 8 x)
    | .int n => (floatArg n).map (leEnc 8)
  | .bool =>
    match v with
    | .int n => .ok [if n ≠ 0 then 1 else 0]
    | .f32 x => .ok [if x % 2 ^ 31 ≠ 0 then 1 else 0]
    | .f64 x => .ok [if x % 2 ^ 63 ≠ 0 then 1 else 0]
  | .char =>
    match v with
    | .int n =>
      if n < 0 then .error .valueError
      else if n < 128 then .ok [UInt8.ofNat n.toNat]
      else .error .structError
    | _ => .error .typeError

end PyULog
