import Verif.Model.Read
import Verif.Model.FloatFmt
/-
Accessors and comparison of loaded `ULog` objects and their datasets.
-/
namespace PyULog

/-- `get_default_parameters` (core.py:169-176) -/
def getDefaultParameters (u : ULog) (defaultType : Nat) : Dict Str Value :=
  (u.defaultParams.get? defaultType).getD []

/-- `has_default_parameters` (core.py:219-222) as a truth value -/
def hasDefaultParameters (u : ULog) : Bool := (u.compat.getD 0 0) % 2 = 1

/-- `get_dataset` (core.py:224-238) -/
def getDataset (u : ULog) (name : Str) (multi : Int := 0) : Except PyErr Dataset :=
  pyIndex (u.dataList.filter fun d => d.name = name ∧ (d.multiId : Int) = multi) 0

/-! ### comparison of numbers -/

/-- the binary32 with bit pattern `b` is a NaN -/
def isNan32 (b : Nat) : Bool := decide (b / 2 ^ 23 % 256 = 255) && decide (b % 2 ^ 23 ≠ 0)

/-- the binary64 with bit pattern `b` is a NaN -/
def isNan64 (b : Nat) : Bool := decide (b / 2 ^ 52 % 2048 = 2047) && decide (b % 2 ^ 52 ≠ 0)

/-- `a == b` of binary32: NaN differs from everything, both zeros are equal -/
def eq32 (a b : Nat) : Bool :=
  !isNan32 a && !isNan32 b &&
    (decide (a = b) || (decide (a % 2 ^ 31 = 0) && decide (b % 2 ^ 31 = 0)))

/-- `a == b` of binary64 -/
def eq64 (a b : Nat) : Bool :=
  !isNan64 a && !isNan64 b &&
    (decide (a = b) || (decide (a % 2 ^ 63 = 0) && decide (b % 2 ^ 63 = 0)))

/-- `np.isnan` of an array element -/
def npIsNan : NpVal → Bool
  | .int _ => false
  | .f32 b => isNan32 b
  | .f64 b => isNan64 b

/-- `a == b` of two array elements. The elements that the modelled code compares come from columns
with the same dtype; elements of different kinds are taken to be different (numpy would convert
them to a common type first). -/
def npEq : NpVal → NpVal → Bool
  | .int a, .int b => decide (a = b)
  | .f32 a, .f32 b => eq32 a b
  | .f64 a, .f64 b => eq64 a b
  | _, _ => false

/-- `a == n` of an array element and a Python integer, which becomes a float next to a float -/
def npEqInt : NpVal → Int → Bool
  | .int a, n => decide (a = n)
  | .f32 a, n => eq32 a (Fmt.b32.ofInt n)
  | .f64 a, n => eq64 a (Fmt.b64.ofInt n)

/-- `np.array_equal(l, r, equal_nan=True)` -/
def arrayEqual (l r : List NpVal) : Bool :=
  decide (l.length = r.length) &&
    decide (l.map npIsNan = r.map npIsNan) &&
    ((l.zip r).filter (fun p => !npIsNan p.1)).all fun p => npEq p.1 p.2

/-- `d1.keys() == d2.keys()`: comparison as sets -/
def keysEq (a b : List Str) : Bool := (a.all fun k => decide (k ∈ b)) && (b.all fun k => decide (k ∈ a))

/-- `ULog.Data.__eq__` (core.py:528-543): the columns are compared in insertion order -/
def dataEq (a b : Dataset) : Bool :=
  decide (a.multiId = b.multiId) && decide (a.msgId = b.msgId) && decide (a.name = b.name) &&
    decide (a.fields = b.fields) && decide (a.tsIdx = b.tsIdx) &&
    (keysEq a.data.keys b.data.keys &&
      (a.data.vals.zip b.data.vals).all fun p => arrayEqual p.1 p.2)

/-! ### list_value_changes -/

/-- `d[k]` -/
def dictGet [DecidableEq κ] (d : Dict κ α) (k : κ) : Except PyErr α :=
  match d.get? k with
  | some v => .ok v
  | none => .error .keyError

/-- `t[mask]` (numpy boolean indexing; the lengths must agree) -/
def maskBy (mask : List Bool) (l : List α) : Except PyErr (List α) :=
  if mask.length = l.length then .ok ((mask.zip l).filterMap fun p => if p.1 then some p.2 else none)
  else .error .indexError

/-- `np.where(mask)[0]` -/
def whereTrue (mask : List Bool) : List Nat :=
  (List.range mask.length).filter fun i => mask.getD i false

/-- `Data.list_value_changes` (core.py:545-559) -/
def listValueChanges (d : Dataset) (field : Str) : Except PyErr (List (NpVal × NpVal)) := do
  let t ← dictGet d.data (py! "timestamp")
  let x ← dictGet d.data field
  let indices := t.map fun v => !npEqInt v 0
  let t ← maskBy indices t
  let x ← maskBy indices x
  match t, x with
  | t0 :: _, x0 :: _ =>
    let idx := (whereTrue ((x.dropLast.zip x.tail).map fun p => !npEq p.1 p.2)).map (· + 1)
    .ok ((t0, x0) :: idx.filterMap fun i => match t[i]?, x[i]? with
      | some a, some b => some (a, b)
      | _, _ => none)
  | _, _ => .ok []

/-! ### version information -/

/-- `get_version_info` (core.py:1156-1170): `>>` and `&` of Python integers are floor division and
remainder by powers of two; other value types do not support `>>`. -/
def getVersionInfo (u : ULog) (key : Str := py! "ver_sw_release") :
    Except PyErr (Option (Int × Int × Int × Int)) :=
  let split (v : Int) : Int × Int × Int × Int :=
    (v / 2 ^ 24 % 256, v / 2 ^ 16 % 256, v / 2 ^ 8 % 256, v % 256)
  match u.info.get? key with
  | some (.int v) => .ok (some (split v))
  | some (.bool b) => .ok (some (split (if b then 1 else 0)))
  | some _ => .error .typeError
  | none => .ok none

/-- `get_version_info_str` (core.py:1172-1184) -/
def getVersionInfoStr (u : ULog) (key : Str := py! "ver_sw_release") :
    Except PyErr (Option Str) := do
  match ← getVersionInfo u key with
  | some (a, b, c, t) =>
    if t ≥ 64 then
      let typeStr :=
        if t < 128 then py! " (alpha)"
        else if t < 192 then py! " (beta)"
        else if t < 255 then py! " (RC)"
        else []
      .ok (some ('v' :: intDec a ++ '.' :: intDec b ++ '.' :: intDec c ++ typeStr))
    else .ok none
  | none => .ok none

/-! ### log levels -/

/-- `log_level_str` (core.py:670-678, 698-706) -/
def logLevelStr (level : Nat) : Str :=
  (Dict.get? [
    (48, py! "EMERGENCY"),
    (49, py! "ALERT"),
    (50, py! "CRITICAL"),
    (51, py! "ERROR"),
    (52, py! "WARNING"),
    (53, py! "NOTICE"),
    (54, py! "INFO"),
    (55, py! "DEBUG")] level).getD (py! "UNKNOWN")

/-! ### comparison of logs -/

/-- the binary64 with bit pattern `b` has the integer value `n` -/
def floatEqInt (b : Nat) (n : Int) : Bool :=
  let s := b / 2 ^ 63 % 2
  let e := b / 2 ^ 52 % 2048
  let m := b % 2 ^ 52
  if e = 2047 then false
  else
    let M := if e = 0 then m else m + 2 ^ 52
    let E := max e 1
    decide (M * 2 ^ (E - 1075) = n.natAbs * 2 ^ (1075 - E)) &&
      (decide (n = 0) || decide ((s = 1) = (n < 0)))

/-- value of a `bool` used as a number -/
def boolInt (b : Bool) : Int := if b then 1 else 0

/-- `a == b` of two values that are not the same object -/
def valueEq : Value → Value → Bool
  | .str a, .str b => decide (a = b)
  | .bytes a, .bytes b => decide (a = b)
  | .int a, .int b => decide (a = b)
  | .int a, .bool b => decide (a = boolInt b)
  | .bool a, .int b => decide (boolInt a = b)
  | .bool a, .bool b => decide (a = b)
  | .float a, .float b => eq64 a b
  | .float a, .int b => floatEqInt a b
  | .int a, .float b => floatEqInt b a
  | .float a, .bool b => floatEqInt a (boolInt b)
  | .bool a, .float b => floatEqInt b (boolInt a)
  | _, _ => false

/-- `d1 == d2` of dictionaries: the order does not matter -/
def dictEq [DecidableEq κ] (veq : α → α → Bool) (a b : Dict κ α) : Bool :=
  decide (a.length = b.length) && a.all fun p => match b.get? p.1 with
    | some v => veq p.2 v
    | none => false

/-- `l1 == l2` of lists -/
def listEq (veq : α → α → Bool) (a b : List α) : Bool :=
  decide (a.length = b.length) && (a.zip b).all fun p => veq p.1 p.2

/-- `MessageFormat.__eq__` (core.py:633-637) -/
def formatEq (a b : MsgFormat) : Bool := decide (a.name = b.name) && decide (a.fields = b.fields)

/-- `ULog.__eq__` (core.py:497-508) of two different objects. `_subscriptions` is empty after the
constructor (core.py:1130-1131) and compared here as the model's value; no value is shared between
the objects, so a NaN differs from itself. -/
def ulogEq (a b : ULog) : Bool :=
  decide (a.fileCorrupt = b.fileCorrupt) && decide (a.startTs = b.startTs) &&
  decide (a.lastTs = b.lastTs) && dictEq valueEq a.info b.info &&
  dictEq (fun x y => decide (x = y)) a.infoTypes b.infoTypes &&
  dictEq (listEq (listEq valueEq)) a.infoMulti b.infoMulti &&
  dictEq (fun x y => decide (x = y)) a.infoMultiTypes b.infoMultiTypes &&
  dictEq valueEq a.initialParams b.initialParams &&
  dictEq (dictEq valueEq) a.defaultParams b.defaultParams &&
  listEq (fun x y => decide (x.1 = y.1) && decide (x.2.1 = y.2.1) && valueEq x.2.2 y.2.2)
    a.changedParams b.changedParams &&
  dictEq formatEq a.formats b.formats &&
  decide (a.logged = b.logged) &&
  dictEq (fun x y => decide (x = y)) a.tagged b.tagged &&
  decide (a.dropouts = b.dropouts) && listEq dataEq a.dataList b.dataList &&
  decide (a.subs = b.subs) && keysEqNat a.filteredIds b.filteredIds &&
  keysEqNat a.missingIds b.missingIds && decide (a.fileVersion = b.fileVersion) &&
  decide (a.compat = b.compat) && decide (a.incompat = b.incompat) &&
  decide (a.appendedOffsets = b.appendedOffsets) && decide (a.hasSync = b.hasSync) &&
  decide (a.syncCnt = b.syncCnt)
where
  /-- `set` equality -/
  keysEqNat (a b : List Nat) : Bool :=
    (a.all fun k => decide (k ∈ b)) && (b.all fun k => decide (k ∈ a))

end PyULog
