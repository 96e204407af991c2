import Verif.Model.Log
/-
Parsing of single messages (the constructors of the message classes in core.py).
-/
namespace PyULog

/-- `_MessageInfo` (core.py:575-593). `cont` is `is_continued` (0 when not info-multiple). -/
structure InfoMsg where
  cont : Nat
  type : Str
  key : Str
  value : Value
  deriving DecidableEq, Repr

/-- value part of `_MessageInfo.__init__` (core.py:587-593) -/
def parseInfoValue (ign : Bool) (type : Str) (d : Bytes) : Except PyErr Value :=
  if startsWith (py! "char[") type then (parseString ign d).map Value.str
  else match BT.ofName type with
    | some t => unpackScalar t d
    | none => .ok (.bytes d)

/-- `_MessageInfo.__init__` with `is_info_multiple=False` (core.py:582-593) -/
def parseInfo (ign : Bool) (data : Bytes) : Except PyErr InfoMsg := do
  let keyLen ← unpackU 1 (slice 0 1 data)
  let typeKey ← parseString ign (slice 1 (1 + keyLen) data)
  let parts := pySplit ' ' typeKey
  let type ← pyIndex parts 0
  let key ← pyIndex parts 1
  let value ← parseInfoValue ign type (data.drop (1 + keyLen))
  return { cont := 0, type, key, value }

/-- `_MessageInfo.__init__` with `is_info_multiple=True` (core.py:579-593) -/
def parseInfoMulti (ign : Bool) (data : Bytes) : Except PyErr InfoMsg := do
  let cont ← unpackU 1 (slice 0 1 data)
  let m ← parseInfo ign (data.drop 1)
  return { m with cont }

/-- `_MessageParameterDefault.__init__` (core.py:598-603) -/
def parseParamDefault (ign : Bool) (data : Bytes) : Except PyErr (Nat × InfoMsg) := do
  let types ← unpackU 1 (slice 0 1 data)
  let m ← parseInfo ign (data.drop 1)
  return (types, m)

/-- remove zeros at the end of a list (core.py:617-618) -/
def dropTrailingZeros (l : List Nat) : List Nat := (l.reverse.dropWhile (· = 0)).reverse

/-- `struct.unpack('<'+'B'*n, data)` -/
def unpackBytes (n : Nat) (b : Bytes) : Except PyErr (List Nat) :=
  if b.length = n then .ok (b.map UInt8.toNat) else .error .structError

/-- `struct.unpack('<'+'Q'*3, data)` -/
def unpack3Q (b : Bytes) : Except PyErr (List Nat) :=
  if b.length = 24 then
    .ok [leNat (slice 0 8 b), leNat (slice 8 16 b), leNat (slice 16 24 b)]
  else .error .structError

/-- `_MessageFlagBits.__init__` (core.py:608-618): compat flags, incompat flags, offsets. The
warning printed for long messages is not modelled. -/
def parseFlagBits (data : Bytes) : Except PyErr (List Nat × List Nat × List Nat) := do
  let c ← unpackBytes 8 (slice 0 8 data)
  let i ← unpackBytes 8 (slice 8 16 data)
  let o ← unpack3Q (slice 16 (16 + 24) data)
  return (c, i, dropTrailingZeros o)

/-- `MessageFormat._extract_type` (core.py:640-652) -/
def extractType (s : Str) : Except PyErr FieldDef := do
  let parts := pySplit ' ' s
  let typeStr ← pyIndex parts 0
  let nameStr ← pyIndex parts 1
  match pyFind '[' typeStr with
  | none => return { type := typeStr, arr := 0, name := nameStr }
  | some a =>
    let b := match pyFind ']' typeStr with
      | some b => b
      | none => typeStr.length - 1    -- type_str[a_pos+1:-1]
    let n ← pyInt (slice (a + 1) b typeStr)
    return { type := typeStr.take a, arr := n, name := nameStr }

/-- `MessageFormat.__init__` (core.py:624-631) -/
def parseFormat (ign : Bool) (data : Bytes) : Except PyErr MsgFormat := do
  let s ← parseString ign data
  let arr := pySplit ':' s
  let name ← pyIndex arr 0
  let types ← pyIndex arr 1
  let fields ← ((pySplit ';' types).filter (fun t => t.length > 0)).mapM extractType
  return { name, fields }

/-- `MessageLogging.__init__` (core.py:657-660) -/
def parseLogging (ign : Bool) (data : Bytes) : Except PyErr LogMsg := do
  let level ← unpackU 1 (slice 0 1 data)
  let ts ← unpackU 8 (slice 1 9 data)
  let msg ← parseString ign (data.drop 9)
  return { level, ts, msg }

/-- `MessageLoggingTagged.__init__` (core.py:683-687) -/
def parseLoggingTagged (ign : Bool) (data : Bytes) : Except PyErr TagMsg := do
  let level ← unpackU 1 (slice 0 1 data)
  let tag ← unpackU 2 (slice 1 3 data)
  let ts ← unpackU 8 (slice 3 11 data)
  let msg ← parseString ign (data.drop 11)
  return { level, tag, ts, msg }

/-- `MessageDropout.__init__` (core.py:710-712) -/
def parseDropout (data : Bytes) (ts : Nat) : Except PyErr Dropout := do
  let duration ← unpackU 2 data
  return { duration, ts }

/-! ### Subscriptions -/

/-- accumulator of `_parse_nested_type`: `field_data` and `timestamp_idx` -/
abbrev NestAcc := List FieldData × Int

/-- One basic-type field of `_parse_nested_type` (core.py:773-782). -/
def addBasic (prefixStr : Str) (t : BT) (arr : Int) (name : Str) (acc : NestAcc) : NestAcc :=
  let fs :=
    if arr > 0 then
      acc.1 ++ (List.range arr.toNat).map fun i =>
        ⟨prefixStr ++ name ++ py! "[" ++ natDec i ++ py! "]", t⟩
    else acc.1 ++ [⟨prefixStr ++ name, t⟩]
  (fs, if prefixStr ++ name = py! "timestamp" then (fs.length : Int) - 1 else acc.2)

/-- `_parse_nested_type` (core.py:769-790). The first argument bounds the recursion depth:
Python raises `RecursionError` when its recursion limit is exceeded. -/
def nest (formats : Dict Str MsgFormat) : Nat → Str → Str → NestAcc → Except PyErr NestAcc
  | 0, _, _, _ => .error .recursionError
  | depth + 1, prefixStr, typeName, acc =>
    match formats.get? typeName with
    | none => .error .keyError
    | some fmt =>
      fmt.fields.foldlM (init := acc) fun (acc : NestAcc) (f : FieldDef) =>
        match BT.ofName f.type with
        | some t => .ok (addBasic prefixStr t f.arr f.name acc)
        | none =>
          if f.arr > 0 then
            (List.range f.arr.toNat).foldlM (init := acc) fun acc i =>
              nest formats depth (prefixStr ++ f.name ++ py! "[" ++ natDec i ++ py! "].") f.type acc
          else nest formats depth (prefixStr ++ f.name ++ py! ".") f.type acc

/-- `_parse_format`: flatten and remove padding fields at the end (core.py:761-767) -/
def parseFields (formats : Dict Str MsgFormat) (depth : Nat) (name : Str) :
    Except PyErr NestAcc := do
  let (fs, idx) ← nest formats depth [] name ([], -1)
  return ((fs.reverse.dropWhile (fun f => startsWith (py! "_padding") f.name)).reverse, idx)

/-- sum of the field sizes (core.py:755-756): also `dtype.itemsize` of the packed dtype -/
def fieldsSize (fs : List FieldData) : Nat := (fs.map (·.type.size)).sum

/-- `timestamp_offset` (core.py:744-748): size of the fields before the field named `timestamp`
(of all fields when there is none) -/
def tsOffset : List FieldData → Nat
  | [] => 0
  | f :: fs => if f.name = py! "timestamp" then 0 else f.type.size + tsOffset fs

/-- the fields with the names that `np.dtype` gives to them (core.py:753-758): a field without a name gets
`f` and its position -/
def dtypeFields (fs : List FieldData) : List FieldData :=
  fs.zipIdx.map fun p => if p.1.name = [] then { p.1 with name := py! "f" ++ natDec p.2 } else p.1

/-- `_MessageAddLogged.__init__` (core.py:734-758). `np.dtype` raises `ValueError` for repeated
names (core.py:758). -/
def parseAddLogged (ign : Bool) (formats : Dict Str MsgFormat) (depth : Nat) (data : Bytes) :
    Except PyErr Sub := do
  let multiId ← unpackU 1 (slice 0 1 data)
  let msgId ← unpackU 2 (slice 1 3 data)
  let name ← parseString ign (data.drop 3)
  let (fields, tsIdx) ← parseFields formats depth name
  if ¬ ((dtypeFields fields).map (·.name)).Nodup then .error .valueError
  else return {
    multiId, msgId, name, fields, tsIdx
    tsOff := tsOffset fields
    maxSize := fieldsSize fields
    itemSize := fieldsSize fields
    buffer := [] }

/-! ### Dataset construction -/

/-- rows of `np.frombuffer(buffer, dtype)` -/
def rowsOf (n : Nat) (buf : Bytes) : List Bytes :=
  (List.range (buf.length / n)).map fun i => (buf.drop (i * n)).take n

/-- columns of the structured array: `np_array[name]` for each field, offsets accumulate the
field sizes (core.py:754-758,521-526) -/
def columns (rows : List Bytes) : Nat → List FieldData → Dict Str (List NpVal)
  | _, [] => []
  | off, f :: fs =>
    (f.name, rows.map fun r => npDecode f.type (slice off (off + f.type.size) r))
      :: columns rows (off + f.type.size) fs

/-- `ULog.Data.__init__` (core.py:513-526). `np.frombuffer` raises `ValueError` when the item
size is 0 or does not divide the buffer length. -/
def mkData (s : Sub) : Except PyErr Dataset :=
  if s.itemSize = 0 ∨ s.buffer.length % s.itemSize ≠ 0 then .error .valueError
  else .ok { multiId := s.multiId, msgId := s.msgId, name := s.name, fields := s.fields,
             tsIdx := s.tsIdx, data := columns (rowsOf s.itemSize s.buffer) 0 (dtypeFields s.fields) }

end PyULog
