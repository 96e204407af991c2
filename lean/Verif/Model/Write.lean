import Verif.Model.Log
/-
Writing a log: `write_ulog` and its helpers (core.py:240-495). The result is the content of the
file on success; what a failing call leaves is in Model/WriteLeft.lean.
-/
namespace PyULog

/-- `struct.pack('<HB', len(data), type)` followed by the payload -/
def frame (ty : Nat) (data : Bytes) : Except PyErr Bytes := do
  let size ← packU 2 data.length
  let t ← packU 1 ty
  return size ++ t ++ data

/-- concatenation of the results of a list of writes -/
def concatM (l : List (Except PyErr Bytes)) : Except PyErr Bytes :=
  l.foldr (fun x acc => do
    let b ← x
    let r ← acc
    return b ++ r) (.ok [])

/-- `_write_file_header` (core.py:261-269) -/
def writeHeader (u : ULog) : Except PyErr Bytes := do
  let v ← packU 1 u.fileVersion
  let t ← packU 8 u.startTs
  if (HEADER_BYTES ++ v ++ t).length ≠ 16 then .error .typeError
  else return HEADER_BYTES ++ v ++ t

/-- `struct.pack('<'+'B'*8, *flags)` -/
def packFlags (l : List Nat) : Except PyErr Bytes :=
  if l.length ≠ 8 then .error .structError else concatM (l.map (packU 1))

/-- `imcompat_flags[0] & 0xFE` (core.py:276-277) -/
def clearAppended : List Nat → Except PyErr (List Nat)
  | [] => .error .indexError
  | x :: xs => .ok ((x &&& 0xFE) :: xs)

/-- `_write_flags` (core.py:271-286) -/
def writeFlags (u : ULog) : Except PyErr Bytes := do
  let c ← packFlags u.compat
  let i ← clearAppended u.incompat
  let i ← packFlags i
  frame MSG_TYPE_FLAG_BITS (c ++ i ++ leEnc 8 0 ++ leEnc 8 0 ++ leEnc 8 0)

/-- value part of `_make_info_message_data` (core.py:359-366) -/
def infoValueBytes (valueType : Str) (value : Value) : Except PyErr Bytes :=
  if startsWith (py! "char[") valueType then
    match value with
    | .str s => .ok (encStr s)
    | _ => .error .typeError
  else if startsWith (py! "uint8_t[") valueType then
    match value with
    | .bytes b => .ok b
    | .str s => if s = [] then .ok [] else .error .typeError   -- `bytearray().extend('')` works
    | _ => .error .typeError
  else match BT.ofName valueType with
    | some t => packScalar t value
    | none => .error .keyError

/-- `_make_info_message_data` (core.py:349-368); `continued` is `None`, `False` or `True` -/
def infoData (key : Str) (value : Value) (valueType : Str) (continued : Option Bool) :
    Except PyErr Bytes := do
  let kb := encStr key
  let c := match continued with
    | none => []
    | some b => leEnc 1 (if b then 1 else 0)
  let n ← packU 1 kb.length
  let v ← infoValueBytes valueType value
  return c ++ n ++ kb ++ v

/-- `_write_info_messages` (core.py:288-298) -/
def writeInfos (u : ULog) : Except PyErr Bytes :=
  concatM (u.info.map fun (k, v) =>
    match u.infoTypes.get? k with
    | none => .error .keyError
    | some ty => do
      let d ← infoData (ty ++ py! " " ++ k) v ty none
      frame MSG_TYPE_INFO d)

/-- inner loop of `_write_info_multiple_message` over one value set (core.py:306-314) -/
def writeValueSet (key ty : Str) : Bool → List Value → Except PyErr Bytes
  | _, [] => .ok []
  | continued, v :: vs => do
    let d ← infoData key v ty (some continued)
    let m ← frame MSG_TYPE_INFO_MULTIPLE d
    let r ← writeValueSet key ty true vs
    return m ++ r

/-- `_write_info_multiple_message` (core.py:300-314) -/
def writeInfoMulti (u : ULog) : Except PyErr Bytes :=
  concatM (u.infoMulti.map fun (k, sets) =>
    match u.infoMultiTypes.get? k with
    | none => .error .keyError
    | some ty => concatM (sets.map (writeValueSet (ty ++ py! " " ++ k) ty false)))

/-- `_make_parameter_data` (core.py:337-347) -/
def paramData (name : Str) (value : Value) : Except PyErr Bytes :=
  match value with
  | .int _ | .bool _ => infoData (py! "int32_t" ++ py! " " ++ name) value (py! "int32_t") none
  | .float _ => infoData (py! "float" ++ py! " " ++ name) value (py! "float") none
  | _ => .error .typeError

/-- `_write_initial_parameters` (core.py:316-322) -/
def writeInitialParams (u : ULog) : Except PyErr Bytes :=
  concatM (u.initialParams.map fun (k, v) => do
    let d ← paramData k v
    frame MSG_TYPE_PARAMETER d)

/-- `_write_default_parameters` (core.py:324-335) -/
def writeDefaultParams (u : ULog) : Except PyErr Bytes :=
  concatM (u.defaultParams.map fun (bit, dict) =>
    concatM (dict.map fun (k, v) => do
      let m ← packU 1 (1 <<< bit)
      let d ← paramData k v
      frame MSG_TYPE_PARAMETER_DEFAULT (m ++ d)))

/-- one field of a format message (core.py:376-385) -/
def fieldText (f : FieldDef) : Str :=
  if f.arr > 0 then f.type ++ py! "[" ++ intDec f.arr ++ py! "] " ++ f.name ++ py! ";"
  else f.type ++ py! " " ++ f.name ++ py! ";"

/-- `_write_format_messages` (core.py:370-390) -/
def writeFormats (u : ULog) : Except PyErr Bytes :=
  concatM (u.formats.map fun (_, f) =>
    frame MSG_TYPE_FORMAT (encStr (f.name ++ py! ":") ++ f.fields.flatMap (fun x => encStr (fieldText x))))

/-- `sorted(self._data_list, key=lambda x: x.msg_id)` (core.py:393,420) -/
def byMsgId (l : List Dataset) : List Dataset := ssort (fun a b => decide (a.msgId ≤ b.msgId)) l

/-- `_write_logged_message_subscriptions` (core.py:392-403) -/
def writeSubs (u : ULog) : Except PyErr Bytes :=
  concatM ((byMsgId u.dataList).map fun d => do
    let m ← packU 1 d.multiId
    let i ← packU 2 d.msgId
    frame MSG_TYPE_ADD_LOGGED_MSG (m ++ i ++ encStr d.name))

/-- an item of the data section: sort key and message -/
abbrev Item := Int × Bytes

/-- fields of one sample (core.py:430-441) -/
def sampleBytes (d : Dataset) (i : Nat) : Except PyErr Bytes :=
  concatM (d.fields.map fun f =>
    match d.data.get? f.name with
    | none => .error .keyError
    | some col => do
      let v ← pyIndex col i
      packNp f.type v)

/-- one sample (core.py:426-444). The timestamp is the sort key; a floating-point timestamp
column is not modelled. Keys are compared exactly; numpy versions that compare a `uint64` with a
Python `int` through a double are not modelled (this matters above 2^53 only). -/
def sampleItem (d : Dataset) (i : Nat) : Except PyErr Item := do
  match d.data.get? (py! "timestamp") with
  | none => .error .keyError
  | some col =>
    let ts ← pyIndex col i
    let id ← packU 2 d.msgId
    let b ← sampleBytes d i
    let m ← frame MSG_TYPE_DATA (id ++ b)
    match ts with
    | .int t => return (t, m)
    | _ => .error .unmodelled

/-- samples of one data set (core.py:424-444) -/
def datasetItems (d : Dataset) : Except PyErr (List Item) := do
  let f ← pyIndex d.fields 0
  match d.data.get? f.name with
  | none => .error .keyError
  | some col => (List.range col.length).mapM (sampleItem d)

/-- `_make_data_items` (core.py:419-446) -/
def dataItems (u : ULog) : Except PyErr (List Item) := do
  let l ← (byMsgId u.dataList).mapM datasetItems
  return l.flatten

/-- `_make_logged_message_items` (core.py:448-459) -/
def loggedItem (m : LogMsg) : Except PyErr Item := do
  let l ← packU 1 m.level
  let t ← packU 8 m.ts
  let b ← frame MSG_TYPE_LOGGING (l ++ t ++ encStr m.msg)
  return ((m.ts : Int), b)

/-- `_make_tagged_logged_message_items` (core.py:461-473) -/
def taggedItem (m : TagMsg) : Except PyErr Item := do
  let l ← packU 1 m.level
  let g ← packU 2 m.tag
  let t ← packU 8 m.ts
  let b ← frame MSG_TYPE_LOGGING_TAGGED (l ++ g ++ t ++ encStr m.msg)
  return ((m.ts : Int), b)

/-- `_make_dropout_items` (core.py:475-485) -/
def dropoutItem (d : Dropout) : Except PyErr Item := do
  let n ← packU 2 d.duration
  let b ← frame MSG_TYPE_DROPOUT n
  return ((d.ts : Int), b)

/-- `_make_changed_param_items` (core.py:487-495) -/
def changedItem (p : Nat × Str × Value) : Except PyErr Item := do
  let d ← paramData p.2.1 p.2.2
  let b ← frame MSG_TYPE_PARAMETER d
  return ((p.1 : Int), b)

/-- all items of the data section before sorting (core.py:405-411) -/
def allItems (u : ULog) : Except PyErr (List Item) := do
  let a ← dataItems u
  let b ← u.logged.mapM loggedItem
  let c ← (u.tagged.vals.flatten).mapM taggedItem
  let d ← u.dropouts.mapM dropoutItem
  let e ← u.changedParams.mapM changedItem
  return a ++ b ++ c ++ d ++ e

/-- `items.sort(key=lambda x: x[0])` (core.py:414) -/
def sortItems (l : List Item) : List Item := ssort (fun a b => decide (a.1 ≤ b.1)) l

/-- `_write_data_section` (core.py:405-417) -/
def writeDataSection (u : ULog) : Except PyErr Bytes := do
  let items ← allItems u
  return (sortItems items).flatMap (·.2)

/-- `write_ulog` (core.py:240-259) -/
def writeUlog (u : ULog) : Except PyErr Bytes :=
  concatM [writeHeader u, writeFlags u, writeFormats u, writeInfos u, writeInfoMulti u,
    writeInitialParams u, writeDefaultParams u, writeSubs u, writeDataSection u]

end PyULog
