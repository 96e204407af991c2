import Verif.Model.Parse
/-
Reading a file: `_load_file`, `_read_file_header`, `_read_file_definitions`,
`_read_file_data`, `_find_sync`, `_check_packet_corruption`.
-/
namespace PyULog

/-- `haystack.find(pat)` of `bytes` and `str` -/
def findSub [DecidableEq α] (pat : List α) : List α → Option Nat
  | [] => if pat = [] then some 0 else none
  | x :: xs => if pat.isPrefixOf (x :: xs) then some 0 else (findSub pat xs).map (· + 1)

/-- `message_name_filter_list`: `None`, a list of names, or (as `extract_message` passes it,
extract_message.py:26) a single `str`, for which `in` is the substring test. -/
inductive NameFilter where
  | all
  | names (l : List Str)
  | substr (s : Str)
  deriving DecidableEq, Repr

/-- `message_name_filter_list is None or name in message_name_filter_list` (core.py:1074-1075) -/
def NameFilter.accepts : NameFilter → Str → Bool
  | .all, _ => true
  | .names l, n => decide (n ∈ l)
  | .substr s, n => (findSub n s).isSome

/-- Arguments of the constructor (core.py:95-104), plus the recursion depth available to
`_parse_nested_type` (Python's recursion limit). -/
structure Cfg where
  filter : NameFilter := .all
  ign : Bool := true
  headerOnly : Bool := false
  depth : Nat := 900
  deriving DecidableEq, Repr

/-! ### file access: the file is a byte string and a position -/

/-- `file.read(n)` at position `pos` -/
def readAt (bs : Bytes) (pos n : Nat) : Bytes := (bs.drop pos).take n

/-- outcome of processing a message: the object may have been mutated before an exception -/
inductive Out where
  | ok (u : ULog)
  | err (e : PyErr) (u : ULog)
  deriving DecidableEq, Repr

/-- run a parser, then update the object -/
def Out.bind (r : Except PyErr α) (u : ULog) (f : α → ULog) : Out :=
  match r with
  | .ok a => .ok (f a)
  | .error e => .err e u

/-! ### object updates -/

/-- `_add_message_info_multiple` (core.py:840-849) -/
def addInfoMulti (u : ULog) (m : InfoMsg) : ULog :=
  match u.infoMulti.get? m.key with
  | some lists =>
    if m.cont ≠ 0 then
      { u with
        infoMulti := u.infoMulti.set m.key
          (lists.dropLast ++ [(lists.getLast?.getD []) ++ [m.value]]) }
    else { u with infoMulti := u.infoMulti.set m.key (lists ++ [[m.value]]) }
  | none =>
    { u with
      infoMulti := u.infoMulti.set m.key [[m.value]]
      infoMultiTypes := u.infoMultiTypes.set m.key m.type }

/-- loop of `_add_parameter_default` (core.py:831-838); at most 8 iterations since the mask is
a byte and every iteration clears one bit. On a byte, Python's unbounded `x & (~x+1)` is the
8-bit expression. -/
def addDefaultLoop (key : Str) (value : Value) :
    Nat → BitVec 8 → Dict Nat (Dict Str Value) → Dict Nat (Dict Str Value)
  | 0, _, d => d
  | fuel + 1, types, d =>
    if types = 0 then d
    else
      let low := types &&& (~~~types + 1)
      let types' := types ^^^ low
      let defType := low.toNat - 1
      let d := if d.has defType then d else d.set defType []
      let d := d.set defType (((d.get? defType).getD []).set key value)
      addDefaultLoop key value fuel types' d

/-- `_add_parameter_default` (core.py:829-838) -/
def addParamDefault (u : ULog) (p : Nat × InfoMsg) : ULog :=
  { u with defaultParams := addDefaultLoop p.2.key p.2.value 8 (BitVec.ofNat 8 p.1) u.defaultParams }

/-- info message (core.py:907-909, 1058-1060) -/
def addInfo (u : ULog) (m : InfoMsg) : ULog :=
  { u with info := u.info.set m.key m.value, infoTypes := u.infoTypes.set m.key m.type }

/-- subscription (core.py:1074-1078) -/
def addSub (f : NameFilter) (u : ULog) (s : Sub) : ULog :=
  if f.accepts s.name then { u with subs := u.subs.set s.msgId s }
  else { u with filteredIds := setAdd u.filteredIds s.msgId }

/-- tagged message (core.py:1083-1087) -/
def addTagged (u : ULog) (m : TagMsg) : ULog :=
  { u with tagged := u.tagged.set m.tag ((u.tagged.get? m.tag).getD [] ++ [m]) }

/-- data message: `_MessageData.initialize` (core.py:796-827) and its caller (core.py:1088-1094).
The buffer is extended before the timestamp is unpacked, so the state at a `struct.error` already
contains the sample. -/
def addData (u : ULog) (data : Bytes) : Out :=
  match unpackU 2 (data.take 2) with
  | .error e => .err e u
  | .ok msgId =>
    match u.subs.get? msgId with
    | some s =>
      let minSize := s.itemSize
      let dataSize := data.length - 2
      if dataSize < minSize ∨ dataSize > s.maxSize then .ok { u with fileCorrupt := true }
      else
        let data := if dataSize > minSize then data.take (2 + minSize) else data
        let u := { u with subs := u.subs.set msgId { s with buffer := s.buffer ++ data.drop 2 } }
        match unpackU 8 (slice (s.tsOff + 2) (s.tsOff + 10) data) with
        | .error e => .err e u
        | .ok ts => .ok (if ts > u.lastTs then { u with lastTs := ts } else u)
    | none =>
      if msgId ∈ u.filteredIds then .ok u
      else .ok { u with missingIds := setAdd u.missingIds msgId, fileCorrupt := true }

/-- The `if/elif` chain over the known message types of the data section (core.py:1057-1100);
`none` = the final `else` (unknown message type). -/
def handleData (cfg : Cfg) (u : ULog) (ty : Nat) (data : Bytes) : Option Out :=
  if ty = MSG_TYPE_INFO then some (Out.bind (parseInfo cfg.ign data) u (addInfo u))
  else if ty = MSG_TYPE_INFO_MULTIPLE then
    some (Out.bind (parseInfoMulti cfg.ign data) u (addInfoMulti u))
  else if ty = MSG_TYPE_PARAMETER then
    some (Out.bind (parseInfo cfg.ign data) u fun m =>
      { u with changedParams := u.changedParams ++ [(u.lastTs, m.key, m.value)] })
  else if ty = MSG_TYPE_PARAMETER_DEFAULT then
    some (Out.bind (parseParamDefault cfg.ign data) u (addParamDefault u))
  else if ty = MSG_TYPE_ADD_LOGGED_MSG then
    some (Out.bind (parseAddLogged cfg.ign u.formats cfg.depth data) u (addSub cfg.filter u))
  else if ty = MSG_TYPE_LOGGING then
    some (Out.bind (parseLogging cfg.ign data) u fun m => { u with logged := u.logged ++ [m] })
  else if ty = MSG_TYPE_LOGGING_TAGGED then
    some (Out.bind (parseLoggingTagged cfg.ign data) u (addTagged u))
  else if ty = MSG_TYPE_DATA then some (addData u data)
  else if ty = MSG_TYPE_DROPOUT then
    some (Out.bind (parseDropout data u.lastTs) u fun d => { u with dropouts := u.dropouts ++ [d] })
  else if ty = MSG_TYPE_SYNC then some (.ok { u with syncCnt := u.syncCnt + 1 })
  else none

/-! ### sync search -/

/-- chunk size of the forward search (core.py:980) -/
def SEARCH_CHUNK : Nat := 512

/-- forward search of `_find_sync` (core.py:986-1005): read 512-byte chunks that overlap by 7
bytes; result: position just after the sync sequence. -/
def findSyncFwd (bs : Bytes) : Nat → Nat → Option Nat
  | 0, _ => none
  | fuel + 1, p =>
    let chunk := readAt bs p SEARCH_CHUNK
    if chunk.length < SYNC_BYTES.length then none
    else match findSub SYNC_BYTES chunk with
      | some i => some (p + i + SYNC_BYTES.length)
      | none => findSyncFwd bs fuel (p + chunk.length - (SYNC_BYTES.length - 1))

/-- search in the last `n` bytes before `pos` (core.py:982-1001) -/
def findSyncBack (bs : Bytes) (pos n : Nat) : Option Nat :=
  let p := pos - n
  let chunk := readAt bs p n
  if chunk.length < SYNC_BYTES.length then none
  else (findSub SYNC_BYTES chunk).map fun i => p + i + SYNC_BYTES.length

/-! ### data section -/

/-- reader state: `self._file_handle.tell()`, the local `curr_file_pos`, the object -/
structure RS where
  pos : Nat
  cur : Nat
  u : ULog
  deriving DecidableEq, Repr

/-- `_check_packet_corruption` (core.py:1138-1154) -/
def packetCorrupt (ty size : Nat) : Bool := ty = 0 || size = 0 || decide (size > 10000)

/-- final `else` of the data section (core.py:1101-1119), entered with the whole message read:
`s.pos` is just after the message. `curr_file_pos` is not updated by `_find_sync`. -/
def handleUnknown (bs : Bytes) (ty size : Nat) (s : RS) : RS :=
  if packetCorrupt ty size then
    let p := s.pos - 2 - size
    let u := { s.u with fileCorrupt := true }
    if u.hasSync then
      match findSyncFwd bs (bs.length + 1) p with
      | some q => { pos := q, cur := p, u := u }
      | none => { pos := p, cur := p, u := { u with hasSync := false } }
    else { pos := p, cur := p, u := u }
  else if s.u.hasSync then
    match findSyncBack bs s.pos size with
    | some q => { s with pos := q, u := { s.u with fileCorrupt := true } }
    | none => s
  else s

/-- result of one iteration -/
inductive Step where
  | cont (s : RS)
  | stop (s : RS)
  | raise (e : PyErr)
  deriving DecidableEq, Repr

/-- one iteration of the `while True` loop of `_read_file_data` (core.py:1041-1127): `IndexError`
marks the file corrupt and continues, `struct.error` ends the loop silently, every other
exception leaves the constructor. -/
def dataStep (cfg : Cfg) (bs : Bytes) (readUntil : Nat) (s : RS) : Step :=
  let hdr := readAt bs s.pos 3
  if hdr.length ≠ 3 then .stop { s with pos := s.pos + hdr.length, cur := s.cur + hdr.length }
  else
    let size := leNat (hdr.take 2)
    let ty := leNat (hdr.drop 2)
    let data := readAt bs (s.pos + 3) size
    let s' : RS := { s with pos := s.pos + 3 + data.length, cur := s.cur + 3 + data.length }
    if data.length < size then .stop s'
    else if s'.cur > readUntil then .stop s'
    else match handleData cfg s.u ty data with
      | some (.ok u) => .cont { s' with u := u }
      | some (.err .indexError u) => .cont { s' with u := { u with fileCorrupt := true } }
      | some (.err .structError u) => .stop { s' with u := u }
      | some (.err e _) => .raise e
      | none => .cont (handleUnknown bs ty size s')

/-- result of a loop; `outOfFuel` = still running after `fuel` iterations -/
inductive LoopRes where
  | done (s : RS)
  | raised (e : PyErr)
  | outOfFuel
  deriving DecidableEq, Repr

/-- the loop of `_read_file_data` -/
def dataLoop (cfg : Cfg) (bs : Bytes) (readUntil : Nat) : Nat → RS → LoopRes
  | 0, _ => .outOfFuel
  | fuel + 1, s =>
    match dataStep cfg bs readUntil s with
    | .cont s' => dataLoop cfg bs readUntil fuel s'
    | .stop s' => .done s'
    | .raise e => .raised e

/-- order of `data_list` (core.py:1136) -/
def dsLe (a b : Dataset) : Bool :=
  if a.name = b.name then decide (a.multiId ≤ b.multiId) else strLe a.name b.name

/-- conversion of the subscriptions into datasets (core.py:1130-1136): `popitem` takes the last
inserted item. -/
def finalize (u : ULog) : Except PyErr ULog := do
  let new ← ((u.subs.reverse.filter (fun p => p.2.buffer.length > 0)).mapM fun p => mkData p.2)
  return { u with subs := [], dataList := ssort dsLe (u.dataList ++ new) }

/-- result of loading -/
inductive LoadRes where
  | ok (u : ULog)
  | raised (e : PyErr)
  | outOfFuel
  deriving DecidableEq, Repr

/-- an exception leaves the constructor -/
def LoadRes.ofExcept : Except PyErr ULog → LoadRes
  | .ok u => .ok u
  | .error e => .raised e

/-- `_read_file_data` (core.py:1024-1136) from position `pos`. `C02_data_section_terminates` proves
that the fuel `bs.length + 1` is never exhausted. -/
def readData (cfg : Cfg) (bs : Bytes) (readUntil : Nat) (pos : Nat) (u : ULog) : LoadRes :=
  match dataLoop cfg bs readUntil (bs.length + 1) { pos := pos, cur := pos, u := u } with
  | .done s => .ofExcept (finalize s.u)
  | .raised e => .raised e
  | .outOfFuel => .outOfFuel

/-! ### definition section -/

/-- flag bits message (core.py:926-947) -/
def applyFlagBits (u : ULog) (f : List Nat × List Nat × List Nat) : Out :=
  let u := { u with compat := f.1, incompat := f.2.1, appendedOffsets := f.2.2 }
  if (u.incompat.getD 0 0) / 2 ≠ 0 then .err .valueError u
  else if (u.incompat.drop 1).any (· ≠ 0) then .err .notImplemented u
  else .ok u

/-- The message types of the definition section that are processed in place
(core.py:906-921, 926-947); `none` = end of section types and unknown types. -/
def handleDef (cfg : Cfg) (u : ULog) (ty : Nat) (data : Bytes) : Option Out :=
  if ty = MSG_TYPE_INFO then some (Out.bind (parseInfo cfg.ign data) u (addInfo u))
  else if ty = MSG_TYPE_INFO_MULTIPLE then
    some (Out.bind (parseInfoMulti cfg.ign data) u (addInfoMulti u))
  else if ty = MSG_TYPE_FORMAT then
    some (Out.bind (parseFormat cfg.ign data) u fun f =>
      { u with formats := u.formats.set f.name f })
  else if ty = MSG_TYPE_PARAMETER then
    some (Out.bind (parseInfo cfg.ign data) u fun m =>
      { u with initialParams := u.initialParams.set m.key m.value })
  else if ty = MSG_TYPE_PARAMETER_DEFAULT then
    some (Out.bind (parseParamDefault cfg.ign data) u (addParamDefault u))
  else if ty = MSG_TYPE_FLAG_BITS then
    some (match parseFlagBits data with
      | .ok f => applyFlagBits u f
      | .error e => .err e u)
  else none

/-- message types that end the definition section (core.py:922-923) -/
def endsDefs (ty : Nat) : Bool :=
  ty = MSG_TYPE_ADD_LOGGED_MSG || ty = MSG_TYPE_LOGGING || ty = MSG_TYPE_LOGGING_TAGGED

/-- `file.seek(-n, 1)` at position `pos` on a file opened with `open(name, 'rb')`: a negative
target raises `OSError`. (For a `BytesIO` the target would be clamped to 0.) -/
def seekBack (pos n : Nat) : Except PyErr Nat :=
  if n ≤ pos then .ok (pos - n) else .error .osError

/-- one iteration of the loop of `_read_file_definitions` (core.py:899-964). The payload may be
shorter than announced: the length is not checked here. -/
def defStep (cfg : Cfg) (bs : Bytes) (s : RS) : Step :=
  let hdr := readAt bs s.pos 3
  if hdr.length = 0 then .stop s
  else if hdr.length ≠ 3 then .raise .structError
  else
    let size := leNat (hdr.take 2)
    let ty := leNat (hdr.drop 2)
    let data := readAt bs (s.pos + 3) size
    let s' : RS := { s with pos := s.pos + 3 + data.length }
    match handleDef cfg s.u ty data with
    | some (.ok u) => .cont { s' with u := u }
    | some (.err .indexError u) => .cont { s' with u := { u with fileCorrupt := true } }
    | some (.err e _) => .raise e
    | none =>
      if endsDefs ty then
        match seekBack s'.pos (3 + size) with
        | .ok p => .stop { s' with pos := p }
        | .error e => .raise e
      else if packetCorrupt ty size then
        match seekBack s'.pos (2 + size) with
        | .ok p => .cont { s' with pos := p, u := { s'.u with fileCorrupt := true } }
        | .error e => .raise e
      else .cont s'

/-- the loop of `_read_file_definitions` -/
def defLoop (cfg : Cfg) (bs : Bytes) : Nat → RS → LoopRes
  | 0, _ => .outOfFuel
  | fuel + 1, s =>
    match defStep cfg bs s with
    | .cont s' => defLoop cfg bs fuel s'
    | .stop s' => .done s'
    | .raise e => .raised e

/-! ### the whole file -/

/-- `_read_file_header` (core.py:884-895) and `self._last_timestamp = self._start_timestamp`
(core.py:860). The version warning is not modelled. -/
def readHeader (bs : Bytes) : Except PyErr ULog :=
  let h := readAt bs 0 16
  if h.length ≠ 16 then .error .typeError
  else if slice 0 7 h ≠ HEADER_BYTES then .error .typeError
  else
    let ts := leNat (h.drop 8)
    .ok { fileVersion := leNat (slice 7 8 h), startTs := ts, lastTs := ts }

/-- `read_until` when not given (core.py:1032) -/
def NO_LIMIT : Nat := 2 ^ 50

/-- the sections of a file with appended data (core.py:874-879): parse up to each offset, then
continue at the offset; `seek` of a file opened with `open(name, 'rb')` to a position beyond the range of
`off_t` raises `ValueError` (bufferedio.c; a `BytesIO` would raise `OverflowError`). Limits of the file
system below that range are not modelled. -/
def readSections (cfg : Cfg) (bs : Bytes) : List Nat → Nat → ULog → LoadRes
  | [], pos, u => readData cfg bs NO_LIMIT pos u
  | off :: offs, pos, u =>
    match readData cfg bs off pos u with
    | .ok u =>
      if off ≥ 2 ^ 63 then .raised .valueError
      else readSections cfg bs offs off u
    | r => r

/-- `has_data_appended` (core.py:209-212) -/
def hasDataAppended (u : ULog) : Bool := (u.incompat.getD 0 0) % 2 = 1

/-- `ULog(log_file, ...)`: `_load_file` (core.py:851-882) on a file object at position 0.
`fuel` bounds the number of iterations in the definition section. -/
def load (fuel : Nat) (cfg : Cfg) (bs : Bytes) : LoadRes :=
  match readHeader bs with
  | .error e => .raised e
  | .ok u =>
    match defLoop cfg bs fuel { pos := 16, cur := 16, u := u } with
    | .raised e => .raised e
    | .outOfFuel => .outOfFuel
    | .done s =>
      if cfg.headerOnly then .ok s.u
      else
        readSections cfg bs
          (if hasDataAppended s.u then s.u.appendedOffsets else []) s.pos s.u

end PyULog
