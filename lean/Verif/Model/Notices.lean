import Verif.Model.Read
/-
What the reader prints while it loads a file: warnings about the file, in the order in which they are printed. The
functions follow `load` and its parts.
-/
namespace PyULog

/-- a line that the reader prints -/
inductive Notice where
  /-- unknown file version (core.py:892) -/
  | version
  /-- flag bits that are not the first message (core.py:929-930) -/
  | flagsLate (offset : Nat)
  /-- flag bits with more bytes than expected (core.py:611) -/
  | flagsLong
  /-- a data message without subscription (core.py:823-824) -/
  | noSub (id : Nat)
  /-- core.py:963 -/
  | badDefs
  /-- core.py:1122 -/
  | badData
  deriving DecidableEq, Repr

/-- the text of the line -/
def Notice.line : Notice → Str
  | .version => py! "Warning: unknown file version. Will attempt to read it anyway"
  | .flagsLate n => py! "Error: FLAGS_BITS message must be first message. Offset: " ++ natDec n
  | .flagsLong => py! "Warning: Flags Bit message is longer than expected"
  | .noSub id => py! "Warning: no subscription found for message id " ++ natDec id ++
      py! ". Continuing, but file is most likely corrupt"
  | .badDefs => py! "File corruption detected while reading file definitions!"
  | .badData => py! "File corruption detected while reading file data!"

/-- `_read_file_header` (core.py:884-895) -/
def headerNotices (bs : Bytes) : List Notice :=
  match readHeader bs with
  | .error _ => []
  | .ok u => if u.fileVersion > 1 then [.version] else []

/-- the handler of `IndexError` (core.py:961-964, 1120-1124): printed unless the file is known to be corrupt -/
def corruptNotice (n : Notice) (o : Option Out) : List Notice :=
  match o with
  | some (.err .indexError u) => if u.fileCorrupt then [] else [n]
  | _ => []

/-- the flag bits (core.py:926-930, 609-611): `pos` is the position after the message -/
def flagNotices (pos size : Nat) : List Notice :=
  (if pos ≠ 16 + 3 + size then [.flagsLate pos] else []) ++ (if size > 8 + 8 + 3 * 8 then [.flagsLong] else [])

/-- one iteration of the loop of `_read_file_definitions` (core.py:899-964) -/
def defNotices (cfg : Cfg) (bs : Bytes) (s : RS) : List Notice :=
  let hdr := readAt bs s.pos 3
  if hdr.length ≠ 3 then []
  else
    let size := leNat (hdr.take 2)
    let ty := leNat (hdr.drop 2)
    let data := readAt bs (s.pos + 3) size
    (if ty = MSG_TYPE_FLAG_BITS then flagNotices (s.pos + 3 + data.length) size else []) ++
      corruptNotice .badDefs (handleDef cfg s.u ty data)

/-- the loop of `_read_file_definitions` -/
def defLoopNotices (cfg : Cfg) (bs : Bytes) : Nat → RS → List Notice
  | 0, _ => []
  | fuel + 1, s =>
    defNotices cfg bs s ++ match defStep cfg bs s with
      | .cont s' => defLoopNotices cfg bs fuel s'
      | _ => []

/-- `_MessageData.initialize` (core.py:815-824): a missing id is reported once -/
def sampleNotices (u : ULog) (data : Bytes) : List Notice :=
  match unpackU 2 (data.take 2) with
  | .error _ => []
  | .ok id =>
    if u.subs.has id then []
    else if id ∈ u.filteredIds then []
    else if id ∈ u.missingIds then []
    else [.noSub id]

/-- one iteration of the loop of `_read_file_data` (core.py:1041-1124) -/
def dataNotices (cfg : Cfg) (bs : Bytes) (readUntil : Nat) (s : RS) : List Notice :=
  let hdr := readAt bs s.pos 3
  if hdr.length ≠ 3 then []
  else
    let size := leNat (hdr.take 2)
    let ty := leNat (hdr.drop 2)
    let data := readAt bs (s.pos + 3) size
    if data.length < size then []
    else if s.cur + 3 + data.length > readUntil then []
    else (if ty = MSG_TYPE_DATA then sampleNotices s.u data else []) ++
      corruptNotice .badData (handleData cfg s.u ty data)

/-- the loop of `_read_file_data` -/
def dataLoopNotices (cfg : Cfg) (bs : Bytes) (readUntil : Nat) : Nat → RS → List Notice
  | 0, _ => []
  | fuel + 1, s =>
    dataNotices cfg bs readUntil s ++ match dataStep cfg bs readUntil s with
      | .cont s' => dataLoopNotices cfg bs readUntil fuel s'
      | _ => []

/-- the sections of a file (core.py:874-879) -/
def sectionsNotices (cfg : Cfg) (bs : Bytes) : List Nat → Nat → ULog → List Notice
  | [], pos, u => dataLoopNotices cfg bs NO_LIMIT (bs.length + 1) { pos := pos, cur := pos, u := u }
  | off :: offs, pos, u =>
    dataLoopNotices cfg bs off (bs.length + 1) { pos := pos, cur := pos, u := u } ++
      match readData cfg bs off pos u with
      | .ok u => if off ≥ 2 ^ 63 then [] else sectionsNotices cfg bs offs off u
      | _ => []

/-- `_load_file` (core.py:851-882) -/
def loadNotices (fuel : Nat) (cfg : Cfg) (bs : Bytes) : List Notice :=
  headerNotices bs ++
    match readHeader bs with
    | .error _ => []
    | .ok u =>
      defLoopNotices cfg bs fuel { pos := 16, cur := 16, u := u } ++
        match defLoop cfg bs fuel { pos := 16, cur := 16, u := u } with
        | .done s =>
          if cfg.headerOnly then []
          else sectionsNotices cfg bs (if hasDataAppended s.u then s.u.appendedOffsets else []) s.pos s.u
        | _ => []

end PyULog
