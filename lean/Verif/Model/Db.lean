import Verif.Model.Read
import Verif.Model.Write
import Verif.Model.Api
/-
`DatabaseULog` (db.py): storing logs in and loading them from a SQLite database of schema version 5.

Of SQLite this file models: tables as lists of rows in rowid order, `INTEGER PRIMARY KEY AUTOINCREMENT`
(ids are never reused), `UNIQUE`, foreign keys with `ON DELETE CASCADE` (pyulog.2.sql), the binding of
Python values (`OverflowError` for integers that do not fit in 64 bits, NaN becomes NULL, `bool`
becomes an integer), the TEXT affinity of `ULogMessageInfoMultipleListElement.Value`, `ORDER BY`, and
transactions: `with connection:` commits, or rolls back when an exception leaves the block. A `SELECT`
without `ORDER BY` gives the rows in rowid order. Not modelled: other connections writing at the same
time, limits on sizes and numbers of rows.
-/
namespace PyULog

/-! ### values -/

/-- storage classes of SQLite; `real` holds the binary64 bit pattern -/
inductive SqlVal where
  | null
  | int (n : Int)
  | real (bits : Nat)
  | text (s : Str)
  | blob (b : Bytes)
  deriving DecidableEq, Repr

/-- a Python value that may be `None` (which only a database can give) -/
abbrev DVal := Option Value

/-- binding of an `int` -/
def bindInt (n : Int) : Except PyErr Int :=
  if -(2 : Int) ^ 63 ≤ n ∧ n < (2 : Int) ^ 63 then .ok n else .error .overflowError

/-- binding of a non-negative `int` -/
def bindNat (n : Nat) : Except PyErr Nat := if n < 2 ^ 63 then .ok n else .error .overflowError

/-- binding of a value to a column without affinity (`Value BLOB`) -/
def bindVal : DVal → Except PyErr SqlVal
  | none => .ok .null
  | some (.str s) => .ok (.text s)
  | some (.bytes b) => .ok (.blob b)
  | some (.int n) => (bindInt n).map .int
  | some (.float x) => .ok (if isNan64 x then .null else .real x)
  | some (.bool b) => .ok (.int (boolInt b))

/-- the decimal text that SQLite makes of a binary64 number; it depends on the version of SQLite, nothing is
assumed about it -/
opaque realText (bits : Nat) : Str

/-- binding of a value to a column with TEXT affinity: numbers become text -/
def bindText (v : DVal) : Except PyErr SqlVal := do
  match ← bindVal v with
  | .int n => return .text (intDec n)
  | .real x => return .text (realText x)
  | s => return s

/-- a column value as Python object -/
def pyVal : SqlVal → DVal
  | .null => none
  | .int n => some (.int n)
  | .real x => some (.float x)
  | .text s => some (.str s)
  | .blob b => some (.bytes b)

/-- `''.join([chr(n) for n in flags])` (db.py:522-523); a surrogate cannot be bound -/
def chrStr (flags : List Nat) : Except PyErr Str :=
  flags.mapM fun n =>
    if n.isValidChar then .ok (Char.ofNat n)
    else if n < 0x110000 then .error .unicodeError else .error .valueError

/-- `values.tobytes()` of one element -/
def npEncode (t : BT) (v : NpVal) : Except PyErr Bytes :=
  match t, v with
  | .f32, .f32 x => .ok (leEnc 4 x)
  | .f64, .f64 x => .ok (leEnc 8 x)
  | .f32, _ => .error .unmodelled
  | .f64, _ => .error .unmodelled
  | t, .int n => .ok (leEnc t.size (ofSigned t.size n))
  | _, _ => .error .unmodelled

/-- `values.tobytes()` -/
def npBytes (t : BT) (vs : List NpVal) : Except PyErr Bytes := (vs.mapM (npEncode t)).map List.flatten

/-- elements of size `n`; the fuel is the length -/
def chunks (n : Nat) : Nat → Bytes → List Bytes
  | 0, _ => []
  | f + 1, b => if b = [] then [] else b.take n :: chunks n f (b.drop n)

/-- `np.frombuffer(value_bytes, dtype=dtype)` (db.py:469) -/
def npRead (t : BT) (b : Bytes) : Except PyErr (List NpVal) :=
  if b.length % t.size = 0 then .ok ((chunks t.size b.length b).map (npDecode t)) else .error .valueError

/-! ### tables -/

/-- table ULog without the id -/
structure MetaRow where
  fileVersion : Nat
  startTs : Nat
  lastTs : Nat
  compat : Str
  incompat : Str
  syncCnt : Nat
  hasSync : Bool
  sha : Str
  deriving DecidableEq, Repr

/-- table ULogDataset without the ids -/
structure DsRow where
  name : Str
  multiId : Nat
  msgId : Nat
  tsIdx : Int
  deriving DecidableEq, Repr

/-- table ULogField without the ids. `ValueJson` is kept as the dictionary from which its text is made. -/
structure FieldRow where
  name : Str
  type : Str
  data : Bytes
  json : Option (Dict Int NpVal)
  deriving DecidableEq, Repr

/-- the database. Rows of the tables with a foreign key begin with it; rows of the tables whose id is
used begin with the id. The `Seq` fields are the AUTOINCREMENT counters. -/
structure DB where
  version : Int := 5
  ulog : List (Nat × MetaRow) := []
  ulogSeq : Nat := 0
  offsets : List (Nat × Nat × Nat) := []
  datasets : List (Nat × Nat × DsRow) := []
  datasetSeq : Nat := 0
  fields : List (Nat × FieldRow) := []
  dropouts : List (Nat × Dropout) := []
  logging : List (Nat × LogMsg) := []
  tagged : List (Nat × TagMsg) := []
  formats : List (Nat × Nat × Str) := []
  formatSeq : Nat := 0
  formatFields : List (Nat × FieldDef) := []
  info : List (Nat × Str × Str × SqlVal) := []
  multi : List (Nat × Nat × Str × Str) := []
  multiSeq : Nat := 0
  multiLists : List (Nat × Nat × Nat) := []
  multiListSeq : Nat := 0
  multiElems : List (Nat × Nat × SqlVal) := []
  initial : List (Nat × Str × SqlVal) := []
  defaults : List (Nat × Nat × Str × SqlVal) := []
  changed : List (Nat × Nat × Str × SqlVal) := []
  deriving DecidableEq, Repr

/-- `WHERE <foreign key> = k` -/
def owned (k : Nat) (t : List (Nat × α)) : List α := t.filterMap fun p => if p.1 = k then some p.2 else none

/-! ### the object -/

/-- The attributes of a `ULog` (core.py:106-133) whose values may be `None`. -/
structure DbLog where
  fileCorrupt : Bool := false
  startTs : Nat := 0
  lastTs : Nat := 0
  info : Dict Str DVal := []
  infoTypes : Dict Str Str := []
  infoMulti : Dict Str (List (List DVal)) := []
  infoMultiTypes : Dict Str Str := []
  initialParams : Dict Str DVal := []
  defaultParams : Dict Nat (Dict Str DVal) := []
  changedParams : List (Nat × Str × DVal) := []
  formats : Dict Str MsgFormat := []
  logged : List LogMsg := []
  tagged : Dict Nat (List TagMsg) := []
  dropouts : List Dropout := []
  dataList : List Dataset := []
  filteredIds : List Nat := []
  missingIds : List Nat := []
  fileVersion : Nat := 0
  compat : List Nat := List.replicate 8 0
  incompat : List Nat := List.replicate 8 0
  appendedOffsets : List Nat := []
  hasSync : Bool := true
  syncCnt : Nat := 0
  deriving DecidableEq, Repr

/-- values of a dictionary -/
def Dict.mapVals (f : α → β) (d : Dict κ α) : Dict κ β := d.map fun p => (p.1, f p.2)

/-- a log read from a file -/
def DbLog.ofULog (u : ULog) : DbLog where
  fileCorrupt := u.fileCorrupt
  startTs := u.startTs
  lastTs := u.lastTs
  info := u.info.mapVals some
  infoTypes := u.infoTypes
  infoMulti := u.infoMulti.mapVals (List.map (List.map some))
  infoMultiTypes := u.infoMultiTypes
  initialParams := u.initialParams.mapVals some
  defaultParams := u.defaultParams.mapVals (Dict.mapVals some)
  changedParams := u.changedParams.map fun p => (p.1, p.2.1, some p.2.2)
  formats := u.formats
  logged := u.logged
  tagged := u.tagged
  dropouts := u.dropouts
  dataList := u.dataList
  filteredIds := u.filteredIds
  missingIds := u.missingIds
  fileVersion := u.fileVersion
  compat := u.compat
  incompat := u.incompat
  appendedOffsets := u.appendedOffsets
  hasSync := u.hasSync
  syncCnt := u.syncCnt

/-- a `DatabaseULog` (db.py:171-176). `_db` is the database passed to each function. -/
structure DbObj where
  pk : Option Nat
  sha : Str
  lazyLoaded : Bool
  log : DbLog
  deriving DecidableEq, Repr

/-! ### digest -/

/-- the loop of `calc_sha256sum` (db.py:123-130): the bytes fed to the hash; `none` when the fuel does
not suffice -/
def shaLoop : Nat → Bytes → Bytes → Option Bytes
  | 0, _, _ => none
  | fuel + 1, rest, acc =>
    let block := rest.take 4096
    let acc := acc ++ block
    if block = [] then some acc else shaLoop fuel (rest.drop 4096) acc

/-- the `log_file` argument: a file name, an open file at a position, or a closed file object -/
inductive FileArg where
  | name (content : Bytes)
  | opened (content : Bytes) (pos : Nat)
  | closed (content : Bytes)

/-- `calc_sha256sum` (db.py:109-130) for the hash function `H` -/
def calcSha (H : Bytes → Str) : FileArg → Option Str
  | .name c => (shaLoop (c.length + 2) c []).map H
  | .closed c => (shaLoop (c.length + 2) c []).map H
  | .opened c pos => (shaLoop (c.length + 2) (c.drop pos) []).map H

/-- what `ULog.__init__` reads from the argument after the digest has been computed (core.py:853-858):
an open file is at its end then (db.py:120-130), reading a closed one raises `ValueError` -/
def loadArg (fuel : Nat) (cfg : Cfg) : FileArg → LoadRes
  | .name c => load fuel cfg c
  | .opened _ _ => load fuel cfg []
  | .closed _ => .raised .valueError

/-! ### queries -/

/-- `exists_in_db` (db.py:71-87) -/
def existsInDb (db : DB) (pk : Nat) : Bool := decide ((db.ulog.filter fun p => p.1 = pk).length = 1)

/-- `primary_key_from_sha256sum` (db.py:90-106) -/
def pkFromSha (db : DB) (sha : Str) : Option Nat := (db.ulog.find? fun p => p.2.sha = sha).map (·.1)

/-- order by dataset name and multi id (db.py:266); the binary comparison of UTF-8 texts is the
comparison of code points -/
def dsRowLe (a b : DsRow) : Bool :=
  if a.name = b.name then decide (a.multiId ≤ b.multiId) else strLe a.name b.name

/-- the part of `get_dataset` that reads the database (db.py:446-469) -/
def readDataset (db : DB) (pk : Option Nat) (name : Str) (multi : Nat) (lazy : Bool) :
    Except PyErr Dataset := do
  match db.datasets.find? fun p => some p.2.1 = pk && p.2.2.name = name && p.2.2.multiId = multi with
  | none => .error .keyError
  | some (id, _, row) =>
    if lazy then
      return { multiId := multi, msgId := row.msgId, name := name, fields := [], tsIdx := row.tsIdx, data := [] }
    else
      let cols ← (owned id db.fields).mapM fun f =>
        match BT.ofName f.type with
        | none => .error .keyError
        | some t => do return (({ name := f.name, type := t } : FieldData), ← npRead t f.data)
      return { multiId := multi, msgId := row.msgId, name := name, fields := cols.map (·.1), tsIdx := row.tsIdx,
               data := cols.foldl (fun d c => d.set c.1.name c.2) [] }

/-- rows of the messages with tags (db.py:312-322) -/
def addTaggedRow (d : Dict Nat (List TagMsg)) (m : TagMsg) : Dict Nat (List TagMsg) :=
  d.set m.tag ((d.get? m.tag).getD [] ++ [m])

/-- one row of the join of formats and fields (db.py:334-343) -/
def addFormatRow (d : Dict Str MsgFormat) (r : Str × FieldDef) : Dict Str MsgFormat :=
  match d.get? r.1 with
  | some f => d.set r.1 { f with fields := f.fields ++ [r.2] }
  | none => d.set r.1 { name := r.1, fields := [r.2] }

/-- the join of formats and fields (db.py:325-333) -/
def formatRows (db : DB) (pk : Nat) : List (Str × FieldDef) :=
  (db.formats.filter fun p => p.2.1 = pk).flatMap fun p => (owned p.1 db.formatFields).map fun f => (p.2.2, f)

/-- the lists of one info-multiple row (db.py:365-378) -/
def multiLists (db : DB) (msgId : Nat) : List (List DVal) :=
  (ssort (fun a b => decide (a.2.2 ≤ b.2.2)) (db.multiLists.filter fun l => l.2.1 = msgId)).map fun l =>
    (ssort (fun a b => decide (a.1 ≤ b.1)) (owned l.1 db.multiElems)).map fun e => pyVal e.2

/-- `load` (db.py:208-410) on an object with attributes `o`: the lists and dictionaries are extended,
`_data_list` is replaced. -/
def dbLoad (db : DB) (pk : Nat) (lazy : Bool) (o : DbLog) : Except PyErr (Str × DbLog) := do
  if !existsInDb db pk then .error .keyError
  else
    match db.ulog.find? fun p => p.1 = pk with
    | none => .error .typeError
    | some (_, row) =>
      let dsRows := ssort dsRowLe ((db.datasets.filter fun p => p.2.1 = pk).map (·.2.2))
      let dataList ← dsRows.mapM fun r => readDataset db (some pk) r.name r.multiId lazy
      let multi := db.multi.filter fun p => p.2.1 = pk
      return (row.sha, { o with
        fileVersion := row.fileVersion
        startTs := row.startTs
        lastTs := row.lastTs
        compat := row.compat.map Char.toNat
        incompat := row.incompat.map Char.toNat
        syncCnt := row.syncCnt
        hasSync := row.hasSync
        appendedOffsets := o.appendedOffsets ++
          (ssort (fun a b => decide (a.1 ≤ b.1)) (owned pk db.offsets)).map (·.2)
        dataList := dataList
        dropouts := o.dropouts ++ owned pk db.dropouts
        logged := o.logged ++ owned pk db.logging
        tagged := (owned pk db.tagged).foldl addTaggedRow o.tagged
        formats := (formatRows db pk).foldl addFormatRow o.formats
        info := (owned pk db.info).foldl (fun d r => d.set r.1 (pyVal r.2.2)) o.info
        infoTypes := (owned pk db.info).foldl (fun d r => d.set r.1 r.2.1) o.infoTypes
        infoMulti := multi.foldl (fun d p => d.set p.2.2.1 (multiLists db p.1)) o.infoMulti
        infoMultiTypes := multi.foldl (fun d p => d.set p.2.2.1 p.2.2.2) o.infoMultiTypes
        initialParams := (owned pk db.initial).foldl (fun d r => d.set r.1 (pyVal r.2)) o.initialParams
        defaultParams := (owned pk db.defaults).foldl
          (fun d r => d.set r.1 (((d.get? r.1).getD []).set r.2.1 (pyVal r.2.2))) o.defaultParams
        changedParams := o.changedParams ++ (owned pk db.changed).map fun r => (r.1, r.2.1, pyVal r.2.2) })

/-! ### constructor -/

/-- result of the constructor -/
inductive ConRes where
  | ok (o : DbObj)
  | raised (e : PyErr)
  | outOfFuel
  deriving DecidableEq

/-- `DatabaseULog.__init__` (db.py:133-180) -/
def construct (H : Bytes → Str) (fuel : Nat) (cfg : Cfg) (db : DB) (pk : Option Nat) (file : Option FileArg)
    (lazy : Bool) : ConRes :=
  if db.version < 5 then .raised .valueError
  else match pk, file with
    | some _, some _ => .raised .valueError
    | none, none => .raised .valueError
    | none, some f =>
      match calcSha H f with
      | none => .outOfFuel
      | some sha =>
        match loadArg fuel cfg f with
        | .ok u => .ok { pk := none, sha := sha, lazyLoaded := lazy, log := DbLog.ofULog u }
        | .raised e => .raised e
        | .outOfFuel => .outOfFuel
    | some k, none =>
      match dbLoad db k lazy {} with
      | .ok (sha, l) => .ok { pk := some k, sha := sha, lazyLoaded := lazy, log := l }
      | .error e => .raised e

/-- `load` called on an existing object (db.py:208-410) -/
def DbObj.load (db : DB) (o : DbObj) (lazy : Bool) : Except PyErr DbObj :=
  match o.pk with
  | none => .error .keyError
  | some k => do
    let (sha, l) ← dbLoad db k lazy o.log
    return { o with sha := sha, lazyLoaded := lazy, log := l }

/-- replaces the first element that satisfies `p` -/
def replaceFirst (p : α → Bool) (x : α) : List α → List α
  | [] => []
  | a :: l => if p a then x :: l else a :: replaceFirst p x l

/-- `get_dataset` (db.py:412-489): the dataset and the object, whose cached dataset may be filled in -/
def DbObj.getDataset (db : DB) (o : DbObj) (name : Str) (multi : Nat) (lazy caching : Bool) :
    Except PyErr (Dataset × DbObj) :=
  let hit := fun d : Dataset => decide (d.name = name) && decide (d.multiId = multi)
  let existing := o.log.dataList.find? hit
  match caching, existing with
  | true, some d =>
    if lazy || !d.data.isEmpty then .ok (d, o)
    else do
      let d' ← readDataset db o.pk name multi lazy
      return (d', { o with log := { o.log with dataList := replaceFirst hit d' o.log.dataList } })
  | _, _ => do
    let d' ← readDataset db o.pk name multi lazy
    return (d', o)

/-! ### saving -/

/-- the database inside the transaction and the last row ids that `save` uses -/
structure Reg where
  db : DB
  pk : Nat := 0
  dataset : Nat := 0
  format : Nat := 0
  multi : Nat := 0
  list : Nat := 0
  deriving DecidableEq, Repr

/-- one SQL statement with the binding of its values -/
abbrev Stmt := Reg → Except PyErr Reg

/-- values of the row of table ULog (db.py:513-529) -/
def metaRow (l : DbLog) (sha : Str) : Except PyErr MetaRow := do
  let compat ← chrStr l.compat
  let incompat ← chrStr l.incompat
  let fileVersion ← bindNat l.fileVersion
  let startTs ← bindNat l.startTs
  let lastTs ← bindNat l.lastTs
  let syncCnt ← bindNat l.syncCnt
  return { fileVersion, startTs, lastTs, compat, incompat, syncCnt, hasSync := l.hasSync, sha }

/-- row of table ULog (db.py:513-530); the digest is UNIQUE (pyulog.2.sql) -/
def metaStmt (l : DbLog) (sha : Str) : Stmt := fun r => do
  let row ← metaRow l sha
  if r.db.ulog.any fun p => decide (p.2.sha = sha) then .error .integrityError
  else
    let id := r.db.ulogSeq + 1
    return { r with pk := id, db := { r.db with ulog := r.db.ulog ++ [(id, row)], ulogSeq := id } }

/-- a statement that binds the values `g` and adds the row -/
def insert (add : Reg → α → DB) (g : Except PyErr α) : Stmt := fun r => do
  let row ← g
  return { r with db := add r row }

/-- rows of ULogAppendedOffsets (db.py:533-542) -/
def offsetStmts (l : DbLog) : List Stmt :=
  l.appendedOffsets.zipIdx.map fun p =>
    insert (fun r x => { r.db with offsets := r.db.offsets ++ [(r.pk, x)] }) do
      return (p.2, ← bindNat p.1)

/-- values of a row of ULogDataset (db.py:546-556) -/
def datasetRow (d : Dataset) : Except PyErr DsRow := do
  let multiId ← bindNat d.multiId
  let msgId ← bindNat d.msgId
  let tsIdx ← bindInt d.tsIdx
  return { name := d.name, multiId, msgId, tsIdx }

/-- row of ULogDataset (db.py:546-558); name and multi id are UNIQUE in a log (pyulog.2.sql) -/
def datasetStmt (d : Dataset) : Stmt := fun r => do
  let row ← datasetRow d
  if r.db.datasets.any fun p => decide (p.2.1 = r.pk) && decide (p.2.2.name = row.name) &&
      decide (p.2.2.multiId = row.multiId) then
    .error .integrityError
  else
    let id := r.db.datasetSeq + 1
    return { r with dataset := id, db := { r.db with
      datasets := r.db.datasets ++ [(id, r.pk, row)], datasetSeq := id } }

/-- `-inf`, whose text becomes `-null` (db.py:571-573) -/
def isNegInf : NpVal → Bool
  | .int _ => false
  | .f32 b => decide (b = 0xFF800000)
  | .f64 b => decide (b = 0xFFF0000000000000)

/-- the dictionary of the JSON column (db.py:562-573); a text with `-null` is refused by `json(?)` -/
def jsonOf (d : Dataset) (values : List NpVal) : Except PyErr (Dict Int NpVal) := do
  let ts ← dictGet d.data (py! "timestamp")
  let keys ← ts.mapM fun t => match t with
    | .int n => Except.ok n
    | _ => .error .unmodelled
  let j := (keys.zip values).foldl (fun j p => Dict.set j p.1 p.2) ([] : Dict Int NpVal)
  if j.any fun p => isNegInf p.2 then .error .operationalError
  else return j

/-- values of a row of ULogField (db.py:560-589) -/
def fieldRow (json : Bool) (d : Dataset) (f : FieldData) : Except PyErr FieldRow := do
  let values ← dictGet d.data f.name
  let data ← npBytes f.type values
  let j ← if json then (jsonOf d values).map some else .ok none
  return { name := f.name, type := f.type.name, data, json := j }

/-- rows of one dataset (db.py:545-591) -/
def datasetStmts (json : Bool) (d : Dataset) : List Stmt :=
  datasetStmt d :: d.fields.map fun f =>
    insert (fun r x => { r.db with fields := r.db.fields ++ [(r.dataset, x)] }) (fieldRow json d f)

/-- rows of ULogMessageDropout (db.py:594-602) -/
def dropoutStmts (l : DbLog) : List Stmt :=
  l.dropouts.map fun d =>
    insert (fun r x => { r.db with dropouts := r.db.dropouts ++ [(r.pk, x)] }) do
      return { ts := ← bindNat d.ts, duration := ← bindNat d.duration }

/-- rows of ULogMessageLogging (db.py:605-615) -/
def loggingStmts (l : DbLog) : List Stmt :=
  l.logged.map fun m =>
    insert (fun r x => { r.db with logging := r.db.logging ++ [(r.pk, x)] }) do
      return { level := ← bindNat m.level, ts := ← bindNat m.ts, msg := m.msg }

/-- rows of ULogMessageLoggingTagged (db.py:618-630); the tag is the key of the dictionary -/
def taggedStmts (l : DbLog) : List Stmt :=
  (l.tagged.flatMap fun p => p.2.map fun m => (p.1, m)).map fun q =>
    insert (fun r x => { r.db with tagged := r.db.tagged ++ [(r.pk, x)] }) do
      return { level := ← bindNat q.2.level, ts := ← bindNat q.2.ts, tag := ← bindNat q.1, msg := q.2.msg }

/-- row of ULogMessageFormat (db.py:634-640) -/
def formatStmt (name : Str) : Stmt := fun r =>
  let id := r.db.formatSeq + 1
  .ok { r with format := id, db := { r.db with
    formats := r.db.formats ++ [(id, r.pk, name)], formatSeq := id } }

/-- values of a row of ULogMessageFormatField (db.py:641-646) -/
def formatFieldRow (f : FieldDef) : Except PyErr FieldDef := do
  return { f with arr := ← bindInt f.arr }

/-- rows of the formats (db.py:633-646) -/
def formatStmts (l : DbLog) : List Stmt :=
  l.formats.flatMap fun p => formatStmt p.1 :: p.2.fields.map fun f =>
    insert (fun r x => { r.db with formatFields := r.db.formatFields ++ [(r.format, x)] }) (formatFieldRow f)

/-- rows of ULogMessageInfo (db.py:649-659); the list of rows is built before the first one is stored -/
def infoStmts (l : DbLog) : List Stmt :=
  (fun r => if l.info.all fun p => l.infoTypes.has p.1 then .ok r else .error .keyError) ::
    l.info.map fun p =>
      insert (fun r x => { r.db with info := r.db.info ++ [(r.pk, x)] }) do
        return (p.1, ← dictGet l.infoTypes p.1, ← bindVal p.2)

/-- row of ULogMessageInfoMultiple (db.py:663-669) -/
def multiStmt (l : DbLog) (key : Str) : Stmt := fun r => do
  let ty ← dictGet l.infoMultiTypes key
  let id := r.db.multiSeq + 1
  return { r with multi := id, db := { r.db with
    multi := r.db.multi ++ [(id, r.pk, key, ty)], multiSeq := id } }

/-- row of ULogMessageInfoMultipleList (db.py:671-677) -/
def listStmt (i : Nat) : Stmt := fun r =>
  let id := r.db.multiListSeq + 1
  .ok { r with list := id, db := { r.db with
    multiLists := r.db.multiLists ++ [(id, r.multi, i)], multiListSeq := id } }

/-- rows of one list (db.py:671-687) -/
def listStmts (vs : List DVal) (i : Nat) : List Stmt :=
  listStmt i :: vs.zipIdx.map fun q =>
    insert (fun r x => { r.db with multiElems := r.db.multiElems ++ [(r.list, x)] }) do
      return (q.2, ← bindText q.1)

/-- rows of the info-multiple dictionary (db.py:662-687) -/
def multiStmts (l : DbLog) : List Stmt :=
  l.infoMulti.flatMap fun p => multiStmt l p.1 :: p.2.zipIdx.flatMap fun q => listStmts q.1 q.2

/-- rows of ULogInitialParameter (db.py:690-699) -/
def initialStmts (l : DbLog) : List Stmt :=
  l.initialParams.map fun p =>
    insert (fun r x => { r.db with initial := r.db.initial ++ [(r.pk, x)] }) do
      return (p.1, ← bindVal p.2)

/-- rows of ULogDefaultParameter (db.py:702-713) -/
def defaultStmts (l : DbLog) : List Stmt :=
  (l.defaultParams.flatMap fun p => p.2.map fun q => (p.1, q)).map fun q =>
    insert (fun r x => { r.db with defaults := r.db.defaults ++ [(r.pk, x)] }) do
      return (← bindNat q.1, q.2.1, ← bindVal q.2.2)

/-- rows of ULogChangedParameter (db.py:716-726) -/
def changedStmts (l : DbLog) : List Stmt :=
  l.changedParams.map fun p =>
    insert (fun r x => { r.db with changed := r.db.changed ++ [(r.pk, x)] }) do
      return (← bindNat p.1, p.2.1, ← bindVal p.2.2)

/-- the statements of `save` after the first one, in order -/
def restStmts (json : Bool) (l : DbLog) : List Stmt :=
  offsetStmts l ++ l.dataList.flatMap (datasetStmts json) ++ dropoutStmts l ++ loggingStmts l ++ taggedStmts l ++
    formatStmts l ++ infoStmts l ++ multiStmts l ++ initialStmts l ++ defaultStmts l ++ changedStmts l

/-- execution of statements; `fault i` is an error of the `i`-th statement or, with `i` their number, of
the commit (disk full, database locked, interrupt) -/
def runStmts (fault : Nat → Option PyErr) : Nat → List Stmt → Reg → Except PyErr Reg
  | i, [], r => match fault i with
    | some e => .error e
    | none => .ok r
  | i, s :: ss, r => match fault i with
    | some e => .error e
    | none => s r >>= runStmts fault (i + 1) ss

/-- `save` (db.py:491-729): the exception, the database and the object afterwards. `_pk` is set after
the first statement (db.py:530) and keeps its value when the transaction is rolled back. -/
def DbObj.save (fault : Nat → Option PyErr) (json : Bool) (o : DbObj) (db : DB) : Option PyErr × DB × DbObj :=
  if o.pk.isSome then (some .keyError, db, o)
  else match pkFromSha db o.sha with
    | some k => (some .keyError, db, { o with pk := some k })
    | none =>
      match fault 0 with
      | some e => (some e, db, o)
      | none =>
        match metaStmt o.log o.sha { db } with
        | .error e => (some e, db, o)
        | .ok r =>
          match runStmts fault 1 (restStmts json o.log) r with
          | .error e => (some e, db, { o with pk := some r.pk })
          | .ok r' => (none, r'.db, { o with pk := some r.pk })

/-! ### deleting -/

/-- rows whose foreign key is not among the deleted ids -/
def keep (gone : Nat → Bool) (t : List (Nat × α)) : List (Nat × α) := t.filter fun p => !gone p.1

/-- `DELETE FROM ULog WHERE Id = ?` with the cascades (pyulog.2.sql) -/
def deleteRows (pk : Nat) (db : DB) : DB :=
  let log := fun k : Nat => decide (k = pk)
  let ds := fun k : Nat => db.datasets.any fun p => decide (p.1 = k) && decide (p.2.1 = pk)
  let fm := fun k : Nat => db.formats.any fun p => decide (p.1 = k) && decide (p.2.1 = pk)
  let mu := fun k : Nat => db.multi.any fun p => decide (p.1 = k) && decide (p.2.1 = pk)
  let li := fun k : Nat => db.multiLists.any fun p => decide (p.1 = k) && mu p.2.1
  { db with
    ulog := keep log db.ulog
    offsets := keep log db.offsets
    datasets := db.datasets.filter fun p => !log p.2.1
    fields := keep ds db.fields
    dropouts := keep log db.dropouts
    logging := keep log db.logging
    tagged := keep log db.tagged
    formats := db.formats.filter fun p => !log p.2.1
    formatFields := keep fm db.formatFields
    info := keep log db.info
    multi := db.multi.filter fun p => !log p.2.1
    multiLists := db.multiLists.filter fun p => !mu p.2.1
    multiElems := keep li db.multiElems
    initial := keep log db.initial
    defaults := keep log db.defaults
    changed := keep log db.changed }

/-- `delete` (db.py:731-746) -/
def DbObj.delete (o : DbObj) (db : DB) : Except PyErr (DB × DbObj) :=
  match o.pk with
  | none => .error .keyError
  | some k => .ok (deleteRows k db, { o with pk := none })

/-! ### comparison and writing -/

/-- the values of a dictionary when none is `None` -/
def Dict.mapValsM (f : α → Option β) (d : Dict κ α) : Option (Dict κ β) :=
  d.mapM fun p => (f p.2).map fun v => (p.1, v)

/-- the log when no value is `None` -/
def DbLog.toULog (l : DbLog) : Option ULog := do
  let info ← l.info.mapValsM id
  let infoMulti ← l.infoMulti.mapValsM fun v => v.mapM fun w => w.mapM id
  let initialParams ← l.initialParams.mapValsM id
  let defaultParams ← l.defaultParams.mapValsM fun d => d.mapValsM id
  let changedParams ← l.changedParams.mapM fun p => p.2.2.map fun v => (p.1, p.2.1, v)
  return { fileCorrupt := l.fileCorrupt, startTs := l.startTs, lastTs := l.lastTs, info, infoTypes := l.infoTypes,
           infoMulti, infoMultiTypes := l.infoMultiTypes, initialParams, defaultParams, changedParams,
           formats := l.formats, logged := l.logged, tagged := l.tagged, dropouts := l.dropouts,
           dataList := l.dataList, subs := [], filteredIds := l.filteredIds, missingIds := l.missingIds,
           fileVersion := l.fileVersion, compat := l.compat, incompat := l.incompat,
           appendedOffsets := l.appendedOffsets, hasSync := l.hasSync, syncCnt := l.syncCnt }

/-- comparison of a log read from a file with a `DatabaseULog` (core.py:497-508, db.py:182-190): a value
of the former is never `None` -/
def eqDb (u : ULog) (l : DbLog) : Bool :=
  match l.toULog with
  | some v => ulogEq u v
  | none => false

/-- a value that `_make_info_message_data` (core.py:359-366) treats as `None` under the type: it is no text and
no bytes (`TypeError`), no number (`struct.error`), and false -/
def infoNone (ty : Option Str) : Value :=
  match ty with
  | some t => if startsWith (py! "char[") t || startsWith (py! "uint8_t[") t then .int 0 else .str []
  | none => .str []

/-- a value that `_make_parameter_data` (core.py:337-343) treats as `None`: neither `int` nor `float` -/
def paramNone : Value := .str []

/-- the log with values in place of `None` that `write_ulog` treats in the same way -/
def DbLog.noNone (l : DbLog) : ULog :=
  { fileCorrupt := l.fileCorrupt, startTs := l.startTs, lastTs := l.lastTs,
    info := l.info.map fun p => (p.1, p.2.getD (infoNone (l.infoTypes.get? p.1))), infoTypes := l.infoTypes,
    infoMulti := l.infoMulti.map fun p =>
      (p.1, p.2.map (List.map fun v => v.getD (infoNone (l.infoMultiTypes.get? p.1)))),
    infoMultiTypes := l.infoMultiTypes, initialParams := l.initialParams.mapVals (·.getD paramNone),
    defaultParams := l.defaultParams.mapVals (Dict.mapVals (·.getD paramNone)),
    changedParams := l.changedParams.map fun p => (p.1, p.2.1, p.2.2.getD paramNone),
    formats := l.formats, logged := l.logged, tagged := l.tagged, dropouts := l.dropouts,
    dataList := l.dataList, subs := [], filteredIds := l.filteredIds, missingIds := l.missingIds,
    fileVersion := l.fileVersion, compat := l.compat, incompat := l.incompat,
    appendedOffsets := l.appendedOffsets, hasSync := l.hasSync, syncCnt := l.syncCnt }

/-- `write_ulog` (db.py:192-195) -/
def DbObj.writeUlog (o : DbObj) : Except PyErr Bytes :=
  if o.lazyLoaded then .error .valueError else PyULog.writeUlog o.log.noNone

end PyULog
