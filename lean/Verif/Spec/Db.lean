import Verif.Model.Db
import Verif.Spec.Writer
import Verif.Spec.Float
/-
What a database holds for each log, and which databases can arise.
-/
namespace PyULog.Spec
open PyULog

/-- rows of a table with their dependent rows -/
def nest (ps : List (Nat × Nat × α)) (kid : Nat → γ) (k : Nat) : List (α × γ) :=
  (ps.filter fun p => p.2.1 = k).map fun p => (p.2.2, kid p.1)

/-- everything stored for the log `k` -/
structure Content where
  row : List MetaRow
  offsets : List (Nat × Nat)
  datasets : List (DsRow × List FieldRow)
  dropouts : List Dropout
  logging : List LogMsg
  tagged : List TagMsg
  formats : List (Str × List FieldDef)
  info : List (Str × Str × SqlVal)
  multi : List ((Str × Str) × List (Nat × List (Nat × SqlVal)))
  initial : List (Str × SqlVal)
  defaults : List (Nat × Str × SqlVal)
  changed : List (Nat × Str × SqlVal)
  deriving DecidableEq

/-- the content of a log that is not stored -/
def Content.empty : Content := ⟨[], [], [], [], [], [], [], [], [], [], [], []⟩

/-- rows added behind -/
def Content.add (a b : Content) : Content where
  row := a.row ++ b.row
  offsets := a.offsets ++ b.offsets
  datasets := a.datasets ++ b.datasets
  dropouts := a.dropouts ++ b.dropouts
  logging := a.logging ++ b.logging
  tagged := a.tagged ++ b.tagged
  formats := a.formats ++ b.formats
  info := a.info ++ b.info
  multi := a.multi ++ b.multi
  initial := a.initial ++ b.initial
  defaults := a.defaults ++ b.defaults
  changed := a.changed ++ b.changed

/-- all rows that belong to the log `k`, directly or through another row -/
def content (db : DB) (k : Nat) : Content where
  row := owned k db.ulog
  offsets := owned k db.offsets
  datasets := nest db.datasets (fun i => owned i db.fields) k
  dropouts := owned k db.dropouts
  logging := owned k db.logging
  tagged := owned k db.tagged
  formats := nest db.formats (fun i => owned i db.formatFields) k
  info := owned k db.info
  multi := nest db.multi (fun i => nest db.multiLists (fun j => owned j db.multiElems) i) k
  initial := owned k db.initial
  defaults := owned k db.defaults
  changed := owned k db.changed

/-- every row belongs to a row that exists -/
structure NoOrphans (db : DB) : Prop where
  offsets : ∀ p ∈ db.offsets, p.1 ∈ db.ulog.map (·.1)
  datasets : ∀ p ∈ db.datasets, p.2.1 ∈ db.ulog.map (·.1)
  fields : ∀ p ∈ db.fields, p.1 ∈ db.datasets.map (·.1)
  dropouts : ∀ p ∈ db.dropouts, p.1 ∈ db.ulog.map (·.1)
  logging : ∀ p ∈ db.logging, p.1 ∈ db.ulog.map (·.1)
  tagged : ∀ p ∈ db.tagged, p.1 ∈ db.ulog.map (·.1)
  formats : ∀ p ∈ db.formats, p.2.1 ∈ db.ulog.map (·.1)
  formatFields : ∀ p ∈ db.formatFields, p.1 ∈ db.formats.map (·.1)
  info : ∀ p ∈ db.info, p.1 ∈ db.ulog.map (·.1)
  multi : ∀ p ∈ db.multi, p.2.1 ∈ db.ulog.map (·.1)
  multiLists : ∀ p ∈ db.multiLists, p.2.1 ∈ db.multi.map (·.1)
  multiElems : ∀ p ∈ db.multiElems, p.1 ∈ db.multiLists.map (·.1)
  initial : ∀ p ∈ db.initial, p.1 ∈ db.ulog.map (·.1)
  defaults : ∀ p ∈ db.defaults, p.1 ∈ db.ulog.map (·.1)
  changed : ∀ p ∈ db.changed, p.1 ∈ db.ulog.map (·.1)

/-- what happens to a database: logs are saved, with any outcome, and deleted -/
inductive DbStep : DB → DB → Prop
  | save (fault json o db) : DbStep db (DbObj.save fault json o db).2.1
  | delete (o db db' o') : DbObj.delete o db = .ok (db', o') → DbStep db db'

/-- any number of steps -/
inductive Later : DB → DB → Prop
  | refl (db) : Later db db
  | step (db db' db'') : Later db db' → DbStep db' db'' → Later db db''

/-- databases that arise from a new one -/
def Reach (db : DB) : Prop := Later {} db

/-- the datasets of a name and multi id -/
abbrev named (name : Str) (multi : Nat) (d : Dataset) : Bool := decide (d.name = name) && decide (d.multiId = multi)

/-- any number of successful calls of `get_dataset` on the object of log `k`; between the calls the
database may change as long as it contains the log -/
inductive Calls (db₀ : DB) (k : Nat) : DbObj → DbObj → Prop
  | refl (o) : Calls db₀ k o o
  | call (o o₁ o₂ db name multi lazy caching d) : Calls db₀ k o o₁ → Later db₀ db → k ∈ db.ulog.map (·.1) →
      DbObj.getDataset db o₁ name multi lazy caching = .ok (d, o₂) → Calls db₀ k o o₂

/-! ### what comes back -/

/-- a column value: `bool` becomes an integer, NaN becomes `None` -/
def valueBack : DVal → DVal
  | some (.bool b) => some (.int (if b then 1 else 0))
  | some (.float x) => if exp64 x = 2047 ∧ frac64 x ≠ 0 then none else some (.float x)
  | v => v

/-- a value of a column with text affinity: numbers become their decimal texts, NaN becomes `None` -/
def textBack : DVal → DVal
  | some (.int n) => some (.str (intDec n))
  | some (.bool b) => some (.str (if b then py! "1" else py! "0"))
  | some (.float x) => if exp64 x = 2047 ∧ frac64 x ≠ 0 then none else some (.str (realText x))
  | v => v

/-- what loading gives back of a saved log: not the corruption flag nor the ids of filtered and missing
messages, no formats without fields -/
def fromDb (l : DbLog) : DbLog where
  fileCorrupt := false
  startTs := l.startTs
  lastTs := l.lastTs
  info := l.info.map fun p => (p.1, valueBack p.2)
  infoTypes := l.infoTypes
  infoMulti := l.infoMulti.map fun p => (p.1, p.2.map (List.map textBack))
  infoMultiTypes := l.infoMultiTypes
  initialParams := l.initialParams.map fun p => (p.1, valueBack p.2)
  defaultParams := l.defaultParams.map fun p => (p.1, p.2.map fun q => (q.1, valueBack q.2))
  changedParams := l.changedParams.map fun p => (p.1, p.2.1, valueBack p.2.2)
  formats := l.formats.filter fun p => !p.2.fields.isEmpty
  logged := l.logged
  tagged := l.tagged
  dropouts := l.dropouts
  dataList := l.dataList
  filteredIds := []
  missingIds := []
  fileVersion := l.fileVersion
  compat := l.compat
  incompat := l.incompat
  appendedOffsets := l.appendedOffsets
  hasSync := l.hasSync
  syncCnt := l.syncCnt

/-- a dataset without its data series -/
def bare (d : Dataset) : Dataset := { d with fields := [], data := [] }

/-- how the attributes of a log hang together; this holds for every log read from a file whose columns have names -/
structure Regular (l : DbLog) : Prop where
  infoKeys : (l.info.map (·.1)).Nodup
  infoTypes : l.infoTypes.map (·.1) = l.info.map (·.1)
  multiKeys : (l.infoMulti.map (·.1)).Nodup
  multiTypes : l.infoMultiTypes.map (·.1) = l.infoMulti.map (·.1)
  initial : (l.initialParams.map (·.1)).Nodup
  defaults : (l.defaultParams.map (·.1)).Nodup
  default : ∀ p ∈ l.defaultParams, p.2 ≠ [] ∧ (p.2.map (·.1)).Nodup
  formats : (l.formats.map (·.1)).Nodup
  formatNames : ∀ p ∈ l.formats, p.2.name = p.1
  tags : (l.tagged.map (·.1)).Nodup
  tagged : ∀ p ∈ l.tagged, p.2 ≠ [] ∧ ∀ m ∈ p.2, m.tag = p.1
  order : l.dataList.Pairwise dataBefore
  fields : ∀ d ∈ l.dataList, (d.fields.map (·.name)).Nodup
  columns : ∀ d ∈ l.dataList, d.data.map (·.1) = d.fields.map (·.name)
  typed : ∀ d ∈ l.dataList, ColumnsTyped d

/-- an integer that a column can hold -/
def fitsInt (n : Int) : Prop := -(2 : Int) ^ 63 ≤ n ∧ n < (2 : Int) ^ 63

/-- a value that a column can hold -/
def valueFits (v : DVal) : Prop := ∀ n, v = some (.int n) → fitsInt n

/-- a log that SQLite can hold -/
structure Holdable (l : DbLog) : Prop where
  flags : ∀ x ∈ l.compat ++ l.incompat, x < 256
  header : l.fileVersion < 2 ^ 63 ∧ l.startTs < 2 ^ 63 ∧ l.lastTs < 2 ^ 63 ∧ l.syncCnt < 2 ^ 63
  offsets : ∀ n ∈ l.appendedOffsets, n < 2 ^ 63
  datasets : ∀ d ∈ l.dataList, d.multiId < 2 ^ 63 ∧ d.msgId < 2 ^ 63 ∧ fitsInt d.tsIdx
  distinct : (l.dataList.map fun d => (d.name, d.multiId)).Nodup
  named : ∀ d ∈ l.dataList, ∀ f ∈ d.fields, f.name ≠ []
  dropouts : ∀ d ∈ l.dropouts, d.ts < 2 ^ 63 ∧ d.duration < 2 ^ 63
  logged : ∀ m ∈ l.logged, m.level < 2 ^ 63 ∧ m.ts < 2 ^ 63
  tagged : ∀ p ∈ l.tagged, p.1 < 2 ^ 63 ∧ ∀ m ∈ p.2, m.level < 2 ^ 63 ∧ m.ts < 2 ^ 63
  formats : ∀ p ∈ l.formats, ∀ f ∈ p.2.fields, fitsInt f.arr
  info : ∀ p ∈ l.info, valueFits p.2
  multi : ∀ p ∈ l.infoMulti, ∀ vs ∈ p.2, ∀ v ∈ vs, valueFits v
  initial : ∀ p ∈ l.initialParams, valueFits p.2
  defaults : ∀ p ∈ l.defaultParams, p.1 < 2 ^ 63 ∧ ∀ q ∈ p.2, valueFits q.2
  changed : ∀ p ∈ l.changedParams, p.1 < 2 ^ 63 ∧ valueFits p.2.2

end PyULog.Spec
