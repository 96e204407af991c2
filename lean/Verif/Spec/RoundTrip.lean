import Verif.Spec.Writer
import Verif.Spec.Frames
import Verif.Spec.Flatten
/-
Which logs can be written so that reading the file gives them back, and what is read.
-/
namespace PyULog.Spec
open PyULog

/-- a field of a format whose text can be parsed again: the characters that structure the text do not
occur in it -/
structure FieldOk (f : FieldDef) : Prop where
  type : ∀ c ∈ [' ', '[', ';', ':'], c ∉ f.type
  name : ∀ c ∈ [' ', ';', ':'], c ∉ f.name
  arr : 0 ≤ f.arr
  bracket : 0 < f.arr → ']' ∉ f.type

/-- the type of an info value is one the writer supports and the value belongs to it -/
def ValueFits (ty : Str) (v : Value) : Prop :=
  ((py! "char[" <+: ty ∧ ∃ s, v = .str s) ∨
    (¬ py! "char[" <+: ty ∧ py! "uint8_t[" <+: ty ∧ ∃ b, v = .bytes b) ∨
    ∃ t b, basicType ty = some t ∧ unpackScalar t b = .ok v)

/-- a key or type without the separator -/
def Plain (k : Str) : Prop := ' ' ∉ k

instance (k : Str) : Decidable (Plain k) := inferInstanceAs (Decidable (' ' ∉ k))

/-- a dataset as reading makes them: its columns are those of its format, in order, and it has rows;
its timestamp is a 64-bit unsigned column -/
structure DatasetOk (F : Dict Str MsgFormat) (depth : Nat) (d : Dataset) : Prop where
  fields : parseFields F depth d.name = .ok (d.fields, d.tsIdx)
  named : ∀ f ∈ d.fields, f.name ≠ []
  distinct : (d.fields.map (·.name)).Nodup
  columns : d.data.map (·.1) = d.fields.map (·.name)
  rows : 0 < rowCount d
  shape : ∀ c ∈ d.data, c.2.length = rowCount d
  typed : ColumnsTyped d
  timestamp : ⟨py! "timestamp", .u64⟩ ∈ d.fields

/-- a log that writing and reading preserves -/
structure Writable (depth : Nat) (u : ULog) : Prop where
  flags : u.incompat.getD 0 0 < 2 ∧ ∀ x ∈ u.incompat.drop 1, x = 0
  formats : ∀ p ∈ u.formats, p.1 = p.2.name ∧ ':' ∉ p.2.name ∧ ∀ f ∈ p.2.fields, FieldOk f
  formats_nodup : (u.formats.map (·.1)).Nodup
  info : u.infoTypes.map (·.1) = u.info.map (·.1)
  info_nodup : (u.info.map (·.1)).Nodup
  info_ok : ∀ p ∈ u.info, ∀ ty, (p.1, ty) ∈ u.infoTypes → Plain p.1 ∧ Plain ty ∧ ValueFits ty p.2
  multi : u.infoMultiTypes.map (·.1) = u.infoMulti.map (·.1)
  multi_nodup : (u.infoMulti.map (·.1)).Nodup
  multi_ok : ∀ p ∈ u.infoMulti, ∀ ty, (p.1, ty) ∈ u.infoMultiTypes →
    Plain p.1 ∧ Plain ty ∧ p.2 ≠ [] ∧ ∀ s ∈ p.2, s ≠ [] ∧ ∀ v ∈ s, ValueFits ty v
  initial_nodup : (u.initialParams.map (·.1)).Nodup
  initial : ∀ p ∈ u.initialParams, Plain p.1 ∧ ParamOk p.2
  defaults_nodup : (u.defaultParams.map (·.1)).Nodup
  defaults : ∀ p ∈ u.defaultParams, (p.1 = 0 ∨ p.1 = 1) ∧ p.2 ≠ [] ∧ (p.2.map (·.1)).Nodup ∧
    ∀ q ∈ p.2, Plain q.1 ∧ ParamOk q.2
  changed : ∀ p ∈ u.changedParams, Plain p.2.1 ∧ ParamOk p.2.2
  ids : (u.dataList.map (·.msgId)).Nodup
  data : ∀ d ∈ u.dataList, DatasetOk u.formats depth d
  order : u.dataList.Pairwise fun a b => dataBefore a b ∧ ¬ (a.name = b.name ∧ a.multiId = b.multiId)
  starts : u.dataList = [] → u.dropouts = [] ∧ u.changedParams = []

/-! ### what fits into a file -/

/-- number of bytes of a text -/
def utf8Size (s : Str) : Nat := (encStr s).length

/-- number of bytes of a field of a format message: `type name;` or `type[n] name;` -/
def fieldSize (f : FieldDef) : Nat :=
  utf8Size f.type + utf8Size f.name + 2 + if 0 < f.arr then utf8Size (intDec f.arr) + 2 else 0

/-- number of bytes of a value that is not of a basic type -/
def valueSize : Value → Nat
  | .str s => utf8Size s
  | .bytes b => b.length
  | _ => 0

/-- a key and a value fit into a message with a one-byte key length -/
def KeyFits (ty k : Str) (v : Value) : Prop :=
  utf8Size ty + 1 + utf8Size k < 256 ∧ utf8Size ty + 1 + utf8Size k + valueSize v + 10 < 65536

/-- all numbers and texts of the log fit into the fields of a file -/
structure Encodable (u : ULog) : Prop where
  version : u.fileVersion < 256
  start : u.startTs < 2 ^ 64
  compat : u.compat.length = 8 ∧ ∀ x ∈ u.compat, x < 256
  incompat : u.incompat.length = 8
  formats : ∀ p ∈ u.formats, utf8Size p.2.name + 1 + (p.2.fields.map fieldSize).sum < 65536
  info : ∀ p ∈ u.info, ∀ ty, (p.1, ty) ∈ u.infoTypes → KeyFits ty p.1 p.2
  multi : ∀ p ∈ u.infoMulti, ∀ ty, (p.1, ty) ∈ u.infoMultiTypes →
    ∀ s ∈ p.2, ∀ v ∈ s, KeyFits ty p.1 v
  initial : ∀ p ∈ u.initialParams, utf8Size p.1 < 248
  defaults : ∀ p ∈ u.defaultParams, ∀ q ∈ p.2, utf8Size q.1 < 248
  changed : ∀ p ∈ u.changedParams, utf8Size p.2.1 < 248
  data : ∀ d ∈ u.dataList, d.msgId < 2 ^ 16 ∧ d.multiId < 2 ^ 8 ∧ utf8Size d.name + 3 < 65536 ∧
    rowSize d.fields + 2 < 65536
  chars : ∀ d ∈ u.dataList, ∀ f ∈ d.fields, f.type = .char → ∀ i n, cell d f.name i = some (.int n) → 0 ≤ n
  logged : ∀ m ∈ u.logged, m.level < 2 ^ 8 ∧ m.ts < 2 ^ 64 ∧ utf8Size m.msg + 9 < 65536
  tagged : ∀ m ∈ (u.tagged.map (·.2)).flatten, m.level < 2 ^ 8 ∧ m.tag < 2 ^ 16 ∧ m.ts < 2 ^ 64 ∧
    utf8Size m.msg + 11 < 65536
  dropouts : ∀ m ∈ u.dropouts, m.duration < 2 ^ 16

/-! ### what is read -/

/-- `out` is `l` ordered by `key`, equal keys keep their order, nothing is lost or repeated -/
def InOrder {α : Type} (key : α → Int) (l out : List α) : Prop :=
  out.Perm l ∧ out.Pairwise (fun a b => key a ≤ key b) ∧
    ∀ t : Int, out.filter (fun x => decide (key x = t)) = l.filter (fun x => decide (key x = t))

/-- timestamp of a row -/
def timeAt (d : Dataset) (i : Nat) : Int :=
  match cell d (py! "timestamp") i with
  | some (.int t) => t
  | _ => 0

/-- timestamps of all samples -/
def rowTimes (u : ULog) : List Nat :=
  u.dataList.flatMap fun d => (List.range (rowCount d)).map fun i => (timeAt d i).toNat

/-- the greatest timestamp of a sample up to `t`, at least the start of the log -/
def clock (u : ULog) (t : Nat) : Nat := ((rowTimes u).filter (· ≤ t)).foldl max u.startTs

/-- flags without the mark for appended data -/
def withoutAppended : List Nat → List Nat
  | [] => []
  | _ :: xs => 0 :: xs

/-- `e` is the dataset `d` with its rows ordered by time; values are as stored in a file -/
def SameRows (d e : Dataset) : Prop :=
  e.multiId = d.multiId ∧ e.msgId = d.msgId ∧ e.name = d.name ∧ e.fields = d.fields ∧
  e.tsIdx = d.tsIdx ∧
  ∃ order, InOrder (timeAt d) (List.range (rowCount d)) order ∧
    e.data = d.fields.map fun f =>
      (f.name, order.filterMap fun i => (cell d f.name i).map (stored f.type))

/-- `v` is what reading the file written for `u` gives -/
structure ReadBack (u v : ULog) : Prop where
  -- unchanged
  fileVersion : v.fileVersion = u.fileVersion
  startTs : v.startTs = u.startTs
  compat : v.compat = u.compat
  formats : v.formats = u.formats
  info : v.info = u.info
  infoTypes : v.infoTypes = u.infoTypes
  infoMulti : v.infoMulti = u.infoMulti
  infoMultiTypes : v.infoMultiTypes = u.infoMultiTypes
  initialParams : v.initialParams = u.initialParams.map fun p => (p.1, asParam p.2)
  defaultParams : v.defaultParams
    = u.defaultParams.map fun p => (p.1, p.2.map fun q => (q.1, asParam q.2))
  -- ordered by time
  logged : InOrder (fun m => (m.ts : Int)) u.logged v.logged
  taggedKeys : (v.tagged.map (·.1)).Nodup ∧
    ∀ t, t ∈ v.tagged.map (·.1) ↔ ∃ m ∈ (u.tagged.map (·.2)).flatten, m.tag = t
  tagged : ∀ p ∈ v.tagged, InOrder (fun m => (m.ts : Int))
    ((u.tagged.map (·.2)).flatten.filter fun m => m.tag = p.1) p.2
  dropouts : ∃ l, InOrder (fun m => (m.ts : Int)) u.dropouts l ∧
    v.dropouts = l.map fun m => ⟨m.duration, clock u m.ts⟩
  changed : ∃ l, InOrder (fun p => (p.1 : Int)) u.changedParams l ∧
    v.changedParams = l.map fun p => (clock u p.1, p.2.1, asParam p.2.2)
  data : v.dataList.length = u.dataList.length ∧ ∀ p ∈ u.dataList.zip v.dataList, SameRows p.1 p.2
  lastTs : v.lastTs = (rowTimes u).foldl max u.startTs
  -- dropped
  incompat : v.incompat = withoutAppended u.incompat
  appendedOffsets : v.appendedOffsets = []
  fileCorrupt : v.fileCorrupt = false
  filteredIds : v.filteredIds = []
  missingIds : v.missingIds = []
  subs : v.subs = []
  hasSync : v.hasSync = true
  syncCnt : v.syncCnt = 0

/-- a parameter value as reading gives it -/
def NotBool (v : Value) : Prop := ∀ b, v ≠ .bool b

/-- a log that is already as a file holds it: everything is in the order of time, dropouts and
parameter changes carry the time of a sample or of the start, and values are as stored -/
structure Settled (u : ULog) : Prop where
  logged : u.logged.Pairwise fun a b => a.ts ≤ b.ts
  taggedKeys : (u.tagged.map (·.1)).Nodup
  tagged : ∀ p ∈ u.tagged, p.2 ≠ [] ∧ (p.2.Pairwise fun a b => a.ts ≤ b.ts) ∧ ∀ m ∈ p.2, m.tag = p.1
  taggedOrder : u.tagged.Pairwise fun p q => ∀ m ∈ p.2.head?, ∀ n ∈ q.2.head?, m.ts ≤ n.ts
  dropouts : u.dropouts.Pairwise fun a b => a.ts ≤ b.ts
  dropoutTimes : ∀ m ∈ u.dropouts, m.ts ∈ u.startTs :: rowTimes u ∧ u.startTs ≤ m.ts
  changed : u.changedParams.Pairwise fun a b => a.1 ≤ b.1
  changedTimes : ∀ p ∈ u.changedParams, p.1 ∈ u.startTs :: rowTimes u ∧ u.startTs ≤ p.1
  rows : ∀ d ∈ u.dataList, ∀ i j, i < j → j < rowCount d → timeAt d i ≤ timeAt d j
  values : ∀ d ∈ u.dataList, ∀ f ∈ d.fields, ∀ i v, cell d f.name i = some v → stored f.type v = v
  params : (∀ p ∈ u.initialParams, NotBool p.2) ∧ (∀ p ∈ u.defaultParams, ∀ q ∈ p.2, NotBool q.2) ∧
    ∀ p ∈ u.changedParams, NotBool p.2.2
  lastTs : u.lastTs = (rowTimes u).foldl max u.startTs

/-- what reading does not restore -/
def cleaned (u : ULog) : ULog :=
  { u with
    incompat := withoutAppended u.incompat
    appendedOffsets := []
    fileCorrupt := false
    filteredIds := []
    missingIds := []
    subs := []
    hasSync := true
    syncCnt := 0 }

/-- messages of different tags never share a timestamp -/
def TagsApart (u : ULog) : Prop :=
  ∀ a ∈ (u.tagged.map (·.2)).flatten, ∀ b ∈ (u.tagged.map (·.2)).flatten, a.ts = b.ts → a.tag = b.tag

/-- dropouts and parameter changes carry the time of the start or of the latest sample before them -/
def Timely (u : ULog) : Prop :=
  (∀ m ∈ u.dropouts, clock u m.ts = m.ts) ∧ ∀ p ∈ u.changedParams, clock u p.1 = p.1

end PyULog.Spec
