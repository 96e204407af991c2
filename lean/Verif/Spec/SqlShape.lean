import Verif.Model.SqlAst
/-
Tables without their rows: the schema in the strict sense.
-/
namespace PyULog.Spec
open PyULog

/-- a table without its rows -/
def bareTable (t : Table) : Table := { t with rows := [] }

/-- all tables without their rows -/
def bareTables (ts : Dict Str Table) : Dict Str Table := ts.map fun p => (p.1, bareTable p.2)

/-- a database without its rows -/
def bareSchema (s : Schema) : Schema := { s with tables := bareTables s.tables }

/-- the database with other rows in one table -/
def fill (s : Schema) (name : Str) (rows : List (List SqlVal)) : Schema :=
  { s with tables := s.tables.map fun p => if p.1 = name then (p.1, { p.2 with rows := rows }) else p }

/-! ### what db.py expects of a database -/

/-- tables and columns used by the statements of db.py, statement by statement -/
def dbUses : List (Str × List Str) := [
    (py! "ULog", [py! "Id"]),  -- db.py:80
    (py! "ULog", [py! "Id", py! "SHA256Sum"]),  -- db.py:99
    (py! "ULog", [py! "FileVersion", py! "StartTimestamp", py! "LastTimestamp", py!
    "CompatFlags", py! "IncompatFlags", py! "SyncCount", py! "HasSync", py! "SHA256Sum", py!
    "Id"]),  -- db.py:228
    (py! "ULogAppendedOffsets", [py! "Offset", py! "ULogId", py! "SeriesIndex"]),  -- db.py:251
    (py! "ULogDataset", [py! "DatasetName", py! "MultiId", py! "ULogId"]),  -- db.py:263
    (py! "ULogMessageDropout", [py! "Timestamp", py! "Duration", py! "ULogId"]),  -- db.py:279
    (py! "ULogMessageLogging", [py! "LogLevel", py! "Timestamp", py! "Message", py! "ULogId"]),  -- db.py:293
    (py! "ULogMessageLoggingTagged", [py! "LogLevel", py! "Tag", py! "Timestamp", py! "Message",
    py! "ULogId"]),  -- db.py:308
    (py! "ULogMessageFormat", [py! "Name", py! "Id", py! "ULogId"]),  -- db.py:326
    (py! "ULogMessageFormatField", [py! "FieldType", py! "ArraySize", py! "Name", py!
    "MessageId"]),  -- db.py:326
    (py! "ULogMessageInfo", [py! "Key", py! "Typename", py! "Value", py! "ULogId"]),  -- db.py:348
    (py! "ULogMessageInfoMultiple", [py! "Id", py! "Key", py! "Typename", py! "ULogId"]),  -- db.py:358
    (py! "ULogMessageInfoMultipleList", [py! "Id", py! "MessageId", py! "SeriesIndex"]),  -- db.py:366
    (py! "ULogMessageInfoMultipleListElement", [py! "Value", py! "ListId", py! "SeriesIndex"]),  -- db.py:373
    (py! "ULogInitialParameter", [py! "Key", py! "Value", py! "ULogId"]),  -- db.py:382
    (py! "ULogDefaultParameter", [py! "DefaultType", py! "Key", py! "Value", py! "ULogId"]),  -- db.py:391
    (py! "ULogChangedParameter", [py! "Timestamp", py! "Key", py! "Value", py! "ULogId"]),  -- db.py:402
    (py! "ULogDataset", [py! "Id", py! "TimestampIndex", py! "MessageId", py! "DatasetName", py!
    "MultiId", py! "ULogId"]),  -- db.py:449
    (py! "ULogField", [py! "TopicName", py! "DataType", py! "ValueArray", py! "DatasetId"]),  -- db.py:461
    (py! "ULog", [py! "FileVersion", py! "StartTimestamp", py! "LastTimestamp", py!
    "CompatFlags", py! "IncompatFlags", py! "SyncCount", py! "HasSync", py! "SHA256Sum"]),  -- db.py:515
    (py! "ULogAppendedOffsets", [py! "SeriesIndex", py! "Offset", py! "ULogId"]),  -- db.py:534
    (py! "ULogDataSet", [py! "DatasetName", py! "MultiId", py! "MessageId", py!
    "TimestampIndex", py! "ULogId"]),  -- db.py:547
    (py! "ULogField", [py! "TopicName", py! "DataType", py! "ValueArray", py! "ValueJson", py!
    "DatasetId"]),  -- db.py:580
    (py! "ULogMessageDropout", [py! "Timestamp", py! "Duration", py! "ULogId"]),  -- db.py:595
    (py! "ULogMessageLogging", [py! "LogLevel", py! "Timestamp", py! "Message", py! "ULogId"]),  -- db.py:607
    (py! "ULogMessageLoggingTagged", [py! "LogLevel", py! "Timestamp", py! "Tag", py! "Message",
    py! "ULogId"]),  -- db.py:621
    (py! "ULogMessageFormat", [py! "Name", py! "ULogId"]),  -- db.py:636
    (py! "ULogMessageFormatField", [py! "FieldType", py! "ArraySize", py! "Name", py!
    "MessageId"]),  -- db.py:643
    (py! "ULogMessageInfo", [py! "Key", py! "Value", py! "Typename", py! "ULogId"]),  -- db.py:651
    (py! "ULogMessageInfoMultiple", [py! "Key", py! "Typename", py! "ULogId"]),  -- db.py:665
    (py! "ULogMessageInfoMultipleList", [py! "SeriesIndex", py! "MessageId"]),  -- db.py:673
    (py! "ULogMessageInfoMultipleListElement", [py! "SeriesIndex", py! "Value", py! "ListId"]),  -- db.py:680
    (py! "ULogInitialParameter", [py! "Key", py! "Value", py! "ULogId"]),  -- db.py:692
    (py! "ULogDefaultParameter", [py! "DefaultType", py! "Key", py! "Value", py! "ULogId"]),  -- db.py:705
    (py! "ULogChangedParameter", [py! "Timestamp", py! "Key", py! "Value", py! "ULogId"]),  -- db.py:718
    (py! "ULog", [py! "Id"])]  -- db.py:741

/-- names are not case sensitive -/
def upName (n : Str) : Str := n.map upperC

/-- the table exists and has the columns -/
def HasCols (s : Schema) (table : Str) (cols : List Str) : Prop :=
  ∃ t, s.tables.get? (upName table) = some t ∧ ∀ c ∈ cols, upName c ∈ t.cols.map (·.1)

/-- no two rows agree on the columns -/
def IsUnique (s : Schema) (table : Str) (cols : List Str) : Prop :=
  ∃ t, s.tables.get? (upName table) = some t ∧ cols.map upName ∈ t.uniques

/-- the rows of the table go away with their log: a chain of cascading foreign keys leads to `ULog` -/
inductive Owned (s : Schema) : Str → Prop
  | ulog : Owned s (py! "ULOG")
  | child {n : Str} {t : Table} {fk : Fk} : s.tables.get? n = some t → fk ∈ t.fks → fk.cascade = true →
      fk.parentCol = py! "ID" → Owned s fk.parent → Owned s n

/-- what db.py needs: all tables and columns of its statements; the digest, the datasets of a log and the
keys are unique; deleting a log deletes everything that belongs to it, and nothing can prevent it -/
structure Serves (s : Schema) : Prop where
  columns : ∀ u ∈ dbUses, HasCols s u.1 u.2
  digest : IsUnique s (py! "ULog") [py! "SHA256Sum"]
  dataset : IsUnique s (py! "ULogDataset") [py! "ULogId", py! "DatasetName", py! "MultiId"]
  keys : ∀ n ∈ [py! "ULog", py! "ULogDataset", py! "ULogField", py! "ULogMessageFormat",
    py! "ULogMessageInfoMultiple", py! "ULogMessageInfoMultipleList"], IsUnique s n [py! "Id"]
  owned : ∀ n ∈ s.tables.keys, Owned s n
  free : ∀ p ∈ s.tables, ∀ fk ∈ p.2.fks, fk.cascade = true

end PyULog.Spec
