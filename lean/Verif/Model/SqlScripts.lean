import Verif.Model.Sql
/-
The shipped migration scripts (pyulog/sql/pyulog.1.sql .. pyulog.5.sql), statement by statement. White
space is reduced to single blanks and the comments of pyulog.4.sql are left out.
-/
namespace PyULog

/-- text of a script -/
def scriptText (stmts : List Str) : Str := (stmts.map fun s => s ++ py! ";\n").flatten

/-- the statements between `BEGIN` and `COMMIT` in pyulog/sql/pyulog.1.sql:1-117 -/
def body1 : List Str := [
  py! "CREATE TABLE IF NOT EXISTS ULog ( Id INTEGER PRIMARY KEY AUTOINCREMENT, FileVersion INT, \
    StartTimestamp REAL, LastTimestamp REAL, CompatFlags TEXT, IncompatFlags TEXT, SyncCount \
    INT, HasSync BOOLEAN )",
  py! "CREATE TABLE IF NOT EXISTS ULogAppendedOffsets ( SeriesIndex INTEGER, Offset INTEGER, \
    ULogId INT REFERENCES ULog (Id) )",
  py! "CREATE TABLE IF NOT EXISTS ULogDataset ( Id INTEGER PRIMARY KEY AUTOINCREMENT, \
    DatasetName TEXT, MultiId INT, MessageId INT, TimestampIndex INT, ULogId INT REFERENCES ULog \
    (Id), UNIQUE (ULogId, DatasetName, MultiId) )",
  py! "CREATE TABLE IF NOT EXISTS ULogField ( Id INTEGER PRIMARY KEY AUTOINCREMENT, TopicName \
    TEXT, DataType TEXT, ValueArray BLOB, DatasetId INTEGER REFERENCES ULogDataset (Id) )",
  py! "CREATE INDEX IF NOT EXISTS btree_ulogfield_datasetid ON ULogField(DatasetId)",
  py! "CREATE TABLE IF NOT EXISTS ULogMessageDropout ( Timestamp REAL, Duration FLOAT, ULogId \
    INT REFERENCES ULog (Id) )",
  py! "CREATE TABLE IF NOT EXISTS ULogMessageFormat ( Id INTEGER PRIMARY KEY AUTOINCREMENT, Name \
    TEXT, ULogId INT REFERENCES ULog (Id) )",
  py! "CREATE TABLE IF NOT EXISTS ULogMessageFormatField ( FieldType TEXT, ArraySize INT, Name \
    TEXT, MessageId INT REFERENCES ULogMessageFormat (Id) )",
  py! "CREATE TABLE IF NOT EXISTS ULogMessageLogging ( LogLevel INT, Timestamp REAL, Message \
    TEXT, ULogId INT REFERENCES ULog (Id) )",
  py! "CREATE TABLE IF NOT EXISTS ULogMessageLoggingTagged ( LogLevel INT, Timestamp REAL, Tag \
    INT, Message TEXT, ULogId INT REFERENCES ULog (Id) )",
  py! "CREATE TABLE IF NOT EXISTS ULogMessageInfo ( Key TEXT, Typename TEXT, Value BLOB, ULogId \
    INT REFERENCES ULog (Id) )",
  py! "CREATE TABLE IF NOT EXISTS ULogMessageInfoMultiple ( Id INTEGER PRIMARY KEY \
    AUTOINCREMENT, Key TEXT, Typename TEXT, ULogId INT REFERENCES ULog (Id) )",
  py! "CREATE TABLE IF NOT EXISTS ULogMessageInfoMultipleList ( Id INTEGER PRIMARY KEY \
    AUTOINCREMENT, SeriesIndex INTEGER, MessageId TEXT REFERENCES ULogMessageInfoMultiple (Id) )",
  py! "CREATE TABLE IF NOT EXISTS ULogMessageInfoMultipleListElement ( Id INTEGER PRIMARY KEY \
    AUTOINCREMENT, SeriesIndex INTEGER, Value TEXT, ListId TEXT REFERENCES \
    ULogMessageInfoMultipleList (Id) )",
  py! "CREATE TABLE IF NOT EXISTS ULogInitialParameter ( Key TEXT, Value BLOB, ULogId INT \
    REFERENCES ULog (Id) )",
  py! "CREATE TABLE IF NOT EXISTS ULogChangedParameter ( Timestamp REAL, Key TEXT, Value BLOB, \
    ULogId INT REFERENCES ULog (Id) )",
  py! "CREATE TABLE IF NOT EXISTS ULogDefaultParameter ( DefaultType INT, Key TEXT, Value BLOB, \
    ULogId INT REFERENCES ULog (Id) )"]

/-- pyulog/sql/pyulog.1.sql -/
def script1 : Str := scriptText ([py! "BEGIN"] ++ body1 ++ [py! "COMMIT"])

/-- the statements between `BEGIN` and `COMMIT` in pyulog/sql/pyulog.2.sql:1-174 -/
def body2 : List Str := [
  py! "PRAGMA foreign_keys=off",
  py! "CREATE TABLE IF NOT EXISTS ULog_tmp ( Id INTEGER PRIMARY KEY AUTOINCREMENT, SHA256Sum \
    TEXT UNIQUE, FileVersion INT, StartTimestamp REAL, LastTimestamp REAL, CompatFlags TEXT, \
    IncompatFlags TEXT, SyncCount INT, HasSync BOOLEAN )",
  py! "INSERT OR IGNORE INTO ULog_tmp (Id, FileVersion, StartTimestamp, LastTimestamp, \
    CompatFlags, IncompatFlags, SyncCount, HasSync) SELECT Id, FileVersion, StartTimestamp, \
    LastTimestamp, CompatFlags, IncompatFlags, SyncCount, HasSync FROM ULog",
  py! "CREATE TABLE IF NOT EXISTS ULogAppendedOffsets_tmp ( SeriesIndex INTEGER, Offset INTEGER, \
    ULogId INT REFERENCES ULog_tmp (Id) ON DELETE CASCADE )",
  py! "INSERT OR IGNORE INTO ULogAppendedOffsets_tmp SELECT * FROM ULogAppendedOffsets",
  py! "CREATE TABLE IF NOT EXISTS ULogDataset_tmp ( Id INTEGER PRIMARY KEY AUTOINCREMENT, \
    DatasetName TEXT, MultiId INT, MessageId INT, TimestampIndex INT, ULogId INT REFERENCES ULog \
    (Id) ON DELETE CASCADE, UNIQUE (ULogId, DatasetName, MultiId) )",
  py! "INSERT OR IGNORE INTO ULogDataset_tmp SELECT * FROM ULogDataset",
  py! "CREATE TABLE IF NOT EXISTS ULogField_tmp ( Id INTEGER PRIMARY KEY AUTOINCREMENT, \
    TopicName TEXT, DataType TEXT, ValueArray BLOB, DatasetId INTEGER REFERENCES ULogDataset \
    (Id) ON DELETE CASCADE )",
  py! "INSERT OR IGNORE INTO ULogField_tmp SELECT * FROM ULogField",
  py! "CREATE INDEX IF NOT EXISTS btree_ulogfield_datasetid ON ULogField_tmp(DatasetId)",
  py! "CREATE TABLE IF NOT EXISTS ULogMessageDropout_tmp ( Timestamp REAL, Duration FLOAT, \
    ULogId INT REFERENCES ULog (Id) ON DELETE CASCADE )",
  py! "INSERT OR IGNORE INTO ULogMessageDropout_tmp SELECT * FROM ULogMessageDropout",
  py! "CREATE TABLE IF NOT EXISTS ULogMessageFormat_tmp ( Id INTEGER PRIMARY KEY AUTOINCREMENT, \
    Name TEXT, ULogId INT REFERENCES ULog (Id) ON DELETE CASCADE )",
  py! "INSERT OR IGNORE INTO ULogMessageFormat_tmp SELECT * FROM ULogMessageFormat",
  py! "CREATE TABLE IF NOT EXISTS ULogMessageFormatField_tmp ( FieldType TEXT, ArraySize INT, \
    Name TEXT, MessageId INT REFERENCES ULogMessageFormat (Id) ON DELETE CASCADE )",
  py! "INSERT OR IGNORE INTO ULogMessageFormatField_tmp SELECT * FROM ULogMessageFormatField",
  py! "CREATE TABLE IF NOT EXISTS ULogMessageLogging_tmp ( LogLevel INT, Timestamp REAL, Message \
    TEXT, ULogId INT REFERENCES ULog (Id) ON DELETE CASCADE )",
  py! "INSERT OR IGNORE INTO ULogMessageLogging_tmp SELECT * FROM ULogMessageLogging",
  py! "CREATE TABLE IF NOT EXISTS ULogMessageLoggingTagged_tmp ( LogLevel INT, Timestamp REAL, \
    Tag INT, Message TEXT, ULogId INT REFERENCES ULog (Id) ON DELETE CASCADE )",
  py! "INSERT OR IGNORE INTO ULogMessageLoggingTagged_tmp SELECT * FROM ULogMessageLoggingTagged",
  py! "CREATE TABLE IF NOT EXISTS ULogMessageInfo_tmp ( Key TEXT, Typename TEXT, Value BLOB, \
    ULogId INT REFERENCES ULog (Id) ON DELETE CASCADE )",
  py! "INSERT OR IGNORE INTO ULogMessageInfo_tmp SELECT * FROM ULogMessageInfo",
  py! "CREATE TABLE IF NOT EXISTS ULogMessageInfoMultiple_tmp ( Id INTEGER PRIMARY KEY \
    AUTOINCREMENT, Key TEXT, Typename TEXT, ULogId INT REFERENCES ULog (Id) ON DELETE CASCADE )",
  py! "INSERT OR IGNORE INTO ULogMessageInfoMultiple_tmp SELECT * FROM ULogMessageInfoMultiple",
  py! "CREATE TABLE IF NOT EXISTS ULogMessageInfoMultipleList_tmp ( Id INTEGER PRIMARY KEY \
    AUTOINCREMENT, SeriesIndex INTEGER, MessageId TEXT REFERENCES ULogMessageInfoMultiple (Id) \
    ON DELETE CASCADE )",
  py! "INSERT OR IGNORE INTO ULogMessageInfoMultipleList_tmp SELECT * FROM \
    ULogMessageInfoMultipleList",
  py! "CREATE TABLE IF NOT EXISTS ULogMessageInfoMultipleListElement_tmp ( Id INTEGER PRIMARY \
    KEY AUTOINCREMENT, SeriesIndex INTEGER, Value TEXT, ListId TEXT REFERENCES \
    ULogMessageInfoMultipleList (Id) ON DELETE CASCADE )",
  py! "INSERT OR IGNORE INTO ULogMessageInfoMultipleListElement_tmp SELECT * FROM \
    ULogMessageInfoMultipleListElement",
  py! "CREATE TABLE IF NOT EXISTS ULogInitialParameter_tmp ( Key TEXT, Value BLOB, ULogId INT \
    REFERENCES ULog (Id) ON DELETE CASCADE )",
  py! "INSERT OR IGNORE INTO ULogInitialParameter_tmp SELECT * FROM ULogInitialParameter",
  py! "CREATE TABLE IF NOT EXISTS ULogChangedParameter_tmp ( Timestamp REAL, Key TEXT, Value \
    BLOB, ULogId INT REFERENCES ULog (Id) ON DELETE CASCADE )",
  py! "INSERT OR IGNORE INTO ULogChangedParameter_tmp SELECT * FROM ULogChangedParameter",
  py! "CREATE TABLE IF NOT EXISTS ULogDefaultParameter_tmp ( DefaultType INT, Key TEXT, Value \
    BLOB, ULogId INT REFERENCES ULog (Id) ON DELETE CASCADE )",
  py! "INSERT OR IGNORE INTO ULogDefaultParameter_tmp SELECT * FROM ULogDefaultParameter",
  py! "DROP TABLE IF EXISTS ULog",
  py! "DROP TABLE IF EXISTS ULogAppendedOffsets",
  py! "DROP TABLE IF EXISTS ULogDataset",
  py! "DROP TABLE IF EXISTS ULogField",
  py! "DROP TABLE IF EXISTS ULogMessageDropout",
  py! "DROP TABLE IF EXISTS ULogMessageFormat",
  py! "DROP TABLE IF EXISTS ULogMessageFormatField",
  py! "DROP TABLE IF EXISTS ULogMessageLogging",
  py! "DROP TABLE IF EXISTS ULogMessageLoggingTagged",
  py! "DROP TABLE IF EXISTS ULogMessageInfo",
  py! "DROP TABLE IF EXISTS ULogMessageInfoMultiple",
  py! "DROP TABLE IF EXISTS ULogMessageInfoMultipleList",
  py! "DROP TABLE IF EXISTS ULogMessageInfoMultipleListElement",
  py! "DROP TABLE IF EXISTS ULogInitialParameter",
  py! "DROP TABLE IF EXISTS ULogChangedParameter",
  py! "DROP TABLE IF EXISTS ULogDefaultParameter",
  py! "ALTER TABLE ULog_tmp RENAME TO ULog",
  py! "ALTER TABLE ULogAppendedOffsets_tmp RENAME TO ULogAppendedOffsets",
  py! "ALTER TABLE ULogDataset_tmp RENAME TO ULogDataset",
  py! "ALTER TABLE ULogField_tmp RENAME TO ULogField",
  py! "ALTER TABLE ULogMessageDropout_tmp RENAME TO ULogMessageDropout",
  py! "ALTER TABLE ULogMessageFormat_tmp RENAME TO ULogMessageFormat",
  py! "ALTER TABLE ULogMessageFormatField_tmp RENAME TO ULogMessageFormatField",
  py! "ALTER TABLE ULogMessageLogging_tmp RENAME TO ULogMessageLogging",
  py! "ALTER TABLE ULogMessageLoggingTagged_tmp RENAME TO ULogMessageLoggingTagged",
  py! "ALTER TABLE ULogMessageInfo_tmp RENAME TO ULogMessageInfo",
  py! "ALTER TABLE ULogMessageInfoMultiple_tmp RENAME TO ULogMessageInfoMultiple",
  py! "ALTER TABLE ULogMessageInfoMultipleList_tmp RENAME TO ULogMessageInfoMultipleList",
  py! "ALTER TABLE ULogMessageInfoMultipleListElement_tmp RENAME TO \
    ULogMessageInfoMultipleListElement",
  py! "ALTER TABLE ULogInitialParameter_tmp RENAME TO ULogInitialParameter",
  py! "ALTER TABLE ULogChangedParameter_tmp RENAME TO ULogChangedParameter",
  py! "ALTER TABLE ULogDefaultParameter_tmp RENAME TO ULogDefaultParameter",
  py! "PRAGMA foreign_keys=on"]

/-- pyulog/sql/pyulog.2.sql -/
def script2 : Str := scriptText ([py! "BEGIN"] ++ body2 ++ [py! "COMMIT"])

/-- the statements between `BEGIN` and `COMMIT` in pyulog/sql/pyulog.3.sql:1-3 -/
def body3 : List Str := [
  py! "ALTER TABLE ULogField ADD COLUMN ValueJson JSON"]

/-- pyulog/sql/pyulog.3.sql -/
def script3 : Str := scriptText ([py! "BEGIN"] ++ body3 ++ [py! "COMMIT"])

/-- the statements between `BEGIN` and `COMMIT` in pyulog/sql/pyulog.4.sql:1-37 -/
def body4 : List Str := [
  py! "PRAGMA foreign_keys=off",
  py! "ALTER TABLE ULog RENAME COLUMN StartTimestamp TO StartTimestamp_old",
  py! "ALTER TABLE ULog ADD COLUMN StartTimestamp INT",
  py! "UPDATE ULog SET StartTimestamp = CAST(StartTimestamp_old AS INT)",
  py! "ALTER TABLE ULog RENAME COLUMN LastTimestamp TO LastTimestamp_old",
  py! "ALTER TABLE ULog ADD COLUMN LastTimestamp INT",
  py! "UPDATE ULog SET LastTimestamp = CAST(LastTimestamp_old AS INT)",
  py! "ALTER TABLE ULogMessageDropout RENAME COLUMN Timestamp TO Timestamp_old",
  py! "ALTER TABLE ULogMessageDropout ADD COLUMN Timestamp INT",
  py! "UPDATE ULogMessageDropout SET Timestamp = CAST(Timestamp_old AS INT)",
  py! "ALTER TABLE ULogMessageDropout RENAME COLUMN Duration TO Duration_old",
  py! "ALTER TABLE ULogMessageDropout ADD COLUMN Duration INT",
  py! "UPDATE ULogMessageDropout SET Duration = CAST(Duration_old AS INT)",
  py! "ALTER TABLE ULogMessageLogging RENAME COLUMN Timestamp TO Timestamp_old",
  py! "ALTER TABLE ULogMessageLogging ADD COLUMN Timestamp INT",
  py! "UPDATE ULogMessageLogging SET Timestamp = CAST(Timestamp_old AS INT)",
  py! "ALTER TABLE ULogMessageLoggingTagged RENAME COLUMN Timestamp TO Timestamp_old",
  py! "ALTER TABLE ULogMessageLoggingTagged ADD COLUMN Timestamp INT",
  py! "UPDATE ULogMessageLoggingTagged SET Timestamp = CAST(Timestamp_old AS INT)",
  py! "ALTER TABLE ULogChangedParameter RENAME COLUMN Timestamp TO Timestamp_old",
  py! "ALTER TABLE ULogChangedParameter ADD COLUMN Timestamp INT",
  py! "UPDATE ULogChangedParameter SET Timestamp = CAST(Timestamp_old AS INT)",
  py! "PRAGMA foreign_keys=on"]

/-- pyulog/sql/pyulog.4.sql -/
def script4 : Str := scriptText ([py! "BEGIN"] ++ body4 ++ [py! "COMMIT"])

/-- the statements between `BEGIN` and `COMMIT` in pyulog/sql/pyulog.5.sql:1-17 -/
def body5 : List Str := [
  py! "CREATE INDEX IF NOT EXISTS btree_ULogAppendedOffsets_ULogId ON \
    ULogAppendedOffsets(ULogId)",
  py! "CREATE INDEX IF NOT EXISTS btree_ULogDataset_ULogId ON ULogDataset(ULogId)",
  py! "CREATE INDEX IF NOT EXISTS btree_ULogField_DatasetId ON ULogField(DatasetId)",
  py! "CREATE INDEX IF NOT EXISTS btree_ULogMessageDropout_ULogId ON ULogMessageDropout(ULogId)",
  py! "CREATE INDEX IF NOT EXISTS btree_ULogMessageFormat_ULogId ON ULogMessageFormat(ULogId)",
  py! "CREATE INDEX IF NOT EXISTS btree_ULogMessageFormatField_MessageId ON \
    ULogMessageFormatField(MessageId)",
  py! "CREATE INDEX IF NOT EXISTS btree_ULogMessageLogging_ULogId ON ULogMessageLogging(ULogId)",
  py! "CREATE INDEX IF NOT EXISTS btree_ULogMessageLoggingTagged_ULogId ON \
    ULogMessageLoggingTagged(ULogId)",
  py! "CREATE INDEX IF NOT EXISTS btree_ULogMessageInfo_ULogId ON ULogMessageInfo(ULogId)",
  py! "CREATE INDEX IF NOT EXISTS btree_ULogMessageInfoMultiple_ULogId ON \
    ULogMessageInfoMultiple(ULogId)",
  py! "CREATE INDEX IF NOT EXISTS btree_ULogMessageInfoMultipleList_MessageId ON \
    ULogMessageInfoMultipleList(MessageId)",
  py! "CREATE INDEX IF NOT EXISTS btree_ULogMessageInfoMultipleListElement_ListId ON \
    ULogMessageInfoMultipleListElement(ListId)",
  py! "CREATE INDEX IF NOT EXISTS btree_ULogInitialParameter_ULogId ON \
    ULogInitialParameter(ULogId)",
  py! "CREATE INDEX IF NOT EXISTS btree_ULogChangedParameter_ULogId ON \
    ULogChangedParameter(ULogId)",
  py! "CREATE INDEX IF NOT EXISTS btree_ULogDefaultParameter_ULogId ON \
    ULogDefaultParameter(ULogId)"]

/-- pyulog/sql/pyulog.5.sql -/
def script5 : Str := scriptText ([py! "BEGIN"] ++ body5 ++ [py! "COMMIT"])

/-- the directory pyulog/sql -/
def shipped : SqlDir
  | 1 => some script1
  | 2 => some script2
  | 3 => some script3
  | 4 => some script4
  | 5 => some script5
  | _ => none

end PyULog
