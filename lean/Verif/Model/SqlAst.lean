import Verif.Model.SqlScripts
/-
The statements of the shipped scripts in parsed form. `Lemmas/Shipped.lean` proves that the texts of
`Model/SqlScripts.lean` parse to exactly these.
-/
namespace PyULog

/-- pyulog/sql/pyulog.1.sql -/
def ast1 : List SqlStmt := [
  .createTable (py! "ULOG") ⟨[(py! "ID", py! "INTEGER"), (py! "FILEVERSION", py! "INT"), (py!
    "STARTTIMESTAMP", py! "REAL"), (py! "LASTTIMESTAMP", py! "REAL"), (py! "COMPATFLAGS", py!
    "TEXT"), (py! "INCOMPATFLAGS", py! "TEXT"), (py! "SYNCCOUNT", py! "INT"), (py! "HASSYNC", py!
    "BOOLEAN")], [[py! "ID"]], [], []⟩,
  .createTable (py! "ULOGAPPENDEDOFFSETS") ⟨[(py! "SERIESINDEX", py! "INTEGER"), (py! "OFFSET", py!
    "INTEGER"), (py! "ULOGID", py! "INT")], [], [⟨py! "ULOGID", py! "ULOG", py! "ID", false⟩], []⟩,
  .createTable (py! "ULOGDATASET") ⟨[(py! "ID", py! "INTEGER"), (py! "DATASETNAME", py! "TEXT"),
    (py! "MULTIID", py! "INT"), (py! "MESSAGEID", py! "INT"), (py! "TIMESTAMPINDEX", py! "INT"),
    (py! "ULOGID", py! "INT")], [[py! "ID"], [py! "ULOGID", py! "DATASETNAME", py! "MULTIID"]],
    [⟨py! "ULOGID", py! "ULOG", py! "ID", false⟩], []⟩,
  .createTable (py! "ULOGFIELD") ⟨[(py! "ID", py! "INTEGER"), (py! "TOPICNAME", py! "TEXT"), (py!
    "DATATYPE", py! "TEXT"), (py! "VALUEARRAY", py! "BLOB"), (py! "DATASETID", py! "INTEGER")],
    [[py! "ID"]], [⟨py! "DATASETID", py! "ULOGDATASET", py! "ID", false⟩], []⟩,
  .createIndex (py! "BTREE_ULOGFIELD_DATASETID") (py! "ULOGFIELD") (py! "DATASETID"),
  .createTable (py! "ULOGMESSAGEDROPOUT") ⟨[(py! "TIMESTAMP", py! "REAL"), (py! "DURATION", py!
    "FLOAT"), (py! "ULOGID", py! "INT")], [], [⟨py! "ULOGID", py! "ULOG", py! "ID", false⟩], []⟩,
  .createTable (py! "ULOGMESSAGEFORMAT") ⟨[(py! "ID", py! "INTEGER"), (py! "NAME", py! "TEXT"), (py!
    "ULOGID", py! "INT")], [[py! "ID"]], [⟨py! "ULOGID", py! "ULOG", py! "ID", false⟩], []⟩,
  .createTable (py! "ULOGMESSAGEFORMATFIELD") ⟨[(py! "FIELDTYPE", py! "TEXT"), (py! "ARRAYSIZE", py!
    "INT"), (py! "NAME", py! "TEXT"), (py! "MESSAGEID", py! "INT")], [], [⟨py! "MESSAGEID", py!
    "ULOGMESSAGEFORMAT", py! "ID", false⟩], []⟩,
  .createTable (py! "ULOGMESSAGELOGGING") ⟨[(py! "LOGLEVEL", py! "INT"), (py! "TIMESTAMP", py!
    "REAL"), (py! "MESSAGE", py! "TEXT"), (py! "ULOGID", py! "INT")], [], [⟨py! "ULOGID", py!
    "ULOG", py! "ID", false⟩], []⟩,
  .createTable (py! "ULOGMESSAGELOGGINGTAGGED") ⟨[(py! "LOGLEVEL", py! "INT"), (py! "TIMESTAMP", py!
    "REAL"), (py! "TAG", py! "INT"), (py! "MESSAGE", py! "TEXT"), (py! "ULOGID", py! "INT")], [],
    [⟨py! "ULOGID", py! "ULOG", py! "ID", false⟩], []⟩,
  .createTable (py! "ULOGMESSAGEINFO") ⟨[(py! "KEY", py! "TEXT"), (py! "TYPENAME", py! "TEXT"), (py!
    "VALUE", py! "BLOB"), (py! "ULOGID", py! "INT")], [], [⟨py! "ULOGID", py! "ULOG", py! "ID",
    false⟩], []⟩,
  .createTable (py! "ULOGMESSAGEINFOMULTIPLE") ⟨[(py! "ID", py! "INTEGER"), (py! "KEY", py! "TEXT"),
    (py! "TYPENAME", py! "TEXT"), (py! "ULOGID", py! "INT")], [[py! "ID"]], [⟨py! "ULOGID", py!
    "ULOG", py! "ID", false⟩], []⟩,
  .createTable (py! "ULOGMESSAGEINFOMULTIPLELIST") ⟨[(py! "ID", py! "INTEGER"), (py! "SERIESINDEX",
    py! "INTEGER"), (py! "MESSAGEID", py! "TEXT")], [[py! "ID"]], [⟨py! "MESSAGEID", py!
    "ULOGMESSAGEINFOMULTIPLE", py! "ID", false⟩], []⟩,
  .createTable (py! "ULOGMESSAGEINFOMULTIPLELISTELEMENT") ⟨[(py! "ID", py! "INTEGER"), (py!
    "SERIESINDEX", py! "INTEGER"), (py! "VALUE", py! "TEXT"), (py! "LISTID", py! "TEXT")], [[py!
    "ID"]], [⟨py! "LISTID", py! "ULOGMESSAGEINFOMULTIPLELIST", py! "ID", false⟩], []⟩,
  .createTable (py! "ULOGINITIALPARAMETER") ⟨[(py! "KEY", py! "TEXT"), (py! "VALUE", py! "BLOB"),
    (py! "ULOGID", py! "INT")], [], [⟨py! "ULOGID", py! "ULOG", py! "ID", false⟩], []⟩,
  .createTable (py! "ULOGCHANGEDPARAMETER") ⟨[(py! "TIMESTAMP", py! "REAL"), (py! "KEY", py!
    "TEXT"), (py! "VALUE", py! "BLOB"), (py! "ULOGID", py! "INT")], [], [⟨py! "ULOGID", py! "ULOG",
    py! "ID", false⟩], []⟩,
  .createTable (py! "ULOGDEFAULTPARAMETER") ⟨[(py! "DEFAULTTYPE", py! "INT"), (py! "KEY", py!
    "TEXT"), (py! "VALUE", py! "BLOB"), (py! "ULOGID", py! "INT")], [], [⟨py! "ULOGID", py! "ULOG",
    py! "ID", false⟩], []⟩]

/-- pyulog/sql/pyulog.2.sql -/
def ast2 : List SqlStmt := [
  .foreignKeys,
  .createTable (py! "ULOG_TMP") ⟨[(py! "ID", py! "INTEGER"), (py! "SHA256SUM", py! "TEXT"), (py!
    "FILEVERSION", py! "INT"), (py! "STARTTIMESTAMP", py! "REAL"), (py! "LASTTIMESTAMP", py!
    "REAL"), (py! "COMPATFLAGS", py! "TEXT"), (py! "INCOMPATFLAGS", py! "TEXT"), (py! "SYNCCOUNT",
    py! "INT"), (py! "HASSYNC", py! "BOOLEAN")], [[py! "ID"], [py! "SHA256SUM"]], [], []⟩,
  .insertSelect (py! "ULOG_TMP") (some [py! "ID", py! "FILEVERSION", py! "STARTTIMESTAMP", py!
    "LASTTIMESTAMP", py! "COMPATFLAGS", py! "INCOMPATFLAGS", py! "SYNCCOUNT", py! "HASSYNC"]) (py!
    "ULOG") (some [py! "ID", py! "FILEVERSION", py! "STARTTIMESTAMP", py! "LASTTIMESTAMP", py!
    "COMPATFLAGS", py! "INCOMPATFLAGS", py! "SYNCCOUNT", py! "HASSYNC"]),
  .createTable (py! "ULOGAPPENDEDOFFSETS_TMP") ⟨[(py! "SERIESINDEX", py! "INTEGER"), (py! "OFFSET",
    py! "INTEGER"), (py! "ULOGID", py! "INT")], [], [⟨py! "ULOGID", py! "ULOG_TMP", py! "ID",
    true⟩], []⟩,
  .insertSelect (py! "ULOGAPPENDEDOFFSETS_TMP") none (py! "ULOGAPPENDEDOFFSETS") none,
  .createTable (py! "ULOGDATASET_TMP") ⟨[(py! "ID", py! "INTEGER"), (py! "DATASETNAME", py! "TEXT"),
    (py! "MULTIID", py! "INT"), (py! "MESSAGEID", py! "INT"), (py! "TIMESTAMPINDEX", py! "INT"),
    (py! "ULOGID", py! "INT")], [[py! "ID"], [py! "ULOGID", py! "DATASETNAME", py! "MULTIID"]],
    [⟨py! "ULOGID", py! "ULOG", py! "ID", true⟩], []⟩,
  .insertSelect (py! "ULOGDATASET_TMP") none (py! "ULOGDATASET") none,
  .createTable (py! "ULOGFIELD_TMP") ⟨[(py! "ID", py! "INTEGER"), (py! "TOPICNAME", py! "TEXT"),
    (py! "DATATYPE", py! "TEXT"), (py! "VALUEARRAY", py! "BLOB"), (py! "DATASETID", py! "INTEGER")],
    [[py! "ID"]], [⟨py! "DATASETID", py! "ULOGDATASET", py! "ID", true⟩], []⟩,
  .insertSelect (py! "ULOGFIELD_TMP") none (py! "ULOGFIELD") none,
  .createIndex (py! "BTREE_ULOGFIELD_DATASETID") (py! "ULOGFIELD_TMP") (py! "DATASETID"),
  .createTable (py! "ULOGMESSAGEDROPOUT_TMP") ⟨[(py! "TIMESTAMP", py! "REAL"), (py! "DURATION", py!
    "FLOAT"), (py! "ULOGID", py! "INT")], [], [⟨py! "ULOGID", py! "ULOG", py! "ID", true⟩], []⟩,
  .insertSelect (py! "ULOGMESSAGEDROPOUT_TMP") none (py! "ULOGMESSAGEDROPOUT") none,
  .createTable (py! "ULOGMESSAGEFORMAT_TMP") ⟨[(py! "ID", py! "INTEGER"), (py! "NAME", py! "TEXT"),
    (py! "ULOGID", py! "INT")], [[py! "ID"]], [⟨py! "ULOGID", py! "ULOG", py! "ID", true⟩], []⟩,
  .insertSelect (py! "ULOGMESSAGEFORMAT_TMP") none (py! "ULOGMESSAGEFORMAT") none,
  .createTable (py! "ULOGMESSAGEFORMATFIELD_TMP") ⟨[(py! "FIELDTYPE", py! "TEXT"), (py! "ARRAYSIZE",
    py! "INT"), (py! "NAME", py! "TEXT"), (py! "MESSAGEID", py! "INT")], [], [⟨py! "MESSAGEID", py!
    "ULOGMESSAGEFORMAT", py! "ID", true⟩], []⟩,
  .insertSelect (py! "ULOGMESSAGEFORMATFIELD_TMP") none (py! "ULOGMESSAGEFORMATFIELD") none,
  .createTable (py! "ULOGMESSAGELOGGING_TMP") ⟨[(py! "LOGLEVEL", py! "INT"), (py! "TIMESTAMP", py!
    "REAL"), (py! "MESSAGE", py! "TEXT"), (py! "ULOGID", py! "INT")], [], [⟨py! "ULOGID", py!
    "ULOG", py! "ID", true⟩], []⟩,
  .insertSelect (py! "ULOGMESSAGELOGGING_TMP") none (py! "ULOGMESSAGELOGGING") none,
  .createTable (py! "ULOGMESSAGELOGGINGTAGGED_TMP") ⟨[(py! "LOGLEVEL", py! "INT"), (py! "TIMESTAMP",
    py! "REAL"), (py! "TAG", py! "INT"), (py! "MESSAGE", py! "TEXT"), (py! "ULOGID", py! "INT")],
    [], [⟨py! "ULOGID", py! "ULOG", py! "ID", true⟩], []⟩,
  .insertSelect (py! "ULOGMESSAGELOGGINGTAGGED_TMP") none (py! "ULOGMESSAGELOGGINGTAGGED") none,
  .createTable (py! "ULOGMESSAGEINFO_TMP") ⟨[(py! "KEY", py! "TEXT"), (py! "TYPENAME", py! "TEXT"),
    (py! "VALUE", py! "BLOB"), (py! "ULOGID", py! "INT")], [], [⟨py! "ULOGID", py! "ULOG", py! "ID",
    true⟩], []⟩,
  .insertSelect (py! "ULOGMESSAGEINFO_TMP") none (py! "ULOGMESSAGEINFO") none,
  .createTable (py! "ULOGMESSAGEINFOMULTIPLE_TMP") ⟨[(py! "ID", py! "INTEGER"), (py! "KEY", py!
    "TEXT"), (py! "TYPENAME", py! "TEXT"), (py! "ULOGID", py! "INT")], [[py! "ID"]], [⟨py! "ULOGID",
    py! "ULOG", py! "ID", true⟩], []⟩,
  .insertSelect (py! "ULOGMESSAGEINFOMULTIPLE_TMP") none (py! "ULOGMESSAGEINFOMULTIPLE") none,
  .createTable (py! "ULOGMESSAGEINFOMULTIPLELIST_TMP") ⟨[(py! "ID", py! "INTEGER"), (py!
    "SERIESINDEX", py! "INTEGER"), (py! "MESSAGEID", py! "TEXT")], [[py! "ID"]], [⟨py! "MESSAGEID",
    py! "ULOGMESSAGEINFOMULTIPLE", py! "ID", true⟩], []⟩,
  .insertSelect (py! "ULOGMESSAGEINFOMULTIPLELIST_TMP") none (py! "ULOGMESSAGEINFOMULTIPLELIST")
    none,
  .createTable (py! "ULOGMESSAGEINFOMULTIPLELISTELEMENT_TMP") ⟨[(py! "ID", py! "INTEGER"), (py!
    "SERIESINDEX", py! "INTEGER"), (py! "VALUE", py! "TEXT"), (py! "LISTID", py! "TEXT")], [[py!
    "ID"]], [⟨py! "LISTID", py! "ULOGMESSAGEINFOMULTIPLELIST", py! "ID", true⟩], []⟩,
  .insertSelect (py! "ULOGMESSAGEINFOMULTIPLELISTELEMENT_TMP") none (py!
    "ULOGMESSAGEINFOMULTIPLELISTELEMENT") none,
  .createTable (py! "ULOGINITIALPARAMETER_TMP") ⟨[(py! "KEY", py! "TEXT"), (py! "VALUE", py!
    "BLOB"), (py! "ULOGID", py! "INT")], [], [⟨py! "ULOGID", py! "ULOG", py! "ID", true⟩], []⟩,
  .insertSelect (py! "ULOGINITIALPARAMETER_TMP") none (py! "ULOGINITIALPARAMETER") none,
  .createTable (py! "ULOGCHANGEDPARAMETER_TMP") ⟨[(py! "TIMESTAMP", py! "REAL"), (py! "KEY", py!
    "TEXT"), (py! "VALUE", py! "BLOB"), (py! "ULOGID", py! "INT")], [], [⟨py! "ULOGID", py! "ULOG",
    py! "ID", true⟩], []⟩,
  .insertSelect (py! "ULOGCHANGEDPARAMETER_TMP") none (py! "ULOGCHANGEDPARAMETER") none,
  .createTable (py! "ULOGDEFAULTPARAMETER_TMP") ⟨[(py! "DEFAULTTYPE", py! "INT"), (py! "KEY", py!
    "TEXT"), (py! "VALUE", py! "BLOB"), (py! "ULOGID", py! "INT")], [], [⟨py! "ULOGID", py! "ULOG",
    py! "ID", true⟩], []⟩,
  .insertSelect (py! "ULOGDEFAULTPARAMETER_TMP") none (py! "ULOGDEFAULTPARAMETER") none,
  .dropTable (py! "ULOG"),
  .dropTable (py! "ULOGAPPENDEDOFFSETS"),
  .dropTable (py! "ULOGDATASET"),
  .dropTable (py! "ULOGFIELD"),
  .dropTable (py! "ULOGMESSAGEDROPOUT"),
  .dropTable (py! "ULOGMESSAGEFORMAT"),
  .dropTable (py! "ULOGMESSAGEFORMATFIELD"),
  .dropTable (py! "ULOGMESSAGELOGGING"),
  .dropTable (py! "ULOGMESSAGELOGGINGTAGGED"),
  .dropTable (py! "ULOGMESSAGEINFO"),
  .dropTable (py! "ULOGMESSAGEINFOMULTIPLE"),
  .dropTable (py! "ULOGMESSAGEINFOMULTIPLELIST"),
  .dropTable (py! "ULOGMESSAGEINFOMULTIPLELISTELEMENT"),
  .dropTable (py! "ULOGINITIALPARAMETER"),
  .dropTable (py! "ULOGCHANGEDPARAMETER"),
  .dropTable (py! "ULOGDEFAULTPARAMETER"),
  .renameTable (py! "ULOG_TMP") (py! "ULOG"),
  .renameTable (py! "ULOGAPPENDEDOFFSETS_TMP") (py! "ULOGAPPENDEDOFFSETS"),
  .renameTable (py! "ULOGDATASET_TMP") (py! "ULOGDATASET"),
  .renameTable (py! "ULOGFIELD_TMP") (py! "ULOGFIELD"),
  .renameTable (py! "ULOGMESSAGEDROPOUT_TMP") (py! "ULOGMESSAGEDROPOUT"),
  .renameTable (py! "ULOGMESSAGEFORMAT_TMP") (py! "ULOGMESSAGEFORMAT"),
  .renameTable (py! "ULOGMESSAGEFORMATFIELD_TMP") (py! "ULOGMESSAGEFORMATFIELD"),
  .renameTable (py! "ULOGMESSAGELOGGING_TMP") (py! "ULOGMESSAGELOGGING"),
  .renameTable (py! "ULOGMESSAGELOGGINGTAGGED_TMP") (py! "ULOGMESSAGELOGGINGTAGGED"),
  .renameTable (py! "ULOGMESSAGEINFO_TMP") (py! "ULOGMESSAGEINFO"),
  .renameTable (py! "ULOGMESSAGEINFOMULTIPLE_TMP") (py! "ULOGMESSAGEINFOMULTIPLE"),
  .renameTable (py! "ULOGMESSAGEINFOMULTIPLELIST_TMP") (py! "ULOGMESSAGEINFOMULTIPLELIST"),
  .renameTable (py! "ULOGMESSAGEINFOMULTIPLELISTELEMENT_TMP") (py!
    "ULOGMESSAGEINFOMULTIPLELISTELEMENT"),
  .renameTable (py! "ULOGINITIALPARAMETER_TMP") (py! "ULOGINITIALPARAMETER"),
  .renameTable (py! "ULOGCHANGEDPARAMETER_TMP") (py! "ULOGCHANGEDPARAMETER"),
  .renameTable (py! "ULOGDEFAULTPARAMETER_TMP") (py! "ULOGDEFAULTPARAMETER"),
  .foreignKeys]

/-- pyulog/sql/pyulog.3.sql -/
def ast3 : List SqlStmt := [
  .addColumn (py! "ULOGFIELD") (py! "VALUEJSON") (py! "JSON")]

/-- pyulog/sql/pyulog.4.sql -/
def ast4 : List SqlStmt := [
  .foreignKeys,
  .renameColumn (py! "ULOG") (py! "STARTTIMESTAMP") (py! "STARTTIMESTAMP_OLD"),
  .addColumn (py! "ULOG") (py! "STARTTIMESTAMP") (py! "INT"),
  .updateCast (py! "ULOG") (py! "STARTTIMESTAMP") (py! "STARTTIMESTAMP_OLD"),
  .renameColumn (py! "ULOG") (py! "LASTTIMESTAMP") (py! "LASTTIMESTAMP_OLD"),
  .addColumn (py! "ULOG") (py! "LASTTIMESTAMP") (py! "INT"),
  .updateCast (py! "ULOG") (py! "LASTTIMESTAMP") (py! "LASTTIMESTAMP_OLD"),
  .renameColumn (py! "ULOGMESSAGEDROPOUT") (py! "TIMESTAMP") (py! "TIMESTAMP_OLD"),
  .addColumn (py! "ULOGMESSAGEDROPOUT") (py! "TIMESTAMP") (py! "INT"),
  .updateCast (py! "ULOGMESSAGEDROPOUT") (py! "TIMESTAMP") (py! "TIMESTAMP_OLD"),
  .renameColumn (py! "ULOGMESSAGEDROPOUT") (py! "DURATION") (py! "DURATION_OLD"),
  .addColumn (py! "ULOGMESSAGEDROPOUT") (py! "DURATION") (py! "INT"),
  .updateCast (py! "ULOGMESSAGEDROPOUT") (py! "DURATION") (py! "DURATION_OLD"),
  .renameColumn (py! "ULOGMESSAGELOGGING") (py! "TIMESTAMP") (py! "TIMESTAMP_OLD"),
  .addColumn (py! "ULOGMESSAGELOGGING") (py! "TIMESTAMP") (py! "INT"),
  .updateCast (py! "ULOGMESSAGELOGGING") (py! "TIMESTAMP") (py! "TIMESTAMP_OLD"),
  .renameColumn (py! "ULOGMESSAGELOGGINGTAGGED") (py! "TIMESTAMP") (py! "TIMESTAMP_OLD"),
  .addColumn (py! "ULOGMESSAGELOGGINGTAGGED") (py! "TIMESTAMP") (py! "INT"),
  .updateCast (py! "ULOGMESSAGELOGGINGTAGGED") (py! "TIMESTAMP") (py! "TIMESTAMP_OLD"),
  .renameColumn (py! "ULOGCHANGEDPARAMETER") (py! "TIMESTAMP") (py! "TIMESTAMP_OLD"),
  .addColumn (py! "ULOGCHANGEDPARAMETER") (py! "TIMESTAMP") (py! "INT"),
  .updateCast (py! "ULOGCHANGEDPARAMETER") (py! "TIMESTAMP") (py! "TIMESTAMP_OLD"),
  .foreignKeys]

/-- pyulog/sql/pyulog.5.sql -/
def ast5 : List SqlStmt := [
  .createIndex (py! "BTREE_ULOGAPPENDEDOFFSETS_ULOGID") (py! "ULOGAPPENDEDOFFSETS") (py! "ULOGID"),
  .createIndex (py! "BTREE_ULOGDATASET_ULOGID") (py! "ULOGDATASET") (py! "ULOGID"),
  .createIndex (py! "BTREE_ULOGFIELD_DATASETID") (py! "ULOGFIELD") (py! "DATASETID"),
  .createIndex (py! "BTREE_ULOGMESSAGEDROPOUT_ULOGID") (py! "ULOGMESSAGEDROPOUT") (py! "ULOGID"),
  .createIndex (py! "BTREE_ULOGMESSAGEFORMAT_ULOGID") (py! "ULOGMESSAGEFORMAT") (py! "ULOGID"),
  .createIndex (py! "BTREE_ULOGMESSAGEFORMATFIELD_MESSAGEID") (py! "ULOGMESSAGEFORMATFIELD") (py!
    "MESSAGEID"),
  .createIndex (py! "BTREE_ULOGMESSAGELOGGING_ULOGID") (py! "ULOGMESSAGELOGGING") (py! "ULOGID"),
  .createIndex (py! "BTREE_ULOGMESSAGELOGGINGTAGGED_ULOGID") (py! "ULOGMESSAGELOGGINGTAGGED") (py!
    "ULOGID"),
  .createIndex (py! "BTREE_ULOGMESSAGEINFO_ULOGID") (py! "ULOGMESSAGEINFO") (py! "ULOGID"),
  .createIndex (py! "BTREE_ULOGMESSAGEINFOMULTIPLE_ULOGID") (py! "ULOGMESSAGEINFOMULTIPLE") (py!
    "ULOGID"),
  .createIndex (py! "BTREE_ULOGMESSAGEINFOMULTIPLELIST_MESSAGEID") (py!
    "ULOGMESSAGEINFOMULTIPLELIST") (py! "MESSAGEID"),
  .createIndex (py! "BTREE_ULOGMESSAGEINFOMULTIPLELISTELEMENT_LISTID") (py!
    "ULOGMESSAGEINFOMULTIPLELISTELEMENT") (py! "LISTID"),
  .createIndex (py! "BTREE_ULOGINITIALPARAMETER_ULOGID") (py! "ULOGINITIALPARAMETER") (py!
    "ULOGID"),
  .createIndex (py! "BTREE_ULOGCHANGEDPARAMETER_ULOGID") (py! "ULOGCHANGEDPARAMETER") (py!
    "ULOGID"),
  .createIndex (py! "BTREE_ULOGDEFAULTPARAMETER_ULOGID") (py! "ULOGDEFAULTPARAMETER") (py! "ULOGID")]

end PyULog
