import Verif.Model.Prints
import Verif.Props.Csv
import Verif.Spec.ScriptPath
import Verif.Spec.Migrate
/-
What the converters should print.
-/
namespace PyULog.Spec
open PyULog

/-- the number of samples of a dataset -/
def points (d : Dataset) : Nat := ((d.data.get? (py! "timestamp")).getD []).length

/-- the announcement of a file -/
def announcement (pre : Str) (d : Dataset) : Str :=
  py! "Writing " ++ csvName pre d ++ py! " (" ++ natDec (points d) ++ py! " data points)"

/-- the announcement of the dumps -/
def dumpLine (names : Str × Str) : Str := py! "Creating files " ++ names.1 ++ py! " and " ++ names.2

/-- the warning about missing data -/
def dropoutWarning (n : Nat) : Str := py! "Warning: file contains " ++ natDec n ++ py! " dropouts"

/-- the summary of a bag -/
def bagSummary (name : Str) (bag : Bag) : List Str :=
  [[], py! "Wrote rosbag '" ++ name ++ py! "' with " ++ natDec bag.topics.length ++ py! " topics and " ++
    natDec bag.messages.length ++ py! " messages."]

/-- the lines for one migration: its file, and its text if it is not executed -/
def scriptLines (files : Str → Option Str) (dir : Str) (noop : Bool) (id : Nat) : List Str :=
  (py! "Executing " ++ scriptName dir id ++ py! ".") ::
    if noop then [(files (scriptName dir id)).getD [] ++ py! "\nPRAGMA user_version = " ++ natDec id ++ py! ";"] else []

/-- the first lines of a migration -/
def migrationHead (dir db : Str) (found : Bool) (version : Nat) : List Str :=
  [py! "Using migration files in " ++ dir ++ py! ".",
    if found then py! "Found database file " ++ db ++ py! "."
    else py! "Database file " ++ db ++ py! " not found, creating it from scratch.",
    py! "Current schema version: " ++ natDec version ++ py! " (database) and " ++ py! "5" ++ py! " (code)."]

/-- the end of a migration -/
def migrationDone : Str := py! "Migration done."

end PyULog.Spec
