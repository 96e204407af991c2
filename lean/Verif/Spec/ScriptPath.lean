import Verif.Model.ScriptPath
/-
The files of the migration scripts.
-/
namespace PyULog.Spec
open PyULog

/-- the script `id` in a directory: `<dir>/pyulog.<id>.sql` -/
def scriptName (dir : Str) (id : Nat) : Str :=
  dir ++ (if dir.getLast? = some '/' then [] else ['/']) ++ py! "pyulog." ++ natDec id ++ py! ".sql"

/-- a name without curly brackets -/
def NoBraces (s : Str) : Prop := '{' ∉ s ∧ '}' ∉ s

instance (s : Str) : Decidable (NoBraces s) := inferInstanceAs (Decidable (_ ∧ _))

end PyULog.Spec
