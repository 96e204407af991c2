import Verif.Spec.SqlShape
import Verif.Spec.Number
/-
What it means that a migration keeps the stored logs.
-/
namespace PyULog.Spec
open PyULog

/-- a foreign key value names a key: the same number, the digits of the number, or the same text -/
inductive Refers : SqlVal → SqlVal → Prop
  | int (a : Int) : Refers (.int a) (.int a)
  | digits (a : Int) : Refers (.int a) (.text (intDec a))
  | text (a : Str) : Refers (.text a) (.text a)

/-- every row has a value for every column -/
def FullRows (s : Schema) : Prop :=
  ∀ n t, s.tables.get? n = some t → ∀ r ∈ t.rows, r.length = t.cols.length

/-- the columns that script 4 turns into integers -/
def retyped : List (Str × Str) := [
  (py! "ULOG", py! "STARTTIMESTAMP"), (py! "ULOG", py! "LASTTIMESTAMP"),
  (py! "ULOGMESSAGEDROPOUT", py! "TIMESTAMP"), (py! "ULOGMESSAGEDROPOUT", py! "DURATION"),
  (py! "ULOGMESSAGELOGGING", py! "TIMESTAMP"), (py! "ULOGMESSAGELOGGINGTAGGED", py! "TIMESTAMP"),
  (py! "ULOGCHANGEDPARAMETER", py! "TIMESTAMP")]

/-- a number or NULL; a real number is a pattern of 64 bits -/
def Numeric : SqlVal → Prop
  | .null | .int _ => True
  | .real x => x < 2 ^ 64
  | _ => False

/-- the integer part of a number, at most and at least what 64 bits can hold. `val64` is the value in units
of 2^-1074; the infinities have values out of the range. -/
def integerPart : SqlVal → SqlVal
  | .real x => .int (max (min ((val64 x).tdiv (2 ^ 1074 : Nat)) (2 ^ 63 - 1)) (-2 ^ 63))
  | v => v

/-- row by row, in the same order, `t'` has the values of `t` in the columns of `t`; those in `casts`
are converted to integers -/
def KeptTable (casts : Str → Prop) (t t' : Table) : Prop :=
  ∃ g : List SqlVal → List SqlVal, t'.rows = t.rows.map g ∧
    ∀ r ∈ t.rows, (g r).length = t'.cols.length ∧
      ∀ c ∈ t.cols.map (·.1),
        (¬ casts c → colVal t' (g r) c = colVal t r c) ∧
        (casts c → colVal t' (g r) c = integerPart (colVal t r c))

/-- every table is kept -/
def KeptData (casts : Str → Str → Prop) (s s' : Schema) : Prop :=
  ∀ n t, s.tables.get? n = some t → ∃ t', s'.tables.get? n = some t' ∧ KeptTable (casts n) t t' ∧
    ∀ c ∈ t.cols.map (·.1), c ∈ t'.cols.map (·.1)

end PyULog.Spec
