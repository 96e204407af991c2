import Verif.Model.Db
import Verif.Model.NumberText
/-
The text of the column `ValueJson` (db.py:562-574).
-/
namespace PyULog

/-- loop of `str.replace`, from left to right; the fuel is the length of the text -/
def pyReplaceF (old new : Str) : Nat → Str → Str
  | 0, s => s
  | _ + 1, [] => []
  | f + 1, c :: cs =>
    if old.isPrefixOf (c :: cs) then new ++ pyReplaceF old new f ((c :: cs).drop old.length)
    else c :: pyReplaceF old new f cs

/-- `s.replace(old, new)` for a text `old` that is not empty -/
def pyReplace (old new s : Str) : Str := pyReplaceF old new s.length s

/-- `repr` of an element of `values.tolist()`: 32-bit floats become 64-bit floats -/
def listText : NpVal → Str
  | .int n => intDec n
  | .f32 b => f64Text (widen b)
  | .f64 b => f64Text b

/-- `str(dict(zip(timestamp_list, values.tolist())))`, the keys being texts of integers -/
def dictText (j : Dict Int NpVal) : Str :=
  '{' :: pyJoin (py! ", ") (j.map fun p => '\'' :: (intDec p.1 ++ ('\'' :: ':' :: ' ' :: listText p.2))) ++ ['}']

/-- the text given to SQLite (db.py:571-573) -/
def jsonText (j : Dict Int NpVal) : Str :=
  (pyReplace (py! "inf") (py! "null") (pyReplace (py! "nan") (py! "null") (dictText j))).map
    fun c => if c = '\'' then '"' else c

end PyULog
