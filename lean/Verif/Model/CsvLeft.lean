import Verif.Model.Extract
/-
What `convert_ulog2csv` (ulog2csv.py:117-151) leaves on the disk, also when it raises: the `with`
statement closes the file, so that everything written before the exception is in it.
-/
namespace PyULog

/-- the writes for the cells of one row (ulog2csv.py:142-151), up to the exception -/
def lineLeft (fmt : NpVal → Str) (delim : Str) (d : Dataset) (sizes : Dict Str Int) (row : Nat) :
    List Str → Str × Option PyErr
  | [] => (['\n'], none)
  | k :: ks => match csvCell fmt d sizes row k with
    | .error e => ([], some e)
    | .ok s =>
      let r := lineLeft fmt delim d sizes row ks
      (s ++ (if ks = [] then [] else delim) ++ r.1, r.2)

/-- the writes for the rows (ulog2csv.py:141-151), up to the exception -/
def rowsLeft (fmt : NpVal → Str) (delim : Str) (d : Dataset) (keys : List Str) (sizes : Dict Str Int) :
    List Nat → Str × Option PyErr
  | [] => ([], none)
  | i :: is => match lineLeft fmt delim d sizes i keys with
    | (t, some e) => (t, some e)
    | (t, none) =>
      let r := rowsLeft fmt delim d keys sizes is
      (t ++ r.1, r.2)

/-- the file of one dataset (ulog2csv.py:118-151): what is in it, or nothing when it was not opened, and the
exception -/
def fileLeft (fmt : NpVal → Str) (delim : Str) (timeS timeE : Option Int) (d : Dataset) :
    Option Str × Option PyErr :=
  match dictGet d.data (py! "timestamp") with
  | .error e => (none, some e)
  | .ok column => match getFields d with
    | .error e => (some [], some e)
    | .ok (keys, sizes) =>
      let header := pyJoin delim keys ++ ['\n']
      match window column timeS timeE with
      | .error e => (some header, some e)
      | .ok (s, e) =>
        let r := rowsLeft fmt delim d keys sizes (pyRange s e)
        (some (header ++ r.1), r.2)

/-- the loop over the datasets (ulog2csv.py:117-151) -/
def filesLeft (fmt : NpVal → Str) (pre delim : Str) (timeS timeE : Option Int) :
    List Dataset → Dict Str Str → Dict Str Str × Option PyErr
  | [], files => (files, none)
  | d :: ds, files => match fileLeft fmt delim timeS timeE d with
    | (none, e) => (files, e)
    | (some t, some e) => (files.set (csvName pre d) t, some e)
    | (some t, none) => filesLeft fmt pre delim timeS timeE ds (files.set (csvName pre d) t)

/-- the files after `convert_ulog2csv`, and the exception -/
def convertLeft (fmt : NpVal → Str) (pre delim : Str) (timeS timeE : Option Int) (u : ULog) :
    Dict Str Str × Option PyErr := filesLeft fmt pre delim timeS timeE u.dataList []

end PyULog
