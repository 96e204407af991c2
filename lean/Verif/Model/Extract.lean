import Verif.Model.Api
import Verif.Model.FloatFmt
/-
`extract_message` (extract_message.py) and `ulog2csv` (ulog2csv.py).
-/
namespace PyULog

/-! ### time window -/

/-- nearest binary64 of a natural number (ties to even): integers below 2^53 are exact. The
overflow of numbers above 2^1024 is not modelled. -/
def rnd53 (n : Nat) : Nat :=
  if n < 2 ^ 53 then n else rne n (n.log2 - 52) * 2 ^ (n.log2 - 52)

/-- `time * 1e6` for an integer `time`, as a double: OverflowError if `time` is too large for a float -/
def micros (time : Int) : Except PyErr Nat :=
  let t := Fmt.b64.ofInt time
  if Fmt.b64.abs t = Fmt.b64.inf then .error .overflowError else .ok (Fmt.b64.mulNat t 1000000)

/-- one element of `column >= bound`: numpy compares integers with a Python float as doubles, and the
elements of a `float32` column with the bound rounded to a `float32` (numpy 2; numpy 1 differs for bounds
below the range of `float32`) -/
def reached (bound : Nat) : NpVal → Bool
  | .int n => Fmt.b64.ge (Fmt.b64.ofInt n) bound
  | .f32 b => Fmt.b32.ge b (narrow32 bound)
  | .f64 b => Fmt.b64.ge b bound

/-- `np.where(column >= time * 1e6)[0][0]` -/
def firstReached (column : List NpVal) (time : Int) : Except PyErr Nat := do
  let bound ← micros time
  pyIndex (whereTrue (column.map (reached bound))) 0

/-- one bound of the window: a missing bound or 0 means no bound, for which `dflt` is used
(extract_message.py:40-45, ulog2csv.py:133-138) -/
def windowBound (column : List NpVal) (dflt : Nat) : Option Int → Except PyErr Nat
  | some t => if t ≠ 0 then firstReached column t else .ok dflt
  | none => .ok dflt

/-- the index range of the rows to convert (extract_message.py:40-45, ulog2csv.py:133-138) -/
def window (column : List NpVal) (timeS timeE : Option Int) : Except PyErr (Nat × Nat) := do
  let s ← windowBound column 0 timeS
  let e ← windowBound column column.length timeE
  .ok (s, e)

/-- `range(s, e)` -/
def pyRange (s e : Nat) : List Nat := List.range' s (e - s)

/-- `l.remove(x)` -/
def pyRemove [DecidableEq α] (l : List α) (x : α) : Except PyErr (List α) :=
  if x ∈ l then .ok (l.erase x) else .error .valueError

/-- `keys.remove('timestamp'); keys.insert(0, 'timestamp')` -/
def timestampFirst (keys : List Str) : Except PyErr (List Str) := do
  let rest ← pyRemove keys (py! "timestamp")
  .ok (py! "timestamp" :: rest)

/-- a row of `extract_message` (extract_message.py:48-52) -/
def extractRow (d : Dataset) (keys : List Str) (i : Nat) : Except PyErr (Dict Str NpVal) := do
  let cells ← keys.mapM fun k => do
    let col ← dictGet d.data k
    let v ← pyIndex col i
    pure (k, v)
  .ok (cells.foldl (fun row c => row.set c.1 c.2) [])

/-- `extract_message` on the loaded log (extract_message.py:28-54). The log is loaded with the
message name as filter (extract_message.py:26, `NameFilter.substr`). -/
def extractFrom (u : ULog) (message : Str) (timeS timeE : Option Int) :
    Except PyErr (List (Dict Str NpVal)) :=
  match getDataset u message with
  | .error _ => .error .attributeError
  | .ok d => do
    let keys ← timestampFirst (d.fields.map (·.name))
    let column ← dictGet d.data (py! "timestamp")
    let (s, e) ← window column timeS timeE
    (pyRange s e).mapM (extractRow d keys)

/-! ### ulog2csv -/

/-- `re.fullmatch(r"(.*)\[(.*?)\]", s)`: the text before the last `[`, and the text between it and
the final `]`; `.` does not match a newline (ulog2csv.py:95,104) -/
def arrayPattern (s : Str) : Option (Str × Str) :=
  if '\n' ∈ s then none
  else match s.reverse with
    | ']' :: r =>
      if '[' ∈ r then
        some ((r.dropWhile (· ≠ '[')).tail.reverse, (r.takeWhile (· ≠ '[')).reverse)
      else none
    | _ => none

/-- loop of `get_fields` (ulog2csv.py:101-112) -/
def csvFields : List FieldData → List Str → Dict Str Int → Except PyErr (List Str × Dict Str Int)
  | [], keys, sizes => .ok (keys, sizes)
  | f :: fs, keys, sizes =>
    if startsWith (py! "_padding") f.name then csvFields fs keys sizes
    else match arrayPattern f.name with
      | some (field, index) =>
        if f.type = .char then do
          let i ← pyInt index
          let sizes := sizes.set field (max (i + 1) ((sizes.get? field).getD 0))
          csvFields fs (if i = 0 then keys ++ [field] else keys) sizes
        else csvFields fs (keys ++ [f.name]) sizes
      | none => csvFields fs (keys ++ [f.name]) sizes

/-- `get_fields` (ulog2csv.py:97-115) -/
def getFields (d : Dataset) : Except PyErr (List Str × Dict Str Int) := do
  let (keys, sizes) ← csvFields d.fields [] []
  let keys ← timestampFirst keys
  .ok (keys, sizes)

/-- `chr(character)` of an array element: negative numbers (bytes of 128 and more of a `char`
field) are a ValueError. The arguments that occur are below 128 (`np.int8`). -/
def pyChr : NpVal → Except PyErr Char
  | .int n =>
    if n < 0 then .error .valueError
    else if n < 128 then .ok (Char.ofNat n.toNat)
    else .error .unmodelled
  | _ => .error .typeError

/-- `read_string_data` (ulog2csv.py:55-63), `n` characters left from `index` -/
def readStringData (d : Dataset) (field : Str) (row : Nat) : Nat → Nat → Except PyErr Str
  | 0, _ => .ok []
  | n + 1, index => do
    let col ← dictGet d.data (field ++ '[' :: natDec index ++ [']'])
    let v ← pyIndex col row
    if npEqInt v 0 then .ok []
    else do
      let c ← pyChr v
      let rest ← readStringData d field row n (index + 1)
      .ok (c :: rest)

/-- one cell (ulog2csv.py:144-148); `fmt` is `str` of an array element -/
def csvCell (fmt : NpVal → Str) (d : Dataset) (sizes : Dict Str Int) (row : Nat) (key : Str) :
    Except PyErr Str :=
  match sizes.get? key with
  | some n => readStringData d key row n.toNat 0
  | none => do
    let col ← dictGet d.data key
    let v ← pyIndex col row
    .ok (fmt v)

/-- `delimiter.join(l)` -/
def pyJoin (sep : Str) : List Str → Str
  | [] => []
  | [x] => x
  | x :: xs => x ++ sep ++ pyJoin sep xs

/-- one line: cells separated by the delimiter (ulog2csv.py:143-151) -/
def csvLine (fmt : NpVal → Str) (delim : Str) (d : Dataset) (keys : List Str) (sizes : Dict Str Int)
    (row : Nat) : Except PyErr Str := do
  let cells ← keys.mapM (csvCell fmt d sizes row)
  .ok (pyJoin delim cells ++ ['\n'])

/-- contents of the file of one dataset (ulog2csv.py:120-151). What a failure leaves is
`fileLeft` (CsvLeft.lean). -/
def csvFile (fmt : NpVal → Str) (delim : Str) (timeS timeE : Option Int) (d : Dataset) :
    Except PyErr Str := do
  let column ← dictGet d.data (py! "timestamp")
  let (keys, sizes) ← getFields d
  let (s, e) ← window column timeS timeE
  let lines ← (pyRange s e).mapM (csvLine fmt delim d keys sizes)
  .ok (pyJoin delim keys ++ ['\n'] ++ lines.flatten)

/-- `s.replace('/', '_')` -/
def replaceSlash (s : Str) : Str := s.map fun c => if c = '/' then '_' else c

/-- name of the output file (ulog2csv.py:118-119) -/
def csvName (pre : Str) (d : Dataset) : Str :=
  pre ++ '_' :: replaceSlash d.name ++ '_' :: natDec d.multiId ++ py! ".csv"

/-- the files written by `convert_ulog2csv` (ulog2csv.py:117-151), in order: opening a file with
mode `w` discards the previous contents -/
def convertCsv (fmt : NpVal → Str) (pre delim : Str) (timeS timeE : Option Int) (u : ULog) :
    Except PyErr (Dict Str Str) :=
  u.dataList.foldlM (fun files d => do
    let text ← csvFile fmt delim timeS timeE d
    .ok (files.set (csvName pre d) text)) []

end PyULog
