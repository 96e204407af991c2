import Verif.Model.Extract
import Verif.Model.Ros2
import Verif.Model.Attitude
import Verif.Model.Kml
import Verif.Model.Events
/-
The command line tools on a file (ulog2csv.py, ulog2ros2bag.py, extract_gps_dump.py, params.py, messages.py):
names of output files and the choice of messages, with the functions of `posixpath` and `pathlib` they use.
-/
namespace PyULog

/-- one of the two forms of a letter -/
def isForm (lower upper c : Char) : Bool := decide (c = lower) || decide (c = upper)

/-- `s.lower().endswith('.ulg')`: no character besides these has a lower case form with `.`, `u`, `l` or
`g` in it -/
def endsUlg (s : Str) : Bool :=
  match s.reverse with
  | g :: l :: u :: d :: _ => isForm 'g' 'G' g && isForm 'l' 'L' l && isForm 'u' 'U' u && decide (d = '.')
  | _ => false

/-- the name without `.ulg` (ulog2csv.py:85-88, extract_gps_dump.py:50-51) -/
def stripUlg (s : Str) : Str := if endsUlg s then s.take (s.length - 4) else s

/-- `os.path.basename`: everything after the last slash -/
def baseName (s : Str) : Str := (s.reverse.takeWhile fun c => decide (c ≠ '/')).reverse

/-- `os.path.join(a, b)` -/
def pathJoin (a b : Str) : Str :=
  if startsWith (py! "/") b then b
  else if a = [] ∨ pyEndsWith (py! "/") a = true then a ++ b
  else a ++ py! "/" ++ b

/-- the prefix of the file names (ulog2csv.py:85-93) -/
def csvPrefix (fileName : Str) (output : Option Str) : Str :=
  match output with
  | none => stripUlg fileName
  | some o => if o = [] then stripUlg fileName else pathJoin o (baseName (stripUlg fileName))

/-- `messages.split(',') if messages else None` (ulog2csv.py:80, ulog2ros2bag.py:128) -/
def messageFilter : Option Str → NameFilter
  | none => .all
  | some s => if s = [] then .all else .names (pySplit ',' s)

/-- what is done with the loaded log; `none` if loading does not end -/
def afterLoad (f : ULog → Except PyErr α) : LoadRes → Option (Except PyErr α)
  | .ok u => some (f u)
  | .raised e => some (.error e)
  | .outOfFuel => none

/-- `convert_ulog2csv` (ulog2csv.py:65-151) for a file with the contents `bs` -/
def ulog2csv (fmt : NpVal → Str) (fuel : Nat) (cfg : Cfg) (fileName : Str) (bs : Bytes)
    (messages output : Option Str) (delim : Str) (timeS timeE : Option Int) : Option (Except PyErr (Dict Str Str)) :=
  afterLoad (convertCsv fmt (csvPrefix fileName output) delim timeS timeE)
    (load fuel { cfg with filter := messageFilter messages } bs)

/-- the files of `ulog_extract_gps_dump` (extract_gps_dump.py:48-58): to the device and from the device -/
def gpsNames (fileName : Str) (output : Option Str) (instanceNo : Int) : Str × Str :=
  let pre := stripUlg (baseName fileName)
  let pre := match output with
    | some o => pathJoin o pre
    | none => pre
  (pre ++ py! "_" ++ intDec instanceNo ++ py! "_to_device.dat",
    pre ++ py! "_" ++ intDec instanceNo ++ py! "_from_device.dat")

/-- `Path(s).name`: the last component; empty components and `.` do not count -/
def pathName (s : Str) : Str :=
  ((pySplit '/' s).filter fun c => decide (c ≠ []) && decide (c ≠ py! ".")).getLast?.getD []

/-- `re.sub(r"\.ulg$", "", s)`: `$` is the end or before a final newline -/
def dropUlg (s : Str) : Str :=
  if pyEndsWith (py! ".ulg") s then s.take (s.length - 4)
  else if pyEndsWith (py! ".ulg\n") s then s.take (s.length - 5) ++ ['\n']
  else s

/-- the name of the bag (ulog2ros2bag.py:139-142) -/
def bagName (name : Option Str) (fileName : Str) : Str :=
  match name with
  | some n => if n = [] then py! "rosbag_" ++ dropUlg (pathName fileName) else n
  | none => py! "rosbag_" ++ dropUlg (pathName fileName)

/-- `convert_ulog2ros2bag` (ulog2ros2bag.py:110-284) for a file with the contents `bs`: the name of the bag
and what is written to it -/
def ulog2bag (env : RosEnv) (fuel : Nat) (cfg : Cfg) (fileName : Str) (bs : Bytes) (name messages : Option Str) :
    Option (Except PyErr (Str × Bag)) :=
  afterLoad (fun u => (exportBag env u).map fun bag => (bagName name fileName, bag))
    (load fuel { cfg with filter := messageFilter messages } bs)

/-! ### tools with a fixed choice of messages -/

/-- `ulog_extract_gps_dump` on a file (extract_gps_dump.py:40-92) -/
def gpsTool (fuel : Nat) (cfg : Cfg) (bs : Bytes) (required : Int) : Option (Except PyErr GpsResult) :=
  afterLoad (fun u => gpsDump u required) (load fuel { cfg with filter := .names [py! "gps_dump"] } bs)

/-- `ulog_params` on a file (params.py:49-150); with `--initial` no messages are loaded (params.py:53-56) -/
def paramsTool (fmt : Value → Str) (fuel : Nat) (cfg : Cfg) (bs : Bytes) (o : ParamOpts) :
    Option (Except PyErr Str) :=
  afterLoad (paramsText fmt o) (load fuel { cfg with filter := if o.initial then .names [] else .all } bs)

/-- the events of a log with their times as numbers, for a new `PX4Events` object (messages.py:31-32) -/
def timedEvents (env : EventEnv EventParser J) (u : ULog) : Except PyErr (List (Nat × Str × Str)) := do
  let l ← getLoggedEvents (getEventParser env none u).2 u
  l.mapM fun e => do
    let t ← npU64 e.1
    .ok (t, e.2.1, e.2.2)

/-- `ulog_messages` on a file (messages.py:18-46) -/
def messagesTool (env : EventEnv EventParser J) (fuel : Nat) (cfg : Cfg) (bs : Bytes) :
    Option (Except PyErr (List Str)) :=
  afterLoad (fun u => messageLines u (timedEvents env u)) (load fuel { cfg with filter := .names [py! "event"] } bs)

end PyULog
