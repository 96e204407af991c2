import Verif.Model.Main
import Verif.Model.Notices
import Verif.Model.MsgType
import Verif.Model.ScriptPath
/-
What the converters print, line by line: `ulog2csv`, `ulog_extract_gps_dump`, `ulog2ros2bag` (without `--verbose`) and
`ulog_migratedb`, and the line of `ulog_messages` about the event parser. Up to an exception.
-/
namespace PyULog

/-- `ULog(file, filter, ignore)`: the lines of the reader, and those that follow -/
def logSaid (w : World) (fuel depth : Nat) (file : Str) (filter : NameFilter) (ignore : Bool) (run : ULog → List Str) :
    List Str :=
  match w.read file with
  | .error _ => []
  | .ok bs =>
    let cfg : Cfg := { filter := filter, ign := ignore, depth := depth }
    (loadNotices fuel cfg bs).map Notice.line ++
      match load fuel cfg bs with
      | .ok u => run u
      | _ => []

/-! ### ulog2csv.py -/

/-- ulog2csv.py:121 -/
def csvSaidLine (pre : Str) (d : Dataset) (n : Nat) : Str :=
  py! "Writing " ++ csvName pre d ++ py! " (" ++ natDec n ++ py! " data points)"

/-- the loop over the datasets (ulog2csv.py:117-151): the line is printed before the file is opened -/
def filesSaid (fmt : NpVal → Str) (pre delim : Str) (timeS timeE : Option Int) : List Dataset → List Str
  | [] => []
  | d :: ds => match dictGet d.data (py! "timestamp") with
    | .error _ => []
    | .ok column => csvSaidLine pre d column.length ::
      match fileLeft fmt delim timeS timeE d with
      | (_, some _) => []
      | (_, none) => filesSaid fmt pre delim timeS timeE ds

/-- `main` behind `parse_args` (ulog2csv.py:47-52) -/
def csvSaid (w : World) (fmt : NpVal → Str) (fuel depth : Nat) (a : CsvArgs) : List Str :=
  (csvDir w a.output).map (py! "Creating output directory " ++ ·) ++
    match (csvDir w a.output).findSome? w.mkdir with
    | some _ => []
    | none => logSaid w fuel depth a.file (messageFilter a.messages) a.ignore fun u =>
      filesSaid fmt (csvPrefix a.file a.output) a.delim a.timeS a.timeE u.dataList

/-! ### extract_gps_dump.py -/

/-- extract_gps_dump.py:61-76 -/
def gpsLines (file : Str) (names : Str × Str) (u : ULog) : List Str :=
  match u.dataList with
  | [] => [py! "File " ++ file ++ py! " does not contain gps_dump messages!"]
  | d :: _ =>
    let fields := d.fields.map (·.name)
    if py! "len" ∉ fields ∨ py! "data[0]" ∉ fields then [py! "Error: gps_dump message has wrong format"]
    else
      (if u.dropouts.length > 0 then [py! "Warning: file contains " ++ natDec u.dropouts.length ++ py! " dropouts"]
        else []) ++
      [py! "Creating files " ++ names.1 ++ py! " and " ++ names.2]

/-- the rest of `main` (extract_gps_dump.py:44-92) -/
def gpsSaid (w : World) (fuel depth : Nat) (a : GpsArgs) : List Str :=
  logSaid w fuel depth a.file (.names [py! "gps_dump"]) a.ignore
    (gpsLines a.file (gpsNames a.file a.output a.required))

/-! ### px4_events.py -/

/-- `get_logged_events` (px4_events.py:84-96): an exception of the parser is printed; `text` is `str` of it -/
def eventSaid (text : PyErr → Str) (parser : Except PyErr (Option P)) (u : ULog) : List Str :=
  match getDataset u (py! "event") 0 with
  | .error _ => []
  | .ok events => match events.data.get? (py! "id") with
    | none => []
    | some [] => []
    | some (_ :: _) => match parser with
      | .error e => [py! "Failed to get event parser: " ++ text e]
      | .ok _ => []

/-! ### ulog2ros2bag.py -/

/-- a dataset that is skipped (ulog2ros2bag.py:222-262) -/
def skipSaid (env : RosEnv) (d : Dataset) : List Str :=
  match env.msgType d.name with
  | none => [py! "W: Message type '" ++ toCamelCase d.name ++ py! "' for " ++ d.name ++
      py! " not found in px4_msgs, skipping."]
  | some name =>
    match env.type name with
    | none => [py! "W: Message type '" ++ (if name = [] then toCamelCase d.name else name) ++ py! "' for " ++ d.name ++
        py! " not found in px4_msgs, skipping."]
    | some ty =>
      if d.fields.any (fun f => isComposed f.name) then
        [py! "W: Message type for " ++ d.name ++ py! " is composed, skipping."]
      else if d.fields.all (fun f => decide (stripIndex f.name ∈ ty.types.keys)) then []
      else [py! "W: Message type px4_msgs/msg/" ++ name ++ py! " does not match topic '" ++ d.name ++
        py! "' in ulog, skipping. Please check your version of px4_msgs."]

/-- the last lines (ulog2ros2bag.py:282-284) -/
def wroteSaid (bag : Str) (topics messages : Nat) : List Str :=
  [[], py! "Wrote rosbag '" ++ bag ++ py! "' with " ++ natDec topics ++ py! " topics and " ++ natDec messages ++
    py! " messages."]

/-- the loop (ulog2ros2bag.py:199-284) with its counters -/
def topicsSaid (env : RosEnv) (all : List Dataset) (bag : Str) : List Dataset → Nat → Nat → List Str
  | [], topics, messages => wroteSaid bag topics messages
  | d :: ds, topics, messages => match dictGet d.data (py! "timestamp") with
    | .error _ => []
    | .ok ts => skipSaid env d ++ match exportType env d with
      | none => topicsSaid env all bag ds topics messages
      | some _ => match (topicLeft env all {} d).2 with
        | some _ => []
        | none => topicsSaid env all bag ds (topics + 1) (messages + ts.length)

/-- `main` behind `parse_args` (ulog2ros2bag.py:86-100), without `--verbose` -/
def bagSaid (w : World) (env : RosEnv) (fuel depth : Nat) (a : BagArgs) : List Str :=
  logSaid w fuel depth a.file (messageFilter a.messages) a.ignore fun u =>
    topicsSaid env u.dataList (bagName a.bag a.file) u.dataList 0 0

/-! ### migrate_db.py -/

/-- the loop (migrate_db.py:120-130) -/
def loopSaid (E : Engine σ) (files : Str → Option Str) (sqlDir : Str) (noop : Bool) : List Nat → Conn σ → List Str
  | [], _ => [py! "Migration done."]
  | id :: ids, c =>
    match readScript files sqlDir id with
    | .error _ => []
    | .ok (path, script) => (py! "Executing " ++ path ++ py! ".") ::
      if noop then script :: loopSaid E files sqlDir noop ids c
      else
        match executescript E c script with
        | (c', none) => loopSaid E files sqlDir noop ids c'
        | (_, some _) => []

/-- `migrate_db` (migrate_db.py:93-131) -/
def migrateSaid (E : Engine σ) (isDir : Str → Bool) (files : Str → Option Str) (sqlDir : Str) (noop force : Bool) (db : Str)
    (file : Option (SDb σ)) : List Str :=
  if !isDir sqlDir then []
  else (py! "Using migration files in " ++ sqlDir ++ py! ".") ::
    (match file with
      | none => py! "Database file " ++ db ++ py! " not found, creating it from scratch."
      | some _ => py! "Found database file " ++ db ++ py! ".") ::
    match readSchemaVersion file force with
    | .error _ => []
    | .ok v =>
      (py! "Current schema version: " ++ natDec v ++ py! " (database) and " ++ natDec SCHEMA_VERSION ++ py! " (code).") ::
        loopSaid E files sqlDir noop (migrationIds v) (openConn E file)

end PyULog
