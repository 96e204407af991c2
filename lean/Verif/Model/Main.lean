import Verif.Model.Names
import Verif.Model.Args
import Verif.Model.CsvLeft
import Verif.Model.ReprText
import Verif.Model.Floats
import Verif.Model.Migrate
/-
The `main` functions: from the command line to the files that are left and the way the program ends.
Reading files is a parameter (`World`); opening a file for writing succeeds. What the programs print is modelled here where
it is their result (`ulog_info`, `ulog_messages`, `ulog_params`); the other lines are in Prints.lean.
-/
namespace PyULog

/-- how a program ends -/
inductive Ended where
  | finished
  | exit (code : Nat)
  | raised (e : PyErr)
  deriving DecidableEq, Repr

/-- the status that the shell sees: a traceback gives 1 -/
def Ended.status : Ended → Nat
  | .finished => 0
  | .exit c => c
  | .raised _ => 1

/-- the end of a computation that may raise -/
def Ended.of : Option PyErr → Ended
  | none => .finished
  | some e => .raised e

/-- the files as a program sees them: reading a file, `os.path.isdir`, the exception of `os.mkdir` -/
structure World where
  read : Str → Except PyErr Bytes
  isDir : Str → Bool
  mkdir : Str → Option PyErr

/-! ### attributes of the namespace -/

/-- a text or None -/
def argText (ns : Dict Str ArgVal) (k : Str) : Except PyErr (Option Str) :=
  match ns.get? k with
  | some .none => .ok none
  | some (.str s) => .ok (some s)
  | some _ => .error .typeError
  | none => .error .attributeError

/-- a text -/
def argWord (ns : Dict Str ArgVal) (k : Str) : Except PyErr Str :=
  match ns.get? k with
  | some (.str s) => .ok s
  | some _ => .error .typeError
  | none => .error .attributeError

/-- a flag -/
def argFlag (ns : Dict Str ArgVal) (k : Str) : Except PyErr Bool :=
  match ns.get? k with
  | some (.bool b) => .ok b
  | some _ => .error .typeError
  | none => .error .attributeError

/-- a number or None -/
def argInt (ns : Dict Str ArgVal) (k : Str) : Except PyErr (Option Int) :=
  match ns.get? k with
  | some .none => .ok none
  | some (.int n) => .ok (some n)
  | some _ => .error .typeError
  | none => .error .attributeError

/-- `parse_args`, and what is done with the arguments; `none` if the program does not end -/
def withArgs (d : CliDecl) (isDir : Str → Bool) (argv : List Str) (read : Dict Str ArgVal → Except PyErr α) (nothing : β)
    (run : α → Option (β × Ended)) : Option (β × Ended) :=
  match parseArgs d isDir argv with
  | .error c => some (nothing, .exit c)
  | .ok ns => match read ns with
    | .error e => some (nothing, .raised e)
    | .ok a => run a

/-- `ULog(file, filter, ignore)`, and what is done with the log; `sofar` is what was done before -/
def withLog (w : World) (fuel depth : Nat) (file : Str) (filter : NameFilter) (ignore : Bool) (sofar : β)
    (run : ULog → β × Ended) : Option (β × Ended) :=
  match w.read file with
  | .error e => some (sofar, .raised e)
  | .ok bs => match load fuel { filter := filter, ign := ignore, depth := depth } bs with
    | .ok u => some (run u)
    | .raised e => some (sofar, .raised e)
    | .outOfFuel => none

/-! ### output up to an exception -/

/-- the results of `f` for the elements, up to the exception -/
def mapLeft (f : α → Except PyErr β) : List α → List β × Option PyErr
  | [] => ([], none)
  | x :: l => match f x with
    | .error e => ([], some e)
    | .ok y =>
      let r := mapLeft f l
      (y :: r.1, r.2)

/-- first `a` and then `b`, which is not reached if `a` raises -/
def andThen (a b : List β × Option PyErr) : List β × Option PyErr :=
  match a.2 with
  | some e => (a.1, some e)
  | none => (a.1 ++ b.1, b.2)

/-- lines that are printed together -/
def allAtOnce (r : Except PyErr (List β)) : List β × Option PyErr :=
  match r with
  | .error e => ([], some e)
  | .ok l => (l, none)

/-! ### ulog2csv.py -/

/-- the arguments of `ulog2csv` -/
structure CsvArgs where
  file : Str
  messages : Option Str
  output : Option Str
  delim : Str
  timeS : Option Int
  timeE : Option Int
  ignore : Bool
  deriving DecidableEq, Repr

/-- the arguments that `main` uses (ulog2csv.py:45-52) -/
def csvArgs (ns : Dict Str ArgVal) : Except PyErr CsvArgs := do
  let output ← argText ns (py! "output")
  let file ← argWord ns (py! "filename")
  let messages ← argText ns (py! "messages")
  let delim ← argWord ns (py! "delimiter")
  let timeS ← argInt ns (py! "time_s")
  let timeE ← argInt ns (py! "time_e")
  let ignore ← argFlag ns (py! "ignore")
  .ok ⟨file, messages, output, delim, timeS, timeE, ignore⟩

/-- what `ulog2csv` leaves: directories and files -/
structure CsvLeft where
  made : List Str := []
  files : Dict Str Str := []
  deriving DecidableEq, Repr

/-- the directory that is created (ulog2csv.py:47-49) -/
def csvDir (w : World) (output : Option Str) : List Str :=
  match output with
  | none => []
  | some o => if o = [] then [] else if w.isDir o then [] else [o]

/-- `main` behind `parse_args` (ulog2csv.py:47-52) -/
def csvRun (w : World) (fmt : NpVal → Str) (fuel depth : Nat) (a : CsvArgs) : Option (CsvLeft × Ended) :=
  match (csvDir w a.output).findSome? w.mkdir with
  | some e => some ({}, .raised e)
  | none =>
    let made := csvDir w a.output
    withLog w fuel depth a.file (messageFilter a.messages) a.ignore { made := made } fun u =>
      let r := convertLeft fmt (csvPrefix a.file a.output) a.delim a.timeS a.timeE u
      ({ made := made, files := r.1 }, .of r.2)

/-- `ulog2csv` (ulog2csv.py:17-52) -/
def csvMain (w : World) (fmt : NpVal → Str) (fuel depth : Nat) (argv : List Str) : Option (CsvLeft × Ended) :=
  withArgs csvCli w.isDir argv csvArgs {} (csvRun w fmt fuel depth)

/-! ### extract_gps_dump.py -/

/-- the writes for one row (extract_gps_dump.py:91-92), up to the exception -/
def gpsBytesLeft (d : Dataset) (i : Nat) : List Nat → Bytes × Option PyErr
  | [] => ([], none)
  | k :: ks => match gpsElem d i k with
    | .error e => ([], some e)
    | .ok b =>
      let r := gpsBytesLeft d i ks
      (b ++ r.1, r.2)

/-- the loop body (extract_gps_dump.py:82-92), up to the exception: what is added to the files -/
def gpsRowLeft (d : Dataset) (lens instances : List NpVal) (required : Int) (i : Nat) : (Bytes × Bytes) × Option PyErr :=
  let row : Except PyErr (Option Nat) := do
    let instance_ ← pyIndex instances i
    let v ← pyIndex lens i
    if npEqInt instance_ required then
      let len ← gpsLen (colType d (py! "len")) v
      .ok (some len)
    else .ok none
  match row with
  | .error e => (([], []), some e)
  | .ok none => (([], []), none)
  | .ok (some len) =>
    if len / 128 % 2 = 1 then
      let r := gpsBytesLeft d i (List.range (len % 128))
      ((r.1, []), r.2)
    else
      let r := gpsBytesLeft d i (List.range len)
      (([], r.1), r.2)

/-- the loop (extract_gps_dump.py:82-92), up to the exception -/
def gpsRowsLeft (d : Dataset) (lens instances : List NpVal) (required : Int) : List Nat → (Bytes × Bytes) × Option PyErr
  | [] => (([], []), none)
  | i :: is =>
    match gpsRowLeft d lens instances required i with
    | (x, some e) => (x, some e)
    | (x, none) =>
      let r := gpsRowsLeft d lens instances required is
      ((x.1 ++ r.1.1, x.2 ++ r.1.2), r.2)

/-- the files of `ulog_extract_gps_dump` (extract_gps_dump.py:61-92), also when it raises; `none` if they are not opened -/
def gpsLeft (u : ULog) (required : Int) : Option (Bytes × Bytes) × Ended :=
  match u.dataList with
  | [] => (none, .exit 0)
  | d :: _ =>
    let names := d.fields.map (·.name)
    if py! "len" ∉ names ∨ py! "data[0]" ∉ names then (none, .exit 255)
    else
      let cols : Except PyErr (List NpVal × List NpVal) := do
        let lens ← dictGet d.data (py! "len")
        let ts ← dictGet d.data (py! "timestamp")
        .ok (lens, ts)
      match cols with
      | .error e => (some ([], []), .raised e)
      | .ok (lens, ts) =>
        let instances := (d.data.get? (py! "instance")).getD (List.replicate lens.length (.int 0))
        let r := gpsRowsLeft d lens instances required (List.range ts.length)
        (some r.1, .of r.2)

/-- the arguments of `ulog_extract_gps_dump` -/
structure GpsArgs where
  file : Str
  output : Option Str
  ignore : Bool
  required : Int
  deriving DecidableEq, Repr

/-- `int(args.required_instance)` (extract_gps_dump.py:42): the default is a number, other values are texts -/
def gpsInstance (ns : Dict Str ArgVal) : Except PyErr Int :=
  match ns.get? (py! "required_instance") with
  | some (.int n) => .ok n
  | some (.str s) => pyInt s
  | some _ => .error .typeError
  | none => .error .attributeError

/-- the arguments that `main` uses (extract_gps_dump.py:40-42,54) -/
def gpsArgs (ns : Dict Str ArgVal) : Except PyErr GpsArgs := do
  let file ← argWord ns (py! "filename")
  let ignore ← argFlag ns (py! "ignore")
  let required ← gpsInstance ns
  let output ← argText ns (py! "output")
  .ok ⟨file, output, ignore, required⟩

/-- the rest of `main` (extract_gps_dump.py:44-92): the files -/
def gpsRun (w : World) (fuel depth : Nat) (a : GpsArgs) : Option (Dict Str Bytes × Ended) :=
  withLog w fuel depth a.file (.names [py! "gps_dump"]) a.ignore [] fun u =>
    let r := gpsLeft u a.required
    let names := gpsNames a.file a.output a.required
    (match r.1 with
     | none => []
     | some x => [(names.1, x.1), (names.2, x.2)], r.2)

/-- `ulog_extract_gps_dump` (extract_gps_dump.py:15-92) -/
def gpsMain (w : World) (fuel depth : Nat) (argv : List Str) : Option (Dict Str Bytes × Ended) :=
  withArgs gpsCli w.isDir argv gpsArgs [] (gpsRun w fuel depth)

/-! ### params.py -/

/-- the arguments of `ulog_params` -/
structure ParamArgs where
  file : Str
  out : Option Str
  ignore : Bool
  opts : ParamOpts

/-- the arguments that `main` uses (params.py:49-66) -/
def paramArgs (ns : Dict Str ArgVal) : Except PyErr ParamArgs := do
  let file ← argWord ns (py! "filename")
  let ignore ← argFlag ns (py! "ignore")
  let initial ← argFlag ns (py! "initial")
  let dflt ← argText ns (py! "default")
  let delim ← argWord ns (py! "delimiter")
  let out ← argText ns (py! "output_filename")
  let format ← argWord ns (py! "format")
  let timestamps ← argFlag ns (py! "timestamps")
  .ok ⟨file, out, ignore, ⟨format, delim, initial, timestamps, dflt⟩⟩

/-- where `ulog_params` writes: the name of the file, or `none` for the standard output, and the text -/
abbrev ParamsLeft := Option (Option Str × Str)

/-- the rest of `main` (params.py:53-150); the file is opened when the parameters have been selected -/
def paramsRun (w : World) (fmt : Value → Str) (fuel depth : Nat) (a : ParamArgs) : Option (ParamsLeft × Ended) :=
  withLog w fuel depth a.file (if a.opts.initial then .names [] else .all) a.ignore none fun u =>
    match paramsText fmt a.opts u with
    | .error e => (none, .raised e)
    | .ok text => (some (a.out, text), .finished)

/-- `ulog_params` (params.py:20-150) -/
def paramsMain (w : World) (fmt : Value → Str) (fuel depth : Nat) (argv : List Str) : Option (ParamsLeft × Ended) :=
  withArgs paramsCli w.isDir argv paramArgs none (paramsRun w fmt fuel depth)

/-! ### messages.py and info.py: the printed lines -/

/-- the arguments that `main` uses (messages.py:21-22) -/
def messagesArgs (ns : Dict Str ArgVal) : Except PyErr (Str × Bool) := do
  let file ← argWord ns (py! "filename")
  let ignore ← argFlag ns (py! "ignore")
  .ok (file, ignore)

/-- lines, or an exception -/
def printed (r : Except PyErr (List Str)) : List Str × Ended :=
  match r with
  | .error e => ([], .raised e)
  | .ok l => (l, .finished)

/-- the rest of `main` (messages.py:24-46) -/
def messagesRun (w : World) (env : EventEnv EventParser J) (fuel depth : Nat) (a : Str × Bool) :
    Option (List Str × Ended) :=
  withLog w fuel depth a.1 (.names [py! "event"]) a.2 [] fun u => printed (messageLines u (timedEvents env u))

/-- `ulog_messages` (messages.py:12-46) -/
def messagesMain (w : World) (env : EventEnv EventParser J) (fuel depth : Nat) (argv : List Str) :
    Option (List Str × Ended) :=
  withArgs messagesCli w.isDir argv messagesArgs [] (messagesRun w env fuel depth)

/-- the arguments of `ulog_info` -/
structure InfoArgs where
  file : Str
  verbose : Bool
  message : Option Str
  newline : Bool
  ignore : Bool
  deriving DecidableEq, Repr

/-- the arguments that `main` uses (info.py:84-104) -/
def infoArgs (ns : Dict Str ArgVal) : Except PyErr InfoArgs := do
  let file ← argWord ns (py! "filename")
  let ignore ← argFlag ns (py! "ignore")
  let message ← argText ns (py! "message")
  let newline ← argFlag ns (py! "newline")
  let verbose ← argFlag ns (py! "verbose")
  .ok ⟨file, verbose, message, newline, ignore⟩

/-- `show_info` (info.py:13-67) up to the exception -/
def infoLeft (pr : Char → Bool) (verbose : Bool) (u : ULog) : List Str × Option PyErr :=
  andThen (if u.fileCorrupt then [py! "Warning: file has data corruption(s)"] else [], none) <|
  andThen (mapLeft timeLine [u]) <|
  andThen ([dropoutLine u], none) <|
  andThen (allAtOnce do
    let version ← getVersionInfoStr u
    .ok (match version with
      | some v => [py! "SW Version: " ++ v]
      | none => [])) <|
  andThen ([py! "Info Messages:"], none) <|
  andThen (mapLeft (fun k => do
    let v ← dictGet u.info k
    .ok (py! " " ++ k ++ py! ": " ++ pyText v))
      ((sortedKeys u.info).filter fun k => !startsWith (py! "perf_") k || verbose)) <|
  andThen (if u.infoMulti.length > 0 then
      if verbose then
        andThen ([py! "Info Multiple Messages:"], none) (mapLeft (fun k => do
          let v ← dictGet u.infoMulti k
          .ok (py! " " ++ k ++ py! ": " ++ listsRepr pr v)) (sortedKeys u.infoMulti))
      else allAtOnce do
        let ls ← (sortedKeys u.infoMulti).mapM fun k => do
          let v ← dictGet u.infoMulti k
          .ok (py! "[" ++ k ++ py! ": " ++ natDec v.length ++ py! "]")
        .ok [py! "Info Multiple Messages: " ++ pyJoin (py! ", ") ls]
    else ([], none)) <|
  andThen ([[], tableHead], none) <|
  mapLeft tableLine (tableOrder u.dataList)

/-- the two lines of one list (info.py:95-101), up to the exception -/
def dumpLeft (separator name : Str) (i : Nat) (m : List Value) : List Str × Option PyErr :=
  match m with
  | .bytes _ :: _ =>
    andThen (allAtOnce do
      let lens ← m.mapM itemLen
      .ok [py! "# " ++ name ++ py! " " ++ natDec i ++ py! " (len: " ++ natDec lens.sum ++ py! "):"]) <|
    allAtOnce do
      let items ← m.mapM hexItem
      .ok [pyJoin separator items]
  | _ =>
    andThen ([py! "# " ++ name ++ py! " " ++ natDec i ++ py! ":"], none) <|
    allAtOnce do
      let items ← m.mapM strItem
      .ok [pyJoin separator items]

/-- the loop over the lists (info.py:94-101) -/
def dumpsLeft (separator name : Str) : List (List Value × Nat) → List Str × Option PyErr
  | [] => ([], none)
  | p :: l => andThen (dumpLeft separator name p.2 p.1) (dumpsLeft separator name l)

/-- `ulog_info --message name` (info.py:90-103) up to the exception -/
def messageLeft (newline : Bool) (u : ULog) (name : Str) : List Str × Option PyErr :=
  match u.infoMulti.get? name with
  | some lists => dumpsLeft (if newline then py! "\n" else []) name lists.zipIdx
  | none => ([py! "message " ++ name ++ py! " not found"], none)

/-- the rest of `main` (info.py:87-105) -/
def infoRun (w : World) (pr : Char → Bool) (fuel depth : Nat) (a : InfoArgs) : Option (List Str × Ended) :=
  withLog w fuel depth a.file .all a.ignore [] fun u =>
    let r := match a.message with
      | none => infoLeft pr a.verbose u
      | some m => if m = [] then infoLeft pr a.verbose u else messageLeft a.newline u m
    (r.1, .of r.2)

/-- `ulog_info` (info.py:70-104) -/
def infoMain (w : World) (pr : Char → Bool) (fuel depth : Nat) (argv : List Str) : Option (List Str × Ended) :=
  withArgs infoCli w.isDir argv infoArgs [] (infoRun w pr fuel depth)

/-! ### ulog2kml.py -/

/-- the arguments of `ulog2kml` -/
structure KmlArgs where
  file : Str
  output : Str
  topic : Str
  camera : Option Str
  ignore : Bool
  deriving DecidableEq, Repr

/-- the arguments that `main` uses (ulog2kml.py:33-38) -/
def kmlArgs (ns : Dict Str ArgVal) : Except PyErr KmlArgs := do
  let file ← argWord ns (py! "filename")
  let output ← argWord ns (py! "output_filename")
  let topic ← argWord ns (py! "topic_name")
  let camera ← argText ns (py! "camera_trigger")
  let ignore ← argFlag ns (py! "ignore")
  .ok ⟨file, output, topic, camera, ignore⟩

/-- the document that is saved, with the name of the file -/
abbrev KmlLeft := Option (Str × KmlDoc Str (NpVal × NpVal × NpVal))

/-- `convert_ulog2kml` (ulog2kml.py:58-121) with the defaults of the arguments that `main` does not give -/
def kmlRun (w : World) (fuel depth : Nat) (a : KmlArgs) : Option (KmlLeft × Ended) :=
  withLog w fuel depth a.file (kmlFilter (.one a.topic) a.camera) a.ignore none fun u =>
    match kmlDocument (kmlCoord (.int 0)) (kmlFar tenth) npText (.one a.topic) (.one defaultColors) a.camera u with
    | .error e => (none, .raised e)
    | .ok doc => (some (a.output, doc), .finished)

/-- `ulog2kml` (ulog2kml.py:16-38) -/
def kmlMain (w : World) (fuel depth : Nat) (argv : List Str) : Option (KmlLeft × Ended) :=
  withArgs kmlCli w.isDir argv kmlArgs none (kmlRun w fuel depth)

/-! ### ulog2ros2bag.py -/

/-- the arguments of `ulog2ros2bag` -/
structure BagArgs where
  file : Str
  bag : Option Str
  mcap : Bool
  messages : Option Str
  ignore : Bool
  verbose : Bool
  deriving DecidableEq, Repr

/-- the arguments that `main` uses (ulog2ros2bag.py:98-100) -/
def bagArgs (ns : Dict Str ArgVal) : Except PyErr BagArgs := do
  let file ← argWord ns (py! "filename")
  let bag ← argText ns (py! "bag")
  let mcap ← argFlag ns (py! "mcap")
  let messages ← argText ns (py! "messages")
  let ignore ← argFlag ns (py! "ignore")
  let verbose ← argFlag ns (py! "verbose")
  .ok ⟨file, bag, mcap, messages, ignore, verbose⟩

/-- the name of the bag, its storage and what is written to it -/
structure BagLeft where
  name : Str
  storage : Str
  bag : Bag
  deriving DecidableEq, Repr

/-- the loop body (ulog2ros2bag.py:201-280) up to the exception: the topic is registered before its messages are made -/
def topicLeft (env : RosEnv) (all : List Dataset) (bag : Bag) (d : Dataset) : Bag × Option PyErr :=
  match dictGet d.data (py! "timestamp") with
  | .error e => (bag, some e)
  | .ok ts => match exportType env d with
    | none => (bag, none)
    | some (name, ty) =>
      let r := mapLeft (exportRow ty d (rosTopic all d) ts) (List.range ts.length)
      ({ topics := bag.topics ++ [(rosTopic all d, py! "px4_msgs/msg/" ++ name)]
         messages := bag.messages ++ r.1 }, r.2)

/-- the loop (ulog2ros2bag.py:200-280) up to the exception -/
def topicsLeft (env : RosEnv) (all : List Dataset) : List Dataset → Bag → Bag × Option PyErr
  | [], bag => (bag, none)
  | d :: ds, bag => match topicLeft env all bag d with
    | (bag, some e) => (bag, some e)
    | (bag, none) => topicsLeft env all ds bag

/-- the bag of `convert_ulog2ros2bag` (ulog2ros2bag.py:132-282), also when it raises; with `--verbose` the version is printed
first, which may raise (ulog2ros2bag.py:184-197) -/
def bagLeft (env : RosEnv) (verbose : Bool) (u : ULog) : Bag × Option PyErr :=
  match (if verbose then (getVersionInfoStr u).map fun _ => () else .ok ()) with
  | .error e => ({}, some e)
  | .ok () => topicsLeft env u.dataList u.dataList {}

/-- `main` behind `parse_args` (ulog2ros2bag.py:95-100); without the ROS2 packages nothing is done -/
def bagRun (w : World) (available : Bool) (env : RosEnv) (fuel depth : Nat) (a : BagArgs) : Option (Option BagLeft × Ended) :=
  if !available then some (none, .finished)
  else withLog w fuel depth a.file (messageFilter a.messages) a.ignore none fun u =>
    let r := bagLeft env a.verbose u
    (some ⟨bagName a.bag a.file, if a.mcap then py! "mcap" else py! "sqlite3", r.1⟩, .of r.2)

/-- `ulog2ros2bag` (ulog2ros2bag.py:43-100) -/
def bagMain (w : World) (available : Bool) (env : RosEnv) (fuel depth : Nat) (argv : List Str) :
    Option (Option BagLeft × Ended) :=
  withArgs bagCli w.isDir argv bagArgs none (bagRun w available env fuel depth)

/-! ### migrate_db.py -/

/-- the arguments of `ulog_migratedb` -/
structure MigrateArgs where
  db : Str
  sql : Option Str
  noop : Bool
  force : Bool
  deriving DecidableEq, Repr

/-- the arguments that `main` uses (migrate_db.py:39) -/
def migrateArgs (ns : Dict Str ArgVal) : Except PyErr MigrateArgs := do
  let db ← argWord ns (py! "db_path")
  let sql ← argText ns (py! "sql_dir")
  let noop ← argFlag ns (py! "noop")
  let force ← argFlag ns (py! "force")
  .ok ⟨db, sql, noop, force⟩

/-- `ulog_migratedb` (migrate_db.py:15-39): `dirs` are the directories with scripts, `shipped` the one of the package
(migrate_db.py:103-105), `dbs` the database files. The result is the file of the database afterwards. -/
def migrateMain (isDir : Str → Bool) (E : Engine σ) (dirs : Str → Option SqlDir) (shipped : Option SqlDir)
    (dbs : Str → Option (SDb σ)) (argv : List Str) : Option (Option (Str × Option (SDb σ)) × Ended) :=
  withArgs migrateCli isDir argv migrateArgs none fun a =>
    let dir := match a.sql with
      | none => shipped
      | some s => dirs s
    let r := migrateDb E dir a.noop a.force (dbs a.db)
    some (some (a.db, r.1), match r.2 with
      | .ok _ => .finished
      | .error e => .raised e)

end PyULog
