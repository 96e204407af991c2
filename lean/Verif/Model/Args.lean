import Verif.Model.Text
import Verif.Model.Ros2
/-
The command lines of the tools: the `add_argument` declarations of every `main`, and `parse_args` of
the module `argparse` (CPython 3.11.10) for the kinds of declarations that the tools use.
Message texts are not modelled: an error of the command line is the exit code 2.
-/
namespace PyULog

/-- value of an attribute of the namespace -/
inductive ArgVal where
  | none
  | bool (b : Bool)
  | str (s : Str)
  | int (n : Int)
  /-- a list of strings; the declarations of the tools never give one -/
  | list (l : List Str)
  deriving DecidableEq, Repr

/-- `type=` of an option: `str` (or none), `int`, or the function that wants a directory
(extract_gps_dump.py:23-31) -/
inductive ArgType where
  | text | int | dir
  deriving DecidableEq, Repr

/-- `action=` of an option -/
inductive ArgAction where
  | store (t : ArgType)
  | storeTrue
  | help
  deriving DecidableEq, Repr

/-- an option -/
structure OptDecl where
  names : List Str
  dest : Str
  action : ArgAction := .store .text
  dflt : ArgVal := .none
  deriving DecidableEq, Repr

/-- a positional argument, of one string or with `nargs='?'` and the default None -/
structure PosDecl where
  dest : Str
  opt : Bool := false
  deriving DecidableEq, Repr

/-- a parser; positional arguments with `nargs='?'` come last -/
structure CliDecl where
  opts : List OptDecl
  pos : List PosDecl
  deriving DecidableEq, Repr

/-- the option that every parser has; its default is not stored -/
def helpOpt : OptDecl := { names := [py! "-h", py! "--help"], dest := py! "help", action := .help }

/-- `_option_string_actions` -/
def CliDecl.table (d : CliDecl) : Dict Str OptDecl :=
  (helpOpt :: d.opts).flatMap fun o => o.names.map fun n => (n, o)

/-! ### which strings are options -/

/-- what `_parse_optional` returns for an option; `sep` is whether a `=` was found -/
structure Found where
  action : Option OptDecl
  name : Str
  sep : Bool := false
  expl : Option Str := none
  deriving DecidableEq, Repr

/-- `s.partition('=')`: the part before, whether there is a `=`, and the part behind -/
def partitionEq (s : Str) : Str × Bool × Str :=
  let r := s.dropWhile fun c => decide (c ≠ '=')
  (s.takeWhile fun c => decide (c ≠ '='), !r.isEmpty, r.drop 1)

/-- `_get_option_tuples` for a string of two characters and more -/
def optionTuples (d : CliDecl) (s : Str) : List Found :=
  if startsWith (py! "--") s then
    let (pre, sep, expl) := partitionEq s
    d.table.filterMap fun m =>
      if startsWith pre m.1 then some ⟨some m.2, m.1, sep, if sep then some expl else none⟩ else none
  else
    d.table.filterMap fun m =>
      if m.1 = s.take 2 then some ⟨some m.2, m.1, false, some (s.drop 2)⟩
      else if startsWith s m.1 then some ⟨some m.2, m.1, false, none⟩
      else none

/-- the part of the string before a final newline, for `$` -/
def beforeEnd (s : Str) : Str :=
  match s.reverse with
  | '\n' :: r => r.reverse
  | _ => s

/-- `_negative_number_matcher`: `^-\d+$|^-\d*\.\d+$` -/
def negativeNumber (s : Str) : Bool :=
  match beforeEnd s with
  | '-' :: r =>
    let ds := r.takeWhile isDig
    match r.dropWhile isDig with
    | [] => !ds.isEmpty
    | '.' :: f => !f.isEmpty && f.all isDig
    | _ => false
  | _ => false

/-- `_parse_optional`: `none` for an argument. `_has_negative_number_optionals` is empty for the tools. -/
def parseOptional (d : CliDecl) (s : Str) : Except Nat (Option Found) :=
  if s = [] then .ok none
  else if !startsWith (py! "-") s then .ok none
  else match d.table.get? s with
  | some o => .ok (some ⟨some o, s, false, none⟩)
  | none =>
    if s.length = 1 then .ok none
    else
      let (name, sep, expl) := partitionEq s
      match (if sep then d.table.get? name else none) with
      | some o => .ok (some ⟨some o, name, sep, some expl⟩)
      | none =>
        match optionTuples d s with
        | _ :: _ :: _ => .error 2
        | [f] => .ok (some f)
        | [] =>
          if negativeNumber s then .ok none
          else if ' ' ∈ s then .ok none
          else .ok (some ⟨none, s, false, none⟩)

/-- an element of the command line with its letter in `arg_strings_pattern`: `O`, `A`, `-` -/
inductive Tok where
  | opt (s : Str) (f : Found)
  | arg (s : Str)
  | dash
  deriving DecidableEq, Repr

def Tok.isOpt : Tok → Bool
  | .opt _ _ => true
  | _ => false

def Tok.isDash : Tok → Bool
  | .dash => true
  | _ => false

/-- the string itself -/
def Tok.text : Tok → Str
  | .opt s _ => s
  | .arg s => s
  | .dash => py! "--"

/-- the first loop of `_parse_known_args` -/
def classify (d : CliDecl) : List Str → Except Nat (List Tok)
  | [] => .ok []
  | s :: rest =>
    if s = py! "--" then .ok (.dash :: rest.map .arg)
    else do
      let t ← parseOptional d s
      let ts ← classify d rest
      match t with
      | some f => .ok (.opt s f :: ts)
      | none => .ok (.arg s :: ts)

/-! ### positional arguments -/

/-- a match of `(-*A-*)` or `(-*A?-*)`: the strings and the rest -/
def posMatch (opt : Bool) (ts : List Tok) : Option (List Str × List Tok) :=
  let dashes := (ts.takeWhile Tok.isDash).map Tok.text
  match ts.dropWhile Tok.isDash with
  | .arg s :: r => some (dashes ++ s :: (r.takeWhile Tok.isDash).map Tok.text, r.dropWhile Tok.isDash)
  | r => if opt then some (dashes, r) else none

/-- `_match_arguments_partial`: as many as possible; the arguments left, and the strings left -/
def matchPartial : List PosDecl → List Tok → List (PosDecl × List Str) × List PosDecl × List Tok
  | [], ts => ([], [], ts)
  | p :: ps, ts =>
    match posMatch p.opt ts with
    | none => ([], p :: ps, ts)
    | some (a, r) =>
      let x := matchPartial ps r
      ((p, a) :: x.1, x.2)

/-- `take_action` of a positional argument: the first `--` is removed -/
def takePos (ns : Dict Str ArgVal) (x : PosDecl × List Str) : Dict Str ArgVal :=
  match x.2.erase (py! "--") with
  | [] => ns.set x.1.dest (if x.1.opt then .none else .list [])
  | [s] => ns.set x.1.dest (.str s)
  | l => ns.set x.1.dest (.list l)

/-! ### options -/

/-- `_get_value`; `isDir` is `os.path.isdir` -/
def convertArg (isDir : Str → Bool) (t : ArgType) (s : Str) : Except Nat ArgVal :=
  match t with
  | .text => .ok (.str s)
  | .int => match pyInt s with
    | .ok n => .ok (.int n)
    | .error _ => .error 2
  | .dir => if isDir s then .ok (.str s) else .error 2

/-- `take_action` of an option; the help ends the program with code 0 -/
def takeOpt (isDir : Str → Bool) (ns : Dict Str ArgVal) (x : OptDecl × List Str) : Except Nat (Dict Str ArgVal) :=
  match x.1.action, x.2 with
  | .help, _ => .error 0
  | .storeTrue, _ => .ok (ns.set x.1.dest (.bool true))
  | .store t, [s] => do
    let v ← convertArg isDir t s
    .ok (ns.set x.1.dest v)
  | .store _, l => .ok (ns.set x.1.dest (.list l))

/-- whether an option has an argument -/
def OptDecl.takes (o : OptDecl) : Bool :=
  match o.action with
  | .store _ => true
  | _ => false

/-- the loop of `consume_optional`: the actions, strings that are not recognized, the rest. The fuel is
the number of characters of the explicit argument. -/
def optActions (d : CliDecl) (rest : List Tok) :
    Nat → OptDecl → Str → Bool → Option Str → Except Nat (List (OptDecl × List Str) × List Str × List Tok)
  | _, o, _, _, none =>
    if o.takes then
      match rest with
      | .arg s :: r => .ok ([(o, [s])], [], r)
      | _ => .error 2
    else .ok ([(o, [])], [], rest)
  | fuel, o, name, sep, some e =>
    if o.takes then .ok ([(o, [e])], [], rest)
    else if startsWith (py! "--") name then .error 2
    else match fuel, e with
      | _, [] => .error 2
      | 0, _ => .error 2
      | fuel + 1, c :: e' =>
        if sep || decide (c = '-') then .error 2
        else match d.table.get? ['-', c] with
        | none => .ok ([(o, [])], ['-' :: c :: e'], rest)
        | some o' => do
          let x ← match e' with
            | [] => optActions d rest fuel o' ['-', c] false none
            | '=' :: e'' => optActions d rest fuel o' ['-', c] true (some e'')
            | _ => optActions d rest fuel o' ['-', c] false (some e')
          .ok ((o, []) :: x.1, x.2)

/-- state of `_parse_known_args` -/
structure ArgSt where
  ns : Dict Str ArgVal
  left : List PosDecl
  extras : List Str := []
  deriving DecidableEq, Repr

/-- `consume_optional` -/
def consumeOpt (d : CliDecl) (isDir : Str → Bool) (st : ArgSt) (s : Str) (f : Found) (rest : List Tok) :
    Except Nat (ArgSt × List Tok) :=
  match f.action with
  | none => .ok ({ st with extras := st.extras ++ [s] }, rest)
  | some o => do
    let x ← optActions d rest (match f.expl with | some e => e.length | none => 0) o f.name f.sep f.expl
    let ns ← x.1.foldlM (takeOpt isDir) st.ns
    .ok ({ st with ns := ns, extras := st.extras ++ x.2.1 }, x.2.2)

/-- `consume_positionals` -/
def consumePos (st : ArgSt) (ts : List Tok) : ArgSt × List Tok :=
  let x := matchPartial st.left ts
  ({ st with ns := x.1.foldl takePos st.ns, left := x.2.1 }, x.2.2)

/-- the loop of `_parse_known_args` and what follows it; every turn takes an element, the fuel is their number -/
def argLoop (d : CliDecl) (isDir : Str → Bool) : Nat → List Tok → ArgSt → Except Nat ArgSt
  | 0, _, st => .ok st
  | fuel + 1, ts, st =>
    if ts.any Tok.isOpt then
      match ts with
      | .opt s f :: rest => do
        let x ← consumeOpt d isDir st s f rest
        argLoop d isDir fuel x.2 x.1
      | _ =>
        let x := consumePos st ts
        if x.2.length < ts.length then argLoop d isDir fuel x.2 x.1
        else
          match ts.dropWhile fun t => !t.isOpt with
          | .opt s f :: rest => do
            let extra := (ts.takeWhile fun t => !t.isOpt).map Tok.text
            let y ← consumeOpt d isDir { x.1 with extras := x.1.extras ++ extra } s f rest
            argLoop d isDir fuel y.2 y.1
          | _ => .ok x.1
    else
      let x := consumePos st ts
      .ok { x.1 with extras := x.1.extras ++ x.2.map Tok.text }

/-- the defaults -/
def CliDecl.defaults (d : CliDecl) : Dict Str ArgVal :=
  d.pos.foldl (fun ns p => ns.set p.dest .none) (d.opts.foldl (fun ns o => ns.set o.dest o.dflt) [])

/-- `parse_args`: the namespace, or the exit code -/
def parseArgs (d : CliDecl) (isDir : Str → Bool) (argv : List Str) : Except Nat (Dict Str ArgVal) := do
  let ts ← classify d argv
  let st ← argLoop d isDir (ts.length + 1) ts { ns := d.defaults, left := d.pos }
  if st.left.any fun p => !p.opt then .error 2
  else if st.extras ≠ [] then .error 2
  else .ok st.ns

/-! ### the tools -/

/-- `ulog_extract_gps_dump` (extract_gps_dump.py:19-37) -/
def gpsCli : CliDecl where
  pos := [{ dest := py! "filename" }]
  opts := [
    { names := [py! "-o", py! "--output"], dest := py! "output", action := .store .dir },
    { names := [py! "-x", py! "--ignore"], dest := py! "ignore", action := .storeTrue, dflt := .bool false },
    { names := [py! "-i", py! "--instance"], dest := py! "required_instance", dflt := .int 0 }]

/-- `ulog_info` (info.py:72-81) -/
def infoCli : CliDecl where
  pos := [{ dest := py! "filename" }]
  opts := [
    { names := [py! "-v", py! "--verbose"], dest := py! "verbose", action := .storeTrue, dflt := .bool false },
    { names := [py! "-m", py! "--message"], dest := py! "message" },
    { names := [py! "-n", py! "--newline"], dest := py! "newline", action := .storeTrue, dflt := .bool false },
    { names := [py! "-i", py! "--ignore"], dest := py! "ignore", action := .storeTrue, dflt := .bool false }]

/-- `ulog_messages` (messages.py:15-18) -/
def messagesCli : CliDecl where
  pos := [{ dest := py! "filename" }]
  opts := [
    { names := [py! "-i", py! "--ignore"], dest := py! "ignore", action := .storeTrue, dflt := .bool false }]

/-- `ulog_migratedb` (migrate_db.py:19-37) -/
def migrateCli : CliDecl where
  pos := []
  opts := [
    { names := [py! "-d", py! "--database"], dest := py! "db_path", dflt := .str (py! "pyulog.sqlite3") },
    { names := [py! "-n", py! "--noop"], dest := py! "noop", action := .storeTrue, dflt := .bool false },
    { names := [py! "-s", py! "--sql"], dest := py! "sql_dir" },
    { names := [py! "-f", py! "--force"], dest := py! "force", action := .storeTrue, dflt := .bool false }]

/-- `ulog_params` (params.py:22-47) -/
def paramsCli : CliDecl where
  pos := [{ dest := py! "filename" }, { dest := py! "output_filename", opt := true }]
  opts := [
    { names := [py! "-l", py! "--delimiter"], dest := py! "delimiter", dflt := .str (py! ",") },
    { names := [py! "-i", py! "--initial"], dest := py! "initial", action := .storeTrue, dflt := .bool false },
    { names := [py! "-t", py! "--timestamps"], dest := py! "timestamps", action := .storeTrue, dflt := .bool false },
    { names := [py! "-f", py! "--format"], dest := py! "format", dflt := .str (py! "csv") },
    { names := [py! "--ignore"], dest := py! "ignore", action := .storeTrue, dflt := .bool false },
    { names := [py! "-d", py! "--default"], dest := py! "default" }]

/-- `ulog2csv` (ulog2csv.py:20-43) -/
def csvCli : CliDecl where
  pos := [{ dest := py! "filename" }]
  opts := [
    { names := [py! "-m", py! "--messages"], dest := py! "messages" },
    { names := [py! "-d", py! "--delimiter"], dest := py! "delimiter", dflt := .str (py! ",") },
    { names := [py! "-o", py! "--output"], dest := py! "output" },
    { names := [py! "-i", py! "--ignore"], dest := py! "ignore", action := .storeTrue, dflt := .bool false },
    { names := [py! "-ts", py! "--time_s"], dest := py! "time_s", action := .store .int },
    { names := [py! "-te", py! "--time_e"], dest := py! "time_e", action := .store .int }]

/-- `ulog2kml` (ulog2kml.py:19-31) -/
def kmlCli : CliDecl where
  pos := [{ dest := py! "filename" }]
  opts := [
    { names := [py! "-o", py! "--output"], dest := py! "output_filename", dflt := .str (py! "track.kml") },
    { names := [py! "--topic"], dest := py! "topic_name", dflt := .str (py! "vehicle_gps_position") },
    { names := [py! "--camera-trigger"], dest := py! "camera_trigger" },
    { names := [py! "-i", py! "--ignore"], dest := py! "ignore", action := .storeTrue, dflt := .bool false }]

/-- `ulog2ros2bag` (ulog2ros2bag.py:46-91) -/
def bagCli : CliDecl where
  pos := [{ dest := py! "filename" }]
  opts := [
    { names := [py! "-o", py! "--output"], dest := py! "bag" },
    { names := [py! "--mcap"], dest := py! "mcap", action := .storeTrue, dflt := .bool false },
    { names := [py! "-m", py! "--messages"], dest := py! "messages" },
    { names := [py! "-i", py! "--ignore"], dest := py! "ignore", action := .storeTrue, dflt := .bool false },
    { names := [py! "-v", py! "--verbose"], dest := py! "verbose", action := .storeTrue, dflt := .bool false }]

end PyULog
