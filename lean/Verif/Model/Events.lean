import Verif.Model.NumberText
/-
Events of PX4 logs (px4_events.py). The parser of the event definitions (`libevents_parse`) is a
submodule that is not part of the repository; it is a parameter of the model.
-/
namespace PyULog

/-- result of `Parser.parse`: `event.group()` and `event.message()` -/
structure Event where
  group : Str
  message : Str
  deriving DecidableEq, Repr

/-- `event_parser.parse(event_id, arguments)`; `none` for an event without definition -/
abbrev EventParser := NpVal → Bytes → Except PyErr (Option Event)

/-! ### choice of the parser -/

/-- What `_get_event_parser` uses from outside: `isAlnum` is the character class of `str.isalnum`,
`embedded` decompresses, decodes and loads the definitions of a log (px4_events.py:47-52), `callback`
is `_get_default_json_def_cb`, and `load` loads definitions into a new parser: it returns the parser
and the exception that interrupted the loading. -/
structure EventEnv (P J : Type) where
  isAlnum : Char → Bool
  embedded : Bytes → Except PyErr P
  callback : Bool → Except PyErr (Option J)
  load : J → P × Option PyErr

/-- `bytes.isalnum` of a byte -/
def byteAlnum (b : UInt8) : Bool :=
  (decide (48 ≤ b.toNat) && decide (b.toNat < 58)) || (decide (65 ≤ b.toNat) && decide (b.toNat < 91)) ||
    (decide (97 ≤ b.toNat) && decide (b.toNat < 123))

/-- `len(file_hash) <= 64 and file_hash.isalnum()` (px4_events.py:46); `len` of a number raises
TypeError -/
def hashUsable (isAlnum : Char → Bool) : Value → Except PyErr Bool
  | .str s => .ok (decide (s.length ≤ 64) && !s.isEmpty && s.all isAlnum)
  | .bytes b => .ok (decide (b.length ≤ 64) && !b.isEmpty && b.all byteAlnum)
  | _ => .error .typeError

/-- `b''.join(l)` -/
def joinBytes : List Value → Except PyErr Bytes
  | [] => .ok []
  | .bytes b :: l => (joinBytes l).map (b ++ ·)
  | _ :: _ => .error .typeError

/-- the definitions in the log (px4_events.py:43-52), `none` if there are none that can be used -/
def embeddedParser (env : EventEnv P J) (u : ULog) : Except PyErr (Option P) :=
  match u.infoMulti.get? (py! "metadata_events"), u.info.get? (py! "metadata_events_sha256") with
  | some lists, some hash => do
    let usable ← hashUsable env.isAlnum hash
    if usable then
      let parts ← pyIndex lists 0
      let bytes ← joinBytes parts
      let p ← env.embedded bytes
      .ok (some p)
    else .ok none
  | _, _ => .ok none

/-- the default definitions (px4_events.py:54-62). The attribute is assigned before the definitions
are loaded, so that it keeps the parser when `load_definitions` raises. -/
def defaultParser (env : EventEnv P J) (default : Option P) : Option P × Except PyErr (Option P) :=
  match env.callback default.isSome with
  | .error e => (default, .error e)
  | .ok none => (default, .ok default)
  | .ok (some json) =>
    match env.load json with
    | (p, none) => (some p, .ok (some p))
    | (p, some e) => (some p, .error e)

/-- `_get_event_parser` (px4_events.py:40-62): the new value of `_default_parser`, and the result -/
def getEventParser (env : EventEnv P J) (default : Option P) (u : ULog) :
    Option P × Except PyErr (Option P) :=
  match embeddedParser env u with
  | .error e => (default, .error e)
  | .ok (some p) => (default, .ok (some p))
  | .ok none => defaultParser env default

/-! ### the events -/

/-- `event_log_level_str` (px4_events.py:70-80) -/
def eventLevelStr (level : Int) : Str :=
  (Dict.get? [
    (0, py! "EMERGENCY"),
    (1, py! "ALERT"),
    (2, py! "CRITICAL"),
    (3, py! "ERROR"),
    (4, py! "WARNING"),
    (5, py! "NOTICE"),
    (6, py! "INFO"),
    (7, py! "DEBUG"),
    (8, py! "PROTOCOL"),
    (9, py! "DISABLED")] level).getD (py! "UNKNOWN")

/-- `(value >> 4) & 0xf` (px4_events.py:99): not defined for floats -/
def externalLevel : NpVal → Except PyErr Int
  | .int n => .ok (n / 16 % 16)
  | _ => .error .typeError

/-- `'arguments[{}]'.format(i)` -/
def argName (i : Nat) : Str := py! "arguments[" ++ natDec i ++ py! "]"

/-- the `while True` loop that collects the arguments of row `row` (px4_events.py:102-110). The fuel is
the number of columns: there are no more argument columns. -/
def eventArgs (d : Dataset) (row : Nat) : Nat → Nat → Except PyErr (List NpVal)
  | 0, _ => .ok []
  | fuel + 1, i =>
    match d.data.get? (argName i) with
    | none => .ok []
    | some col => do
      let v ← pyIndex col row
      let rest ← eventArgs d row fuel (i + 1)
      .ok (v :: rest)

/-- an element of `bytes(args)`: integers out of range raise ValueError, floats TypeError -/
def toByte : NpVal → Except PyErr UInt8
  | .int n => if 0 ≤ n ∧ n < 256 then .ok (UInt8.ofNat n.toNat) else .error .valueError
  | _ => .error .typeError

/-- `'{:}'.format(event_id)` (px4_events.py:118): numpy formats a `np.float32` as the `float` of the same value -/
def idText : NpVal → Str
  | .int n => intDec n
  | .f32 b => f64Text (widen b)
  | .f64 b => f64Text b

/-- `event_parser.parse(event_id, bytes(args))`, None without parser (px4_events.py:113-115) -/
def parseEvent (parser : Option EventParser) (id : NpVal) (args : List NpVal) : Except PyErr (Option Event) :=
  match parser with
  | none => .ok none
  | some p => do
    let bytes ← args.mapM toByte
    p id bytes

/-- the message of an event, if it is shown (px4_events.py:116-122) -/
def eventMessage (t : NpVal) (level : Int) (id : NpVal) : Option Event → List (NpVal × Str × Str)
  | none => [(t, eventLevelStr level, py! "[Unknown event with ID " ++ idText id ++ py! "]")]
  | some e => if e.group = py! "default" then [(t, eventLevelStr level, e.message)] else []

/-- the loop body (px4_events.py:98-122): the messages to append -/
def eventStep (parser : Option EventParser) (d : Dataset) (row : Nat) (id : NpVal) :
    Except PyErr (List (NpVal × Str × Str)) := do
  let levels ← dictGet d.data (py! "log_levels")
  let v ← pyIndex levels row
  let level ← externalLevel v
  if level ≥ 8 then .ok []
  else do
    let args ← eventArgs d row d.data.length 0
    let ts ← dictGet d.data (py! "timestamp")
    let t ← pyIndex ts row
    let event ← parseEvent parser id args
    .ok (eventMessage t level id event)

/-- `except (KeyError, IndexError, ValueError)` (px4_events.py:126); UnicodeDecodeError is a ValueError -/
def swallowed (e : PyErr) : Bool :=
  decide (e = .keyError) || decide (e = .indexError) || decide (e = .valueError) || decide (e = .unicodeError)

/-- the loop with its exception handler: messages that were collected before are kept -/
def eventLoop (parser : Option EventParser) (d : Dataset) :
    Nat → List NpVal → Except PyErr (List (NpVal × Str × Str))
  | _, [] => .ok []
  | row, id :: ids =>
    match eventStep parser d row id with
    | .ok ms => (eventLoop parser d (row + 1) ids).map (ms ++ ·)
    | .error e => if swallowed e then .ok [] else .error e

/-- `get_logged_events` (px4_events.py:64-130); `parser` is the result of `_get_event_parser` -/
def getLoggedEvents (parser : Except PyErr (Option EventParser)) (u : ULog) :
    Except PyErr (List (NpVal × Str × Str)) :=
  match getDataset u (py! "event") with
  | .error e => if swallowed e then .ok [] else .error e
  | .ok d =>
    match d.data.get? (py! "id") with
    | none => .ok []
    | some [] => .ok []
    | some ids =>
      match parser with
      | .error _ => .ok []
      | .ok p => eventLoop p d 0 ids

end PyULog
