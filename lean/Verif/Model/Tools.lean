import Verif.Model.Extract
import Verif.Model.Db
/-
The command line tools `ulog_extract_gps_dump`, `ulog_params`, `ulog_messages` and the PX4 helpers
(extract_gps_dump.py, params.py, messages.py, px4.py).
-/
namespace PyULog

/-! ### extract_gps_dump.py -/

/-- How `ulog_extract_gps_dump` ends. -/
inductive GpsResult where
  /-- `sys.exit(0)`: no gps_dump messages (extract_gps_dump.py:61-63) -/
  | noMessages
  /-- `sys.exit(-1)`: the format has no `len` or no `data[0]` (extract_gps_dump.py:68-71) -/
  | wrongFormat
  /-- contents of the to-device and the from-device file -/
  | files (toDev fromDev : Bytes)
  deriving DecidableEq, Repr

/-- the type of a column -/
def colType (d : Dataset) (name : Str) : Option BT := (d.fields.find? fun f => f.name = name).map (·.type)

/-- `msg_len` as a number (extract_gps_dump.py:84-88): a float has no `&`. Other values than 0 to 255, and the types int8_t, bool,
char and uint64_t are not modelled: what `&` gives for them depends on the version of numpy. -/
def gpsLen (t : Option BT) (v : NpVal) : Except PyErr Nat :=
  match v with
  | .int n =>
    if t ∈ [some .u8, some .u16, some .u32, some .i16, some .i32, some .i64] ∧ 0 ≤ n ∧ n < 256 then .ok n.toNat
    else .error .unmodelled
  | _ => .error .typeError

/-- one write (extract_gps_dump.py:92): the memory of the element `data[k][i]` -/
def gpsElem (d : Dataset) (i k : Nat) : Except PyErr Bytes := do
  let name := py! "data[" ++ natDec k ++ py! "]"
  let col ← dictGet d.data name
  let v ← pyIndex col i
  match colType d name with
  | some t => npEncode t v
  | none => .error .unmodelled

/-- the writes of row `i` (extract_gps_dump.py:91-92): `data[k][i]` for `k < len` -/
def gpsBytes (d : Dataset) (i len : Nat) : Except PyErr Bytes :=
  ((List.range len).mapM (gpsElem d i)).map List.flatten

/-- the loop body (extract_gps_dump.py:82-92) -/
def gpsStep (d : Dataset) (lens instances : List NpVal) (required : Int) (files : Bytes × Bytes) (i : Nat) :
    Except PyErr (Bytes × Bytes) := do
  let instance_ ← pyIndex instances i
  let v ← pyIndex lens i
  if npEqInt instance_ required then
    let len ← gpsLen (colType d (py! "len")) v
    if len / 128 % 2 = 1 then
      let bs ← gpsBytes d i (len % 128)
      .ok (files.1 ++ bs, files.2)
    else
      let bs ← gpsBytes d i len
      .ok (files.1, files.2 ++ bs)
  else .ok files

/-- `ulog_extract_gps_dump` on the log loaded with the filter `['gps_dump']`
(extract_gps_dump.py:61-92). Files that are left incomplete by an exception are not modelled. -/
def gpsDump (u : ULog) (required : Int) : Except PyErr GpsResult :=
  match u.dataList with
  | [] => .ok .noMessages
  | d :: _ =>
    let names := d.fields.map (·.name)
    if py! "len" ∉ names ∨ py! "data[0]" ∉ names then .ok .wrongFormat
    else do
      let lens ← dictGet d.data (py! "len")
      let instances := (d.data.get? (py! "instance")).getD (List.replicate lens.length (.int 0))
      let ts ← dictGet d.data (py! "timestamp")
      let files ← (List.range ts.length).foldlM (gpsStep d lens instances required) ([], [])
      .ok (.files files.1 files.2)

/-! ### params.py -/

/-- `sorted(params.keys())` -/
def sortedKeys (d : Dict Str α) : List Str := ssort strLe d.keys

/-- the values of the parameter changes with this name, in order of the list -/
def changesOf (u : ULog) (key : Str) : List (Nat × Value) :=
  u.changedParams.filterMap fun c => if c.2.1 = key then some (c.1, c.2.2) else none

/-- each value preceded by the delimiter -/
def delimited (delim : Str) (l : List Str) : Str := (l.map fun s => delim ++ s).flatten

/-- the lines of one parameter in format `csv` (params.py:68-97); `fmt` is `str` of a value -/
def paramCsv (fmt : Value → Str) (delim : Str) (initial timestamps : Bool) (u : ULog)
    (key : Str) (v : Value) : Str :=
  if timestamps then
    key ++ delim ++ fmt v ++ delimited delim ((changesOf u key).map fun c => fmt c.2) ++ py! "\n" ++
    py! "timestamp" ++ delim ++ py! "0" ++
      delimited delim ((changesOf u key).map fun c => natDec c.1) ++ py! "\n"
  else
    key ++ delim ++ fmt v ++
      (if initial then [] else delimited delim ((changesOf u key).map fun c => fmt c.2)) ++ py! "\n"

/-- the lines of one parameter in format `octave` (params.py:99-123) -/
def paramOctave (fmt : Value → Str) (initial : Bool) (u : ULog) (key : Str) (v : Value) : Str :=
  let values := v :: (if initial then [] else (changesOf u key).map (·.2))
  py! "# name " ++ key ++
  (if values.length > 1 then
    py! "\n# type: matrix\n" ++ py! "# rows: 1\n" ++ py! "# columns: " ++ natDec values.length ++ py! "\n" ++
      (values.map fun x => fmt x ++ py! " ").flatten
  else py! "\n# type: scalar\n" ++ fmt v) ++ py! "\n"

/-- `isinstance(value, float)` -/
def isFloat : Value → Bool
  | .float _ => true
  | _ => false

/-- the line of one parameter in format `qgc` (params.py:125-150) -/
def paramQgc (fmt : Value → Str) (key : Str) (v : Value) : Str :=
  py! "1" ++ py! "\t" ++ py! "1" ++ py! "\t" ++ key ++ py! "\t" ++ fmt v ++ py! "\t" ++
    (if isFloat v then py! "9" else py! "6") ++ py! "\n"

/-- options of `ulog_params` (params.py:23-48) -/
structure ParamOpts where
  format : Str := py! "csv"
  delim : Str := py! ","
  initial : Bool := false
  timestamps : Bool := false
  default : Option Str := none

/-- `get_defaults` (params.py:12-18); `assert` fails with AssertionError -/
def getDefaults (u : ULog) (which : Str) : Except PyErr (Dict Str Value) :=
  if hasDefaultParameters u then
    if which = py! "system" then .ok (getDefaultParameters u 0)
    else if which = py! "current_setup" then .ok (getDefaultParameters u 1)
    else .error .valueError
  else .error .assertionError

/-- the parameters that are printed (params.py:58-61) -/
def selectParams (o : ParamOpts) (u : ULog) : Except PyErr (Dict Str Value) :=
  match o.default with
  | some which => getDefaults u which
  | none => .ok u.initialParams

/-- the text printed for a parameter; an unknown format prints nothing (params.py:68-150) -/
def paramText (fmt : Value → Str) (o : ParamOpts) (u : ULog) (key : Str) (v : Value) : Str :=
  let initial := o.initial || o.default.isSome
  if o.format = py! "csv" then paramCsv fmt o.delim initial o.timestamps u key v
  else if o.format = py! "octave" then paramOctave fmt initial u key v
  else if o.format = py! "qgc" then paramQgc fmt key v
  else []

/-- output of `ulog_params` for the loaded log (params.py:58-150) -/
def paramsText (fmt : Value → Str) (o : ParamOpts) (u : ULog) : Except PyErr Str := do
  let params ← selectParams o u
  let lines ← (sortedKeys params).mapM fun key => do
    let v ← dictGet params key
    .ok (paramText fmt o u key v)
  .ok lines.flatten

/-! ### messages.py -/

/-- `int(t / 1e6)`: `t` is converted to binary64, the quotient is rounded to binary64 and truncated.
Quotients below 1 are rounded to multiples of 2^-52, which does not change the integral part. -/
def wholeSeconds (t : Nat) : Nat :=
  let p := rnd53 t
  let e := (p / 1000000).log2
  if e ≤ 52 then rneDiv (p * 2 ^ (52 - e)) 1000000 / 2 ^ (52 - e)
  else rneDiv p (1000000 * 2 ^ (e - 52)) * 2 ^ (e - 52)

/-- `{:02d}` -/
def pad2 (n : Nat) : Str := if n < 10 then '0' :: natDec n else natDec n

/-- `divmod` chain (messages.py:44-45, info.py:19-22) -/
def hms (t : Nat) : Nat × Nat × Nat :=
  let s := wholeSeconds t
  (s / 60 / 60, s / 60 % 60, s % 60)

/-- `h:mm:ss` -/
def hmsStr (t : Nat) : Str :=
  let x := hms t
  natDec x.1 ++ py! ":" ++ pad2 x.2.1 ++ py! ":" ++ pad2 x.2.2

/-- one printed line (messages.py:46) -/
def messageLine (m : Nat × Str × Str) : Str :=
  hmsStr m.1 ++ py! " " ++ m.2.1 ++ py! ": " ++ m.2.2

/-- the loop that merges the messages into the events (messages.py:34-39): `message[-1]` of an empty
message is an IndexError -/
def mergeMessages : List (Nat × Str × Str) → List (Nat × Str × Str) → Except PyErr (List (Nat × Str × Str))
  | [], events => .ok events
  | m :: ms, events =>
    match m.2.2.getLast? with
    | none => .error .indexError
    | some c => mergeMessages ms (if c = '\t' then events else events ++ [m])

/-- the messages that are printed (messages.py:27-41) -/
def allMessages (u : ULog) (events : Except PyErr (List (Nat × Str × Str))) :
    Except PyErr (List (Nat × Str × Str)) :=
  let logged := u.logged.map fun m => (m.ts, logLevelStr m.level, m.msg)
  if (u.info.get? (py! "sys_name")) = some (.str (py! "PX4")) then do
    let ev ← events
    let all ← mergeMessages logged ev
    .ok (ssort (fun (a b : Nat × Str × Str) => decide (a.1 ≤ b.1)) all)
  else .ok logged

/-- the lines printed by `ulog_messages` for the loaded log (messages.py:27-46); `events` is the result
of `get_logged_events` -/
def messageLines (u : ULog) (events : Except PyErr (List (Nat × Str × Str))) : Except PyErr (List Str) := do
  let all ← allMessages u events
  .ok (all.map messageLine)

/-! ### px4.py -/

/-- `get_configured_rc_input_names` (px4.py:104-119); `cap` is `str.capitalize` -/
def rcInputNames (cap : Str → Str) (u : ULog) (channel : Int) : Option (List Str) :=
  let names := u.initialParams.filterMap fun p =>
    if startsWith (py! "RC_MAP_") p.1 ∧ valueEq p.2 (.int (channel + 1)) = true then some (cap (p.1.drop 7))
    else none
  if names.length > 0 then some names else none

/-- the names of `get_mav_type` (px4.py:24-51) -/
def mavTypes : List Str := [
  py! "Generic", py! "Fixed Wing", py! "Quadrotor", py! "Coaxial helicopter",
  py! "Normal helicopter with tail rotor", py! "Ground installation", py! "Ground Control Station",
  py! "Airship, controlled", py! "Free balloon, uncontrolled", py! "Rocket", py! "Ground Rover",
  py! "Surface Vessel, Boat, Ship", py! "Submarine", py! "Hexarotor", py! "Octorotor", py! "Tricopter",
  py! "Flapping wing", py! "Kite", py! "Onboard Companion Controller", py! "Two-rotor VTOL (Tailsitter)",
  py! "Quad-rotor VTOL (Tailsitter)", py! "Tiltrotor VTOL", py! "VTOL Standard", py! "VTOL Tailsitter",
  py! "VTOL reserved 4", py! "VTOL reserved 5", py! "Onboard Gimbal", py! "Onboard ADSB Peripheral"]

/-- lookup in a dict with the keys 0, 1, ...: a key is found if it is equal, so that 2.0 finds 2. Float
keys with a hash that differs from the hash of an equal int do not exist. -/
def lookupIndex (l : List Str) (v : Value) : Option Str :=
  (l.zipIdx.find? fun p => valueEq v (.int p.2)).map (·.1)

/-- `get_mav_type` (px4.py:20-51) -/
def getMavType (u : ULog) : Str :=
  match u.initialParams.get? (py! "MAV_TYPE") with
  | some v => (lookupIndex mavTypes v).getD (py! "unknown type")
  | none => py! "unknown type"

/-- `mav_type == 1` (px4.py:56-57) -/
def isFixedWing (u : ULog) : Bool :=
  match u.initialParams.get? (py! "MAV_TYPE") with
  | some v => valueEq v (.int 1)
  | none => false

/-- `get_estimator` (px4.py:53-64); `fmt` is `str` of a value -/
def getEstimator (fmt : Value → Str) (u : ULog) : Str :=
  if isFixedWing u then py! "EKF2"
  else
    let group := (u.initialParams.get? (py! "SYS_MC_EST_GROUP")).getD (.int 2)
    (lookupIndex [py! "INAV", py! "LPE", py! "EKF2", py! "Q"] group).getD
      (py! "unknown (" ++ fmt group ++ py! ")")

end PyULog
