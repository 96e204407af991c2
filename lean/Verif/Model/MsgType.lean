import Verif.Model.Ros2
/-
Message types of ROS2 topics (ulog2ros2bag.py:104-107,305-346), with the part of `re` that the patterns
use. Topic names with characters above 127 are not modelled.
-/
namespace PyULog

/-! ### camel case -/

def isUpperC (c : Char) : Bool := decide (65 ≤ c.toNat) && decide (c.toNat < 91)
def isLowerC (c : Char) : Bool := decide (97 ≤ c.toNat) && decide (c.toNat < 123)
def isLetterC (c : Char) : Bool := isUpperC c || isLowerC c
def titleUpper (c : Char) : Char := if isLowerC c then Char.ofNat (c.toNat - 32) else c
def titleLower (c : Char) : Char := if isUpperC c then Char.ofNat (c.toNat + 32) else c

/-- `str.title`: a letter after a letter becomes lower case, any other letter upper case -/
def titleFrom (afterLetter : Bool) : Str → Str
  | [] => []
  | c :: cs => (if afterLetter then titleLower c else titleUpper c) :: titleFrom (isLetterC c) cs

def pyTitle (s : Str) : Str := titleFrom false s

/-- `to_camel_case` (ulog2ros2bag.py:104-107) -/
def toCamelCase (s : Str) : Str := ((pySplit '_' s).map pyTitle).flatten

/-! ### patterns -/

/-- sets of characters -/
inductive ReSet where
  | char (c : Char)
  | digit
  | word
  deriving DecidableEq, Repr

/-- digits of ASCII, the only ones in the names that are modelled -/
def isAsciiDig (c : Char) : Bool := decide (48 ≤ c.toNat) && decide (c.toNat < 58)

def ReSet.has : ReSet → Char → Bool
  | .char a, c => decide (c = a)
  | .digit, c => isAsciiDig c
  | .word, c => isAsciiDig c || isLetterC c || decide (c = '_')

/-- patterns; only sets are repeated -/
inductive Re where
  | empty
  | one (p : ReSet)
  | rep (p : ReSet) (least : Nat) (lazy : Bool)
  | seq (a b : Re)
  | alt (a b : Re)
  | opt (a : Re)
  | stop
  deriving DecidableEq, Repr

/-- `p*`: as many as possible first -/
def matchStar (p : Char → Bool) (k : Str → Bool) : Str → Bool
  | [] => k []
  | c :: cs => (p c && matchStar p k cs) || k (c :: cs)

/-- `p*?`: as few as possible first -/
def matchStarLazy (p : Char → Bool) (k : Str → Bool) : Str → Bool
  | [] => k []
  | c :: cs => k (c :: cs) || (p c && matchStarLazy p k cs)

/-- repetition with a least number of characters -/
def matchRep (p : Char → Bool) (lazy : Bool) (k : Str → Bool) : Nat → Str → Bool
  | 0, s => if lazy then matchStarLazy p k s else matchStar p k s
  | _ + 1, [] => false
  | n + 1, c :: cs => p c && matchRep p lazy k n cs

/-- backtracking: a match of the pattern at the start of `s` after which `k` accepts the rest -/
def reMatch : Re → Str → (Str → Bool) → Bool
  | .empty, s, k => k s
  | .one _, [], _ => false
  | .one p, c :: cs, k => p.has c && k cs
  | .rep p n l, s, k => matchRep p.has l k n s
  | .seq a b, s, k => reMatch a s fun r => reMatch b r k
  | .alt a b, s, k => reMatch a s k || reMatch b s k
  | .opt a, s, k => reMatch a s k || k s
  | .stop, s, k => (decide (s = []) || decide (s = ['\n'])) && k s

/-- what a quantifier makes of an item; repeated groups are not modelled -/
def quantify (a : Re) (rest : Str) : Option (Re × Str) :=
  match a, rest with
  | .one p, '*' :: '?' :: r => some (.rep p 0 true, r)
  | .one p, '*' :: r => some (.rep p 0 false, r)
  | .one p, '+' :: '?' :: r => some (.rep p 1 true, r)
  | .one p, '+' :: r => some (.rep p 1 false, r)
  | _, '*' :: _ => none
  | _, '+' :: _ => none
  | a, '?' :: r => some (.opt a, r)
  | a, r => some (a, r)

mutual
/-- alternatives up to a closing bracket or the end -/
def parseAlt : Nat → Str → Option (Re × Str)
  | 0, _ => none
  | n + 1, s => do
    let (a, r) ← parseSeq n s
    match r with
    | '|' :: r => do
      let (b, r) ← parseAlt n r
      some (.alt a b, r)
    | r => some (a, r)

/-- a sequence of items -/
def parseSeq : Nat → Str → Option (Re × Str)
  | 0, _ => none
  | _ + 1, [] => some (.empty, [])
  | n + 1, c :: s =>
    if c = '|' ∨ c = ')' then some (.empty, c :: s)
    else do
      let (a, r) ← parseItem n c s
      let (q, r) ← quantify a r
      let (b, r) ← parseSeq n r
      some (.seq q b, r)

/-- one item -/
def parseItem : Nat → Char → Str → Option (Re × Str)
  | 0, _, _ => none
  | n + 1, '(', s => do
    let (a, r) ← parseAlt n s
    match r with
    | ')' :: r => some (a, r)
    | _ => none
  | _ + 1, '\\', 'd' :: s => some (.one .digit, s)
  | _ + 1, '\\', 'w' :: s => some (.one .word, s)
  | _ + 1, '$', s => some (.stop, s)
  | _ + 1, c, s => if isDig c || isLetterC c || decide (c = '_') then some (.one (.char c), s) else none
end

/-- a pattern that begins with `^`, which `re.match` implies -/
def parseRe : Str → Option Re
  | '^' :: s =>
    match parseAlt (2 * s.length + 2) s with
    | some (a, []) => some a
    | _ => none
  | _ => none

/-- `re.match(pattern, s)`: `none` for a pattern that is not modelled -/
def pyReMatch (pattern s : Str) : Option Bool := (parseRe pattern).map fun r => reMatch r s fun _ => true

/-- `REGEX_EXCEPTIONS` (ulog2ros2bag.py:308-333) -/
def regexExceptions : List (Str × Str) := [
  (py! "^actuator_controls_status_\\d$", py! "ActuatorControlsStatus"),
  (py! "^actuator_outputs\\w*", py! "ActuatorOutputs"),
  (py! "^config_overrides\\w*", py! "ConfigOverrides"),
  (py! "^estimator_aid_src_((gnss_yaw)|(ev_yaw)|(fake_hgt)|(airspeed)|(sideslip)|(\\w+_hgt))$",
    py! "EstimatorAidSource1d"),
  (py! "^estimator_aid_src_((drag)|(aux_vel)|(optical_flow)|(\\w+_pos)|(aux_global_position))$",
    py! "EstimatorAidSource2d"),
  (py! "^estimator_aid_src_((ev_vel)|(gnss_vel)|(gravity)|(mag))$", py! "EstimatorAidSource3d"),
  (py! "^estimator_ev_pos_bias", py! "EstimatorBias3d"),
  (py! "^estimator_((baro)|(gnss_hgt))_bias", py! "EstimatorBias"),
  (py! "^estimator_innovation\\w*", py! "EstimatorInnovations"),
  (py! "^px4io_status$", py! "Px4ioStatus"),
  (py! "^vehicle_gps_position$", py! "SensorGps"),
  (py! "^sensors_status_\\w+", py! "SensorsStatus"),
  (py! "^vehicle_angular_velocity\\w*", py! "VehicleAngularVelocity"),
  (py! "^\\w+?attitude(_groundtruth)?$", py! "VehicleAttitude"),
  (py! "^\\w+?attitude_setpoint$", py! "VehicleAttitudeSetpoint"),
  (py! "^\\w+?_command\\w*", py! "VehicleCommand"),
  (py! "^\\w+?_control_\\w+", py! "VehicleControlMode"),
  (py! "^((aux_)|(estimator_)|(vehicle_)|(external_ins_))global_position(_groundtruth)?$",
    py! "VehicleGlobalPosition"),
  (py! "^\\w+?_local_position(_groundtruth)?$", py! "VehicleLocalPosition"),
  (py! "^\\w+?_odometry$", py! "VehicleOdometry"),
  (py! "^((estimator)|(vehicle))_optical_flow_vel$", py! "VehicleOpticalFlowVel"),
  (py! "^vehicle_thrust_setpoint\\w*", py! "VehicleThrustSetpoint"),
  (py! "^vehicle_torque_setpoint\\w*", py! "VehicleTorqueSetpoint"),
  (py! "^(estimator_)?wind$", py! "Wind")]

/-- the loop over the table (ulog2ros2bag.py:339-343) -/
def firstType (name : Str) : List (Str × Str) → Except PyErr (Option Str)
  | [] => .ok none
  | (pattern, type) :: rest =>
    match pyReMatch pattern name with
    | none => .error .unmodelled
    | some true => .ok (some type)
    | some false => firstType name rest

/-- `calc_msgtype` (ulog2ros2bag.py:305-345); `has` is `hasattr(px4_msgs, ...)` -/
def calcMsgtype (has : Str → Bool) (name : Str) : Except PyErr (Option Str) :=
  if name.any fun c => decide (128 ≤ c.toNat) then .error .unmodelled
  else if has (toCamelCase name) then .ok (some (toCamelCase name))
  else firstType name regexExceptions

/-- the ROS2 side with `calc_msgtype`, for a package with the given types -/
def px4Env (type : Str → Option RosType) : RosEnv where
  msgType name := ((calcMsgtype (fun n => (type n).isSome) name).toOption).join
  type := type

end PyULog
