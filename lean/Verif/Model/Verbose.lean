import Verif.Model.Prints
/-
What `ulog2ros2bag` prints with `--verbose`, and when the ROS2 packages are missing.
-/
namespace PyULog

/-- what the verbose run finds out about the machine: the exceptions of the two imports (ulog2ros2bag.py:20-41), the variable
`ROS_DISTRO`, the directory of `px4_msgs`, and the order in which Python lists a set of strings -/
structure RosSite where
  rosError : Option Str
  msgsError : Option Str
  distro : Option Str
  share : Option Str
  order : List Str → List Str

/-- `a or b` for texts that may be missing -/
def orText (a : Option Str) (b : Str) : Str :=
  match a with
  | none => b
  | some s => if s = [] then b else s

/-- the lines that are printed before `main` (ulog2ros2bag.py:20-41) -/
def importSaid (site : RosSite) : List Str :=
  (match site.rosError with
    | none => []
    | some e => [py! "Error: Could not import ROS2 packages. Make sure you have sourced your ROS2 installation.",
        py! "Actual error: " ++ e]) ++
  (match site.msgsError with
    | none => []
    | some e =>
      [py! "Error: Could not import px4_msgs. Make sure you have built and sourced the correct version of px4_msgs.",
        py! "Actual error: " ++ e])

/-- the topic in the log (ulog2ros2bag.py:211-213) -/
def logTopic (all : List Dataset) (d : Dataset) : Str :=
  if multiIds all d.name ≠ [0] then d.name ++ py! " (" ++ natDec d.multiId ++ py! ")" else d.name

/-- ulog2ros2bag.py:214-217 -/
def processSaid (all : List Dataset) (d : Dataset) (n : Nat) : Str :=
  py! "D: Processing ulog topic " ++ logTopic all d ++ py! " with " ++ natDec n ++ py! " messages and ROS2 topic " ++
    rosTopic all d

/-- the line about the type (ulog2ros2bag.py:230-231) -/
def foundSaid (env : RosEnv) (d : Dataset) : List Str :=
  match env.msgType d.name with
  | none => []
  | some name => match env.type name with
    | none => []
    | some _ => [py! "D: Found ROS2 message type px4_msgs/msg/" ++ name]

/-- the fields that the type has not (ulog2ros2bag.py:244-261): they are printed after the warning -/
def missingSaid (env : RosEnv) (site : RosSite) (d : Dataset) : List Str :=
  match env.msgType d.name with
  | none => []
  | some name => match env.type name with
    | none => []
    | some ty =>
      if d.fields.any (fun f => isComposed f.name) then []
      else
        let names := site.order ((d.fields.map fun f => stripIndex f.name).foldl setAdd [])
        if names.all (fun n => decide (n ∈ ty.types.keys)) then []
        else (names.filter fun n => decide (n ∉ ty.types.keys)).map fun n =>
          py! "D: field " ++ n ++ py! " of " ++ d.name ++ py! " not found in " ++ name

/-- the loop (ulog2ros2bag.py:199-284) with `--verbose` -/
def topicsVerbose (env : RosEnv) (site : RosSite) (all : List Dataset) (bag : Str) : List Dataset → Nat → Nat → List Str
  | [], topics, messages => wroteSaid bag topics messages
  | d :: ds, topics, messages => match dictGet d.data (py! "timestamp") with
    | .error _ => []
    | .ok ts => processSaid all d ts.length :: foundSaid env d ++ skipSaid env d ++ missingSaid env site d ++
      match exportType env d with
      | none => topicsVerbose env site all bag ds topics messages
      | some _ => match (topicLeft env all {} d).2 with
        | some _ => []
        | none => topicsVerbose env site all bag ds (topics + 1) (messages + ts.length)

/-- the lines of a verbose run on a log (ulog2ros2bag.py:184-284) -/
def verboseSaid (env : RosEnv) (site : RosSite) (bag : Str) (u : ULog) : List Str :=
  (py! "I: ROS2 Distro: " ++ orText site.distro (py! "not detected")) ::
    (py! "I: ROS2 px4_msgs: " ++ orText site.share (py! "not found")) ::
    match getVersionInfoStr u with
    | .error _ => []
    | .ok v =>
      (py! "I: PX4 firmware version from ulog: " ++ orText v (py! "not found")) :: [] ::
        topicsVerbose env site u.dataList bag u.dataList 0 0

/-- `ulog2ros2bag` behind `parse_args` (ulog2ros2bag.py:20-41, 95-100) -/
def bagSaidAt (w : World) (env : RosEnv) (site : RosSite) (fuel depth : Nat) (a : BagArgs) : List Str :=
  importSaid site ++
    if site.rosError.isSome || site.msgsError.isSome then []
    else if a.verbose then
      logSaid w fuel depth a.file (messageFilter a.messages) a.ignore (verboseSaid env site (bagName a.bag a.file))
    else bagSaid w env fuel depth a

end PyULog
