import Verif.Model.Api
/-
Export to ROS2 bags (ulog2ros2bag.py). The ROS2 packages are represented by the parameters in `RosEnv`.
`calc_msgtype` is in Model/MsgType.
-/
namespace PyULog

/-! ### topic names -/

/-- the multi ids of a name (ulog2ros2bag.py:132-134), as a set -/
def multiIds (l : List Dataset) (name : Str) : List Nat :=
  (l.filter fun d => d.name = name).foldl (fun s d => setAdd s d.multiId) []

/-- the ROS2 topic of a dataset (ulog2ros2bag.py:205-208) -/
def rosTopic (l : List Dataset) (d : Dataset) : Str :=
  if multiIds l d.name = [0] then py! "/px4/" ++ d.name
  else py! "/px4/" ++ d.name ++ py! "_" ++ natDec d.multiId

/-! ### versions -/

/-- `rosbag_topicmetadata_uses_id` for the installed version (ulog2ros2bag.py:288-293): strings are
compared -/
def usesTopicId (version : Str) : Bool := strLe (py! "0.25.0") version

/-- `rosbag_write_uses_seqnum` (ulog2ros2bag.py:296-302) -/
def usesSeqnum (version : Str) : Bool := strLe (py! "0.32.0") version

/-! ### messages -/

/-- a value in a ROS2 message: a number as in the dataset, or a bool -/
inductive RosScalar where
  | num (v : NpVal)
  | bool (b : Bool)
  deriving DecidableEq, Repr

/-- an attribute of a ROS2 message -/
inductive RosVal where
  | plain (v : RosScalar)
  | array (l : List RosScalar)
  deriving DecidableEq, Repr

/-- a ROS2 message type: `get_fields_and_field_types()` and the attributes of a new message -/
structure RosType where
  types : Dict Str Str
  fresh : Dict Str RosVal
  deriving DecidableEq, Repr

/-- The ROS2 side: `calc_msgtype` and the types of `px4_msgs`. -/
structure RosEnv where
  msgType : Str → Option Str
  type : Str → Option RosType

/-- `\d` -/
def isDig (c : Char) : Bool := (digitVal c).isSome

/-- `int(s)` of a string of digits -/
def digVal (s : Str) : Nat := s.foldl (fun n c => 10 * n + (digitVal c).getD 0) 0

/-- `re.match(r"(.*?)\[(\d+)\]", s)`: the part before the first index, and that index
(ulog2ros2bag.py:367,370-371) -/
def arrayRef : Str → Option (Str × Nat)
  | [] => none
  | c :: cs =>
    if c = '[' ∧ cs.takeWhile isDig ≠ [] ∧ (cs.dropWhile isDig).head? = some ']' then
      some ([], digVal (cs.takeWhile isDig))
    else if c = '\n' then none
    else (arrayRef cs).map fun r => (c :: r.1, r.2)

/-- removes an index `[\d+]` from the end -/
def stripEnd (s : Str) : Str :=
  match s.reverse with
  | ']' :: r =>
    if r.takeWhile isDig ≠ [] ∧ (r.dropWhile isDig).head? = some '[' then (r.dropWhile isDig).tail.reverse
    else s
  | _ => s

/-- `re.sub(r"\[\d+\]$", "", s)` (ulog2ros2bag.py:245); `$` also matches before a final newline -/
def stripIndex (s : Str) : Str :=
  match s.reverse with
  | '\n' :: r => stripEnd r.reverse ++ ['\n']
  | _ => stripEnd s

/-- `re.match(r"(.*?)\.(.*?)", s)` (ulog2ros2bag.py:235): a dot before the first newline -/
def isComposed (s : Str) : Bool := decide ('.' ∈ s.takeWhile (· ≠ '\n'))

/-- the dtype of the column is `np.int8` (core.py:49-62) -/
def isInt8 : BT → Bool
  | .i8 => true
  | .bool => true
  | .char => true
  | _ => false

/-- `bool(value)` -/
def npTruth : NpVal → Bool
  | .int n => decide (n ≠ 0)
  | .f32 b => decide (b % 2 ^ 31 ≠ 0)
  | .f64 b => decide (b % 2 ^ 63 ≠ 0)

/-- `ros2ify_value` (ulog2ros2bag.py:348-360) -/
def ros2ify (ty : RosType) (field : Str) (bt : BT) (v : NpVal) : Except PyErr RosScalar := do
  let t ← dictGet ty.types field
  if isInt8 bt ∧ startsWith (py! "bool") t then .ok (.bool (npTruth v))
  else .ok (.num v)

/-- `getattr(msg, field_name)[array_index] = value` (ulog2ros2bag.py:373) -/
def setElem (msg : Dict Str RosVal) (field : Str) (k : Nat) (v : RosScalar) : Except PyErr (Dict Str RosVal) :=
  match msg.get? field with
  | none => .error .attributeError
  | some (.plain _) => .error .typeError
  | some (.array l) => if k < l.length then .ok (msg.set field (.array (l.set k v))) else .error .indexError

/-- the loop body (ulog2ros2bag.py:366-383). The checks of types that the setters of ROS2 messages make
are not modelled. -/
def setField (ty : RosType) (d : Dataset) (i : Nat) (msg : Dict Str RosVal) (f : FieldData) :
    Except PyErr (Dict Str RosVal) := do
  let col ← dictGet d.data f.name
  let v ← pyIndex col i
  match arrayRef f.name with
  | some (field, k) => do
    let x ← ros2ify ty field f.type v
    setElem msg field k x
  | none => do
    let x ← ros2ify ty f.name f.type v
    .ok (msg.set f.name (.plain x))

/-- `ros2_msg_from_ulg_topic` (ulog2ros2bag.py:363-385) -/
def rosMessage (ty : RosType) (d : Dataset) (i : Nat) : Except PyErr (Dict Str RosVal) :=
  d.fields.foldlM (setField ty d i) ty.fresh

/-- `int(timestamp * 1000)`: unsigned 64-bit multiplication; other types are not modelled
(ulog2ros2bag.py:273-277) -/
def rosTime : NpVal → Except PyErr Nat
  | .int n => if 0 ≤ n ∧ n < 2 ^ 64 then .ok (n.toNat * 1000 % 2 ^ 64) else .error .unmodelled
  | _ => .error .unmodelled

/-- what is written: topics with their types, and messages with topic and time -/
structure Bag where
  topics : List (Str × Str) := []
  messages : List (Str × Dict Str RosVal × Nat) := []
  deriving DecidableEq, Repr

/-- the type of an exported dataset, `none` if it is skipped (ulog2ros2bag.py:220-262) -/
def exportType (env : RosEnv) (d : Dataset) : Option (Str × RosType) :=
  match env.msgType d.name with
  | none => none
  | some name =>
    match env.type name with
    | none => none
    | some ty =>
      if d.fields.any (fun f => isComposed f.name) then none
      else if d.fields.all (fun f => decide (stripIndex f.name ∈ ty.types.keys)) then some (name, ty)
      else none

/-- one message (ulog2ros2bag.py:271-278) -/
def exportRow (ty : RosType) (d : Dataset) (topic : Str) (ts : List NpVal) (i : Nat) :
    Except PyErr (Str × Dict Str RosVal × Nat) := do
  let msg ← rosMessage ty d i
  let t ← pyIndex ts i
  let ns ← rosTime t
  .ok (topic, msg, ns)

/-- the loop body (ulog2ros2bag.py:201-280) -/
def exportTopic (env : RosEnv) (all : List Dataset) (bag : Bag) (d : Dataset) : Except PyErr Bag := do
  let ts ← dictGet d.data (py! "timestamp")
  match exportType env d with
  | none => .ok bag
  | some (name, ty) => do
    let rows ← (List.range ts.length).mapM (exportRow ty d (rosTopic all d) ts)
    .ok { topics := bag.topics ++ [(rosTopic all d, py! "px4_msgs/msg/" ++ name)]
          messages := bag.messages ++ rows }

/-- `convert_ulog2ros2bag` on the loaded log (ulog2ros2bag.py:132-282) -/
def exportBag (env : RosEnv) (u : ULog) : Except PyErr Bag :=
  u.dataList.foldlM (exportTopic env u.dataList) {}

end PyULog
