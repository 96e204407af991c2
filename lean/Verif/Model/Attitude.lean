import Verif.Model.Tools
/-
Attitude angles from quaternions (px4.py:67-103). The operations on array elements are parameters.
-/
namespace PyULog

/-- the operations of numpy on elements: `2.0 * x` and `1.0 - x` have their own names -/
structure AngleOps (α : Type) where
  add : α → α → α
  sub : α → α → α
  mul : α → α → α
  twice : α → α
  oneMinus : α → α
  arctan2 : α → α → α
  arcsin : α → α

/-- one element of `roll` (px4.py:94-95) -/
def rollOf (o : AngleOps α) (q0 q1 q2 q3 : α) : α :=
  o.arctan2 (o.twice (o.add (o.mul q0 q1) (o.mul q2 q3)))
    (o.oneMinus (o.twice (o.add (o.mul q1 q1) (o.mul q2 q2))))

/-- one element of `pitch` (px4.py:96) -/
def pitchOf (o : AngleOps α) (q0 q1 q2 q3 : α) : α :=
  o.arcsin (o.twice (o.sub (o.mul q0 q2) (o.mul q3 q1)))

/-- one element of `yaw` (px4.py:97-98) -/
def yawOf (o : AngleOps α) (q0 q1 q2 q3 : α) : α :=
  o.arctan2 (o.twice (o.add (o.mul q0 q3) (o.mul q1 q2)))
    (o.oneMinus (o.twice (o.add (o.mul q2 q2) (o.mul q3 q3))))

/-- elementwise operation on four arrays of the same length; other lengths, which the columns of a dataset
do not have, are not modelled -/
def map4 (f : α → α → α → α → β) : List α → List α → List α → List α → Except PyErr (List β)
  | a :: as, b :: bs, c :: cs, d :: ds => do
    let r ← map4 f as bs cs ds
    .ok (f a b c d :: r)
  | [], [], [], [] => .ok []
  | _, _, _, _ => .error .unmodelled

/-- `'q'+field_name_suffix+'['+str(i)+']'` (px4.py:93) -/
def quatName (suffix : Str) (i : Nat) : Str := py! "q" ++ suffix ++ py! "[" ++ natDec i ++ py! "]"

/-- the loop body (px4.py:92-102) -/
def addAngles (o : AngleOps NpVal) (suffix : Str) (d : Dataset) : Except PyErr Dataset := do
  let q0 ← dictGet d.data (quatName suffix 0)
  let q1 ← dictGet d.data (quatName suffix 1)
  let q2 ← dictGet d.data (quatName suffix 2)
  let q3 ← dictGet d.data (quatName suffix 3)
  let roll ← map4 (rollOf o) q0 q1 q2 q3
  let pitch ← map4 (pitchOf o) q0 q1 q2 q3
  let yaw ← map4 (yawOf o) q0 q1 q2 q3
  let data := d.data.set (py! "roll" ++ suffix) roll
  let data := data.set (py! "pitch" ++ suffix) pitch
  let data := data.set (py! "yaw" ++ suffix) yaw
  .ok { d with data := data }

/-- `_add_roll_pitch_yaw_to_message` (px4.py:89-102). The datasets are changed in place; what an exception
leaves behind is not modelled. -/
def addToMessage (o : AngleOps NpVal) (u : ULog) (name suffix : Str) : Except PyErr ULog := do
  let l ← u.dataList.mapM fun d => if d.name = name then addAngles o suffix d else .ok d
  .ok { u with dataList := l }

/-- `s.endswith(p)` -/
def pyEndsWith (p s : Str) : Bool := p.reverse.isPrefixOf s.reverse

/-- message name and suffix of an entry (px4.py:81-85) -/
def splitMessage (m : Str) : Str × Str :=
  if pyEndsWith (py! ":_d") m then (m.take (m.length - 3), py! "_d") else (m, [])

/-- the default messages (px4.py:76-79) -/
def attitudeMessages : List Str :=
  [py! "vehicle_attitude", py! "vehicle_vision_attitude", py! "vehicle_attitude_groundtruth",
    py! "vehicle_attitude_setpoint:_d"]

/-- `add_roll_pitch_yaw` (px4.py:67-86) -/
def addRollPitchYaw (o : AngleOps NpVal) (messages : Option (List Str)) (u : ULog) : Except PyErr ULog :=
  (messages.getD attitudeMessages).foldlM (fun u m => addToMessage o u (splitMessage m).1 (splitMessage m).2) u

end PyULog
