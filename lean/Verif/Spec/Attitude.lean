import Verif.Model.Attitude
/-
The columns that `add_roll_pitch_yaw` adds.
-/
namespace PyULog.Spec
open PyULog

/-- name of a column of the quaternion -/
def quatCol (suffix : Str) (digit : Char) : Str := 'q' :: (suffix ++ ['[', digit, ']'])

/-- names of the new columns -/
def angleCols (suffix : Str) : List Str := [py! "roll" ++ suffix, py! "pitch" ++ suffix, py! "yaw" ++ suffix]

/-- roll, pitch and yaw of the quaternion (w, x, y, z) -/
def eulerRoll (o : AngleOps α) (w x y z : α) : α :=
  o.arctan2 (o.twice (o.add (o.mul w x) (o.mul y z))) (o.oneMinus (o.twice (o.add (o.mul x x) (o.mul y y))))
def eulerPitch (o : AngleOps α) (w x y z : α) : α := o.arcsin (o.twice (o.sub (o.mul w y) (o.mul z x)))
def eulerYaw (o : AngleOps α) (w x y z : α) : α :=
  o.arctan2 (o.twice (o.add (o.mul w z) (o.mul x y))) (o.oneMinus (o.twice (o.add (o.mul y y) (o.mul z z))))

/-- `col` has in every row the value of `f` of the quaternion of this row -/
def ColumnIs (f : α → α → α → α → β) (w x y z : List α) (col : List β) : Prop :=
  col.length = w.length ∧ col.length = x.length ∧ col.length = y.length ∧ col.length = z.length ∧
    ∀ (i : Nat) (a b c d : α), w[i]? = some a → x[i]? = some b → y[i]? = some c → z[i]? = some d →
      col[i]? = some (f a b c d)

/-- `d'` is `d` with the angles of the quaternion -/
structure Angled (o : AngleOps NpVal) (suffix : Str) (d d' : Dataset) : Prop where
  same : d' = { d with data := d'.data }
  order : d'.data.keys = d.data.keys ++ (angleCols suffix).filter fun k => decide (k ∉ d.data.keys)
  others : ∀ k, k ∉ angleCols suffix → d'.data.get? k = d.data.get? k
  columns : ∃ w x y z roll pitch yaw,
    d.data.get? (quatCol suffix '0') = some w ∧ d.data.get? (quatCol suffix '1') = some x ∧
    d.data.get? (quatCol suffix '2') = some y ∧ d.data.get? (quatCol suffix '3') = some z ∧
    d'.data.get? (py! "roll" ++ suffix) = some roll ∧ ColumnIs (eulerRoll o) w x y z roll ∧
    d'.data.get? (py! "pitch" ++ suffix) = some pitch ∧ ColumnIs (eulerPitch o) w x y z pitch ∧
    d'.data.get? (py! "yaw" ++ suffix) = some yaw ∧ ColumnIs (eulerYaw o) w x y z yaw

/-- an entry of the list of messages: topic and suffix -/
def Entry (m name suffix : Str) : Prop :=
  (m = name ++ py! ":_d" ∧ suffix = py! "_d") ∨ ((¬ ∃ n, m = n ++ py! ":_d") ∧ m = name ∧ suffix = [])

/-- the columns of the quaternion exist -/
def HasQuat (suffix : Str) (d : Dataset) : Prop :=
  ∀ c ∈ ['0', '1', '2', '3'], quatCol suffix c ∈ d.data.keys

/-- topics and suffixes of the default -/
def defaultTopics : List (Str × Str) :=
  [(py! "vehicle_attitude", []), (py! "vehicle_vision_attitude", []), (py! "vehicle_attitude_groundtruth", []),
    (py! "vehicle_attitude_setpoint", py! "_d")]

end PyULog.Spec
