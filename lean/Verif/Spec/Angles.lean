import Mathlib.Analysis.SpecialFunctions.Complex.Arg
import Verif.Model.Attitude
/-
Quaternions and rotations over the real numbers.
-/
namespace PyULog.Spec
open PyULog Real

/-- quaternion w + x i + y j + z k -/
@[ext] structure Quat where
  w : ℝ
  x : ℝ
  y : ℝ
  z : ℝ

/-- Hamilton product -/
def Quat.mul (p q : Quat) : Quat :=
  ⟨p.w * q.w - p.x * q.x - p.y * q.y - p.z * q.z, p.w * q.x + p.x * q.w + p.y * q.z - p.z * q.y,
    p.w * q.y - p.x * q.z + p.y * q.w + p.z * q.x, p.w * q.z + p.x * q.y - p.y * q.x + p.z * q.w⟩

def Quat.conj (q : Quat) : Quat := ⟨q.w, -q.x, -q.y, -q.z⟩

def Quat.Unit (q : Quat) : Prop := q.w ^ 2 + q.x ^ 2 + q.y ^ 2 + q.z ^ 2 = 1

/-- a vector -/
structure Vec where
  x : ℝ
  y : ℝ
  z : ℝ

/-- the vector as a quaternion -/
def Vec.quat (v : Vec) : Quat := ⟨0, v.x, v.y, v.z⟩

/-- `q v q*` -/
noncomputable def Quat.rotate (q : Quat) (v : Vec) : Quat := (q.mul v.quat).mul q.conj

/-- rotations about the axes -/
noncomputable def rotX (a : ℝ) (v : Vec) : Vec := ⟨v.x, cos a * v.y - sin a * v.z, sin a * v.y + cos a * v.z⟩
noncomputable def rotY (a : ℝ) (v : Vec) : Vec := ⟨cos a * v.x + sin a * v.z, v.y, -sin a * v.x + cos a * v.z⟩
noncomputable def rotZ (a : ℝ) (v : Vec) : Vec := ⟨cos a * v.x - sin a * v.y, sin a * v.x + cos a * v.y, v.z⟩

/-- the quaternions of rotations about the axes -/
noncomputable def quatX (a : ℝ) : Quat := ⟨cos (a / 2), sin (a / 2), 0, 0⟩
noncomputable def quatY (a : ℝ) : Quat := ⟨cos (a / 2), 0, sin (a / 2), 0⟩
noncomputable def quatZ (a : ℝ) : Quat := ⟨cos (a / 2), 0, 0, sin (a / 2)⟩

/-- first roll, then pitch, then yaw -/
noncomputable def quatOf (roll pitch yaw : ℝ) : Quat := ((quatZ yaw).mul (quatY pitch)).mul (quatX roll)

/-- exact arithmetic; `arctan2 y x` is the argument of x + y i -/
noncomputable def realOps : AngleOps ℝ where
  add a b := a + b
  sub a b := a - b
  mul a b := a * b
  twice a := 2 * a
  oneMinus a := 1 - a
  arctan2 y x := Complex.arg ⟨x, y⟩
  arcsin := Real.arcsin

end PyULog.Spec
