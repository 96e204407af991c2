import Verif.Model.Scalar
import Verif.Spec.Float
/-
What it means for two array elements to be the same number, restated with the meaning of the bit
patterns (`Spec/Float.lean`).
-/
namespace PyULog.Spec
open PyULog

/-- signed value of a finite 32-bit pattern in units of 2^-149 -/
def val32 (b : Nat) : Int := if sign32 b = 0 then (mag32 b : Int) else -(mag32 b : Int)

/-- signed value of a finite 64-bit pattern in units of 2^-1074 -/
def val64 (b : Nat) : Int := if sign64 b = 0 then (mag64 b : Int) else -(mag64 b : Int)

/-- the bit patterns have their width -/
def InRange : NpVal → Prop
  | .int _ => True
  | .f32 b => b < 2 ^ 32
  | .f64 b => b < 2 ^ 64

/-- not a number -/
def IsNaN : NpVal → Prop
  | .int _ => False
  | .f32 b => exp32 b = 255 ∧ frac32 b ≠ 0
  | .f64 b => exp64 b = 2047 ∧ frac64 b ≠ 0

/-- the same number: equal integers, equal finite values, or the same infinity -/
def SameNumber : NpVal → NpVal → Prop
  | .int a, .int b => a = b
  | .f32 a, .f32 b =>
    (finite32 a ∧ finite32 b ∧ val32 a = val32 b) ∨
      (exp32 a = 255 ∧ frac32 a = 0 ∧ exp32 b = 255 ∧ frac32 b = 0 ∧ sign32 a = sign32 b)
  | .f64 a, .f64 b =>
    (finite64 a ∧ finite64 b ∧ val64 a = val64 b) ∨
      (exp64 a = 2047 ∧ frac64 a = 0 ∧ exp64 b = 2047 ∧ frac64 b = 0 ∧ sign64 a = sign64 b)
  | _, _ => False

/-- the same number, or both not a number -/
def SameOrNaN (a b : NpVal) : Prop := SameNumber a b ∨ (IsNaN a ∧ IsNaN b)

end PyULog.Spec
