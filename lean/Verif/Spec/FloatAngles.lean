import Mathlib.Data.Real.Basic
import Verif.Spec.Number
/-
Float32 patterns as real numbers.
-/
namespace PyULog.Spec

/-- the real number of a finite pattern -/
noncomputable def real32 (b : Nat) : ℝ := (val32 b : ℝ) / 2 ^ 149

/-- a pattern of a finite number -/
def Float32 (b : Nat) : Prop := b < 2 ^ 32 ∧ finite32 b

/-- `r` is a finite float that differs from `v` by at most `e` -/
def CloseTo (e : ℝ) (v : ℝ) (r : Nat) : Prop := Float32 r ∧ |real32 r - v| ≤ e

/-- four finite floats whose squares add up to 1, or to less, or to hardly more (the tolerance is 8 times the step of
float32 at 1) -/
structure QuatFloats (w x y z : Nat) : Prop where
  fw : Float32 w
  fx : Float32 x
  fy : Float32 y
  fz : Float32 z
  unit : real32 w ^ 2 + real32 x ^ 2 + real32 y ^ 2 + real32 z ^ 2 ≤ 1 + 1 / 2 ^ 20

end PyULog.Spec
