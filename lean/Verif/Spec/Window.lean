import Verif.Spec.Number
/-
Times and the bounds of a window, restated with the meaning of the bit patterns.
-/
namespace PyULog.Spec
open PyULog

/-- the number is at or after `s` seconds, in microseconds. Infinities count as the next power of two, which is
beyond every bound that occurs. -/
def AtOrAfter (s : Int) : NpVal → Prop
  | .int n => s * 1000000 ≤ n
  | .f32 b => ¬IsNaN (.f32 b) ∧ s * 1000000 * 2 ^ 149 ≤ val32 b
  | .f64 b => ¬IsNaN (.f64 b) ∧ s * 1000000 * 2 ^ 1074 ≤ val64 b

instance (v : NpVal) : Decidable (IsNaN v) := by
  cases v <;> unfold IsNaN <;> infer_instance

instance (s : Int) (v : NpVal) : Decidable (AtOrAfter s v) := by
  cases v <;> unfold AtOrAfter <;> infer_instance

/-- the number and the bound of `s` seconds are compared without rounding: the format of the comparison can hold
both -/
def ComparedExactly (s : Int) : NpVal → Prop
  | .int n => n.natAbs < 2 ^ 53
  | .f32 b => b < 2 ^ 32 ∧ s.natAbs * 15625 < 2 ^ 24
  | .f64 b => b < 2 ^ 64

end PyULog.Spec
