import Verif.Spec.Number
/-
What a rounded result is, restated without the rounding of the model.
-/
namespace PyULog.Spec

/-- `x` is the pattern of the float nearest to `p / q`: every other pattern up to `top` (infinity, with the
magnitude that the next exponent would have) is farther away, or as far and `x` is even. Magnitudes are multiples
of `2^-unit`. -/
def Nearest (mag : Nat → Nat) (unit top p q x : Nat) : Prop :=
  x ≤ top ∧ ∀ y, y ≤ top → y ≠ x →
    gap (p * 2 ^ unit) (mag x * q) < gap (p * 2 ^ unit) (mag y * q) ∨
      gap (p * 2 ^ unit) (mag x * q) = gap (p * 2 ^ unit) (mag y * q) ∧ x % 2 = 0

/-- the same for the two formats, without sign -/
def Nearest64 (p q x : Nat) : Prop := Nearest mag64 1074 (2047 * 2 ^ 52) p q x
def Nearest32 (p q x : Nat) : Prop := Nearest mag32 149 (255 * 2 ^ 23) p q x

end PyULog.Spec
