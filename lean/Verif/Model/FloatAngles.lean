import Verif.Model.Floats
import Verif.Model.Attitude
/-
The arithmetic of the attitude angles (px4.py:94-98) on float32 columns, bit by bit. `arctan2` and `arcsin` of
the C library remain parameters.
-/
namespace PyULog

/-- `a * b` -/
def Fmt.mul (f : Fmt) (a b : Nat) : Nat :=
  if f.isNaN a then f.quiet a
  else if f.isNaN b then f.quiet b
  else if f.abs a = f.inf ∨ f.abs b = f.inf then
    (if f.abs a = 0 ∨ f.abs b = 0 then f.nan else f.withSign (f.isNeg a != f.isNeg b) f.inf)
  else f.withSign (f.isNeg a != f.isNeg b) (f.round (floatMag f.F (f.abs a) * floatMag f.F (f.abs b)) (2 ^ f.E * 2 ^ f.E))

/-- `-b` -/
def Fmt.neg (f : Fmt) (b : Nat) : Nat := f.withSign (!f.isNeg b) (f.abs b)

/-- `a - b` -/
def Fmt.sub (f : Fmt) (a b : Nat) : Nat :=
  if f.isNaN a then f.quiet a
  else if f.isNaN b then f.quiet b
  else f.add a (f.neg b)

/-- the operations on float32 elements; the constants `2.0` and `1.0` take the type of the array -/
def ops32 (arctan2 : Nat → Nat → Nat) (arcsin : Nat → Nat) : AngleOps Nat where
  add := Fmt.b32.add
  sub := Fmt.b32.sub
  mul := Fmt.b32.mul
  twice := Fmt.b32.mul (Fmt.b32.round 2 1)
  oneMinus := Fmt.b32.sub (Fmt.b32.round 1 1)
  arctan2 := arctan2
  arcsin := arcsin

end PyULog
