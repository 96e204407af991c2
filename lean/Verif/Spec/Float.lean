import Verif.Model.Basic
/-
Meaning of IEEE-754 bit patterns, restated independently of the conversions of the model.
-/
namespace PyULog.Spec

/-- sign, exponent field and fraction field of a 32-bit pattern -/
def sign32 (b : Nat) : Nat := b / 2 ^ 31
def exp32 (b : Nat) : Nat := b / 2 ^ 23 % 2 ^ 8
def frac32 (b : Nat) : Nat := b % 2 ^ 23

/-- sign, exponent field and fraction field of a 64-bit pattern -/
def sign64 (b : Nat) : Nat := b / 2 ^ 63
def exp64 (b : Nat) : Nat := b / 2 ^ 52 % 2 ^ 11
def frac64 (b : Nat) : Nat := b % 2 ^ 52

def finite32 (b : Nat) : Prop := exp32 b ≠ 255
def finite64 (b : Nat) : Prop := exp64 b ≠ 2047

/-- a signalling NaN: exponent all ones, fraction not zero, quiet bit clear -/
def sNaN32 (b : Nat) : Prop := exp32 b = 255 ∧ frac32 b ≠ 0 ∧ frac32 b < 2 ^ 22

/-- magnitude of a finite 32-bit value in units of 2^-149 -/
def mag32 (b : Nat) : Nat :=
  if exp32 b = 0 then frac32 b else (2 ^ 23 + frac32 b) * 2 ^ (exp32 b - 1)

/-- magnitude of a finite 64-bit value in units of 2^-1074 -/
def mag64 (b : Nat) : Nat :=
  if exp64 b = 0 then frac64 b else (2 ^ 52 + frac64 b) * 2 ^ (exp64 b - 1)

/-- distance of two naturals -/
def gap (a b : Nat) : Nat := (a - b) + (b - a)

end PyULog.Spec
