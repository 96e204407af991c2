import Verif.Spec.NumberText
/-
The form of a printed float, restated without the search for its digits: no shorter decimal number
stands for the float, none with as many digits is closer to it, and the notation depends on its size.
-/
namespace PyULog.Spec

/-- `n * 10^k` and `m * 10^j` are the same number -/
def SameDecimal (n : Nat) (k : Int) (m : Nat) (j : Int) : Prop :=
  ∀ T : Nat, -(T : Int) ≤ k → -(T : Int) ≤ j → n * 10 ^ (k + T).toNat = m * 10 ^ (j + T).toNat

/-- `m * 10^j`, where `m` does not end with a zero, is the shortest decimal that is rounded to the pattern `x`:
any other one has at least as many digits, and with as many digits it is at least as far from the exact value.
Magnitudes are multiples of `2^-unit`; for the distances everything is multiplied by `10^T` and `2^unit`. -/
structure Shortest (mag : Nat → Nat) (unit top m : Nat) (j : Int) (x : Nat) : Prop where
  digits : m % 10 ≠ 0
  rounds : RoundsTo mag unit top m j x
  short : ∀ (n : Nat) (k : Int) (d : Nat), RoundsTo mag unit top n k x → n < 10 ^ d → m < 10 ^ d
  close : ∀ (n : Nat) (k : Int) (d : Nat), RoundsTo mag unit top n k x → n < 10 ^ d → 10 ^ (d - 1) ≤ m →
    ∀ T : Nat, -(T : Int) ≤ k → -(T : Int) ≤ j →
      gap (m * 10 ^ (j + T).toNat * 2 ^ unit) (mag x * 10 ^ T) ≤ gap (n * 10 ^ (k + T).toNat * 2 ^ unit) (mag x * 10 ^ T)

/-- a run of digits that is not empty -/
def DigitRun (s : Str) : Prop := s ≠ [] ∧ ∀ c ∈ s, isNumeral c = true

/-- `12.5`, `0.001` or `300.0`: no superfluous zeros, but a digit on both sides of the point -/
def FixedText (t : Str) : Prop :=
  ∃ ip fp, t = ip ++ '.' :: fp ∧ DigitRun ip ∧ DigitRun fp ∧ (ip = ['0'] ∨ ip.head? ≠ some '0') ∧
    (fp = ['0'] ∨ fp.getLast? ≠ some '0')

/-- `1e-05` or `1.25e+100`: one digit that is not zero, further digits after a point, a sign and at least two digits
of exponent -/
def SciText (t : Str) : Prop :=
  ∃ c fp sg ex, t = c :: (fp ++ 'e' :: sg :: ex) ∧ isNumeral c = true ∧ c ≠ '0' ∧
    (fp = [] ∨ ∃ ds, fp = '.' :: ds ∧ DigitRun ds ∧ ds.getLast? ≠ some '0') ∧
    (sg = '+' ∨ sg = '-') ∧ DigitRun ex ∧ 2 ≤ ex.length ∧ (2 < ex.length → ex.head? ≠ some '0')

end PyULog.Spec
