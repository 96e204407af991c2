import Verif.Model.Scalar
import Verif.Spec.Float
/-
What a printed number means, restated without the search for the shortest digits: a reader takes the
text as a decimal number and returns the float closest to it.
-/
namespace PyULog.Spec

/-- is the character one of 0 to 9? -/
def isNumeral (c : Char) : Bool := decide (48 ≤ c.toNat) && decide (c.toNat ≤ 57)

/-- the number written by a run of digits -/
def numeral (s : Str) : Nat := s.foldl (fun a c => a * 10 + (c.toNat - 48)) 0

/-- what follows the integer part: nothing, a fraction, an exponent or both. The result is the
digits of the fraction and the exponent. -/
def readExponent : Str → Option Int
  | [] => some 0
  | 'e' :: '+' :: ds => if ds ≠ [] ∧ ds.all isNumeral then some (numeral ds) else none
  | 'e' :: '-' :: ds => if ds ≠ [] ∧ ds.all isNumeral then some (-numeral ds) else none
  | _ => none

/-- a decimal number without sign, `12`, `1.5` or `1.5e-07`, as digits `n` and exponent `k`: its value
is `n * 10^k` -/
def readUnsigned (s : Str) : Option (Nat × Int) :=
  let ip := s.takeWhile isNumeral
  if ip = [] then none
  else match s.dropWhile isNumeral with
    | '.' :: r =>
      let fp := r.takeWhile isNumeral
      (readExponent (r.dropWhile isNumeral)).map fun e => (numeral (ip ++ fp), e - fp.length)
    | r => (readExponent r).map fun e => (numeral ip, e)

/-- a decimal number: is it negative, its digits and its exponent -/
def readNumber : Str → Option (Bool × Nat × Int)
  | '-' :: s => (readUnsigned s).map fun x => (true, x)
  | s => (readUnsigned s).map fun x => (false, x)

/-- `n * 10^k` is rounded to the pattern `x`: no other pattern up to `top` (infinity, with the
magnitude that the next exponent would have) is as close, or `x` is even and lies as close.
Magnitudes are multiples of `2^-unit`; everything is multiplied by the powers of ten and two. -/
def RoundsTo (mag : Nat → Nat) (unit top n : Nat) (k : Int) (x : Nat) : Prop :=
  ∀ y, y ≤ top → y ≠ x →
    gap (n * 10 ^ k.toNat * 2 ^ unit) (mag x * 10 ^ (-k).toNat)
        < gap (n * 10 ^ k.toNat * 2 ^ unit) (mag y * 10 ^ (-k).toNat) ∨
      gap (n * 10 ^ k.toNat * 2 ^ unit) (mag x * 10 ^ (-k).toNat)
        = gap (n * 10 ^ k.toNat * 2 ^ unit) (mag y * 10 ^ (-k).toNat) ∧ x % 2 = 0

/-- the text stands for the 64-bit float with this pattern -/
def ReadsAs64 (s : Str) (bits : Nat) : Prop :=
  if exp64 bits = 2047 then
    s = if frac64 bits ≠ 0 then py! "nan" else if sign64 bits = 0 then py! "inf" else py! "-inf"
  else ∃ n k, readNumber s = some (decide (sign64 bits ≠ 0), n, k) ∧
    RoundsTo mag64 1074 (2047 * 2 ^ 52) n k (bits % 2 ^ 63)

/-- the text stands for the 32-bit float with this pattern -/
def ReadsAs32 (s : Str) (bits : Nat) : Prop :=
  if exp32 bits = 255 then
    s = if frac32 bits ≠ 0 then py! "nan" else if sign32 bits = 0 then py! "inf" else py! "-inf"
  else ∃ n k, readNumber s = some (decide (sign32 bits ≠ 0), n, k) ∧
    RoundsTo mag32 149 (255 * 2 ^ 23) n k (bits % 2 ^ 31)

/-- the text stands for the integer -/
def ReadsAsInt (s : Str) (n : Int) : Prop := readNumber s = some (decide (n < 0), n.natAbs, 0)

/-- the text stands for the array element -/
def ReadsAs (s : Str) : NpVal → Prop
  | .int n => ReadsAsInt s n
  | .f32 b => ReadsAs32 s b
  | .f64 b => ReadsAs64 s b

end PyULog.Spec
