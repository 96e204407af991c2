import Verif.Model.Scalar
/-
Arithmetic of floats as bit patterns: every operation is the exact result, rounded to the nearest
float (ties to even), as IEEE 754 demands and numpy and CPython get from the processor.
-/
namespace PyULog

/-- round half to even of `p / q` -/
def rneDiv (p q : Nat) : Nat :=
  let d := p / q
  let r := p % q
  if 2 * r < q then d else if q < 2 * r then d + 1 else d + d % 2

/-- magnitude of the pattern `x` (sign removed) of a format with `F` fraction bits, in units of the
smallest positive number of the format; the pattern of infinity counts as the next power of two -/
def floatMag (F x : Nat) : Nat :=
  if x / 2 ^ F = 0 then x % 2 ^ F else (2 ^ F + x % 2 ^ F) * 2 ^ (x / 2 ^ F - 1)

/-- a format: `W` bits, `F` of them fraction; the unit, the smallest positive number, is `2^-E` -/
structure Fmt where
  W : Nat
  F : Nat
  E : Nat
  deriving DecidableEq, Repr

def Fmt.b64 : Fmt := ⟨64, 52, 1074⟩
def Fmt.b32 : Fmt := ⟨32, 23, 149⟩

/-- the sign bit -/
def Fmt.signBit (f : Fmt) : Nat := 2 ^ (f.W - 1)

/-- the pattern of infinity -/
def Fmt.inf (f : Fmt) : Nat := (2 ^ (f.W - 1 - f.F) - 1) * 2 ^ f.F

/-- the NaN of an invalid operation -/
def Fmt.nan (f : Fmt) : Nat := f.signBit + f.inf + 2 ^ (f.F - 1)

def Fmt.isNeg (f : Fmt) (b : Nat) : Bool := decide (f.signBit ≤ b)

/-- the pattern without its sign -/
def Fmt.abs (f : Fmt) (b : Nat) : Nat := b % f.signBit

def Fmt.isNaN (f : Fmt) (b : Nat) : Bool := decide (f.inf < f.abs b)

/-- a NaN operand comes out as a quiet NaN -/
def Fmt.quiet (f : Fmt) (b : Nat) : Nat := if b / 2 ^ (f.F - 1) % 2 = 1 then b else b + 2 ^ (f.F - 1)

/-- put a sign in front -/
def Fmt.withSign (f : Fmt) (neg : Bool) (x : Nat) : Nat := if neg then f.signBit + x else x

/-- pattern of the float nearest to `p / q`. Of the number in units, as many bits are dropped as are
too many for the fraction. -/
def Fmt.round (f : Fmt) (p q : Nat) : Nat :=
  let n := p * 2 ^ f.E / q
  let k := if n < 2 ^ (f.F + 1) then 0 else n.log2 - f.F
  min (k * 2 ^ f.F + rneDiv (p * 2 ^ f.E) (q * 2 ^ k)) f.inf

/-- the value of a finite pattern in units -/
def Fmt.value (f : Fmt) (b : Nat) : Int :=
  if f.isNeg b then -(floatMag f.F (f.abs b) : Int) else floatMag f.F (f.abs b)

/-- `float(n)` -/
def Fmt.ofInt (f : Fmt) (n : Int) : Nat := f.withSign (decide (n < 0)) (f.round n.natAbs 1)

/-- `b / d` for a positive constant `d` that the format represents -/
def Fmt.divNat (f : Fmt) (b d : Nat) : Nat :=
  if f.isNaN b then f.quiet b
  else if f.abs b = f.inf then b
  else f.withSign (f.isNeg b) (f.round (floatMag f.F (f.abs b)) (d * 2 ^ f.E))

/-- `b * m` for a positive constant `m` that the format represents -/
def Fmt.mulNat (f : Fmt) (b m : Nat) : Nat :=
  if f.isNaN b then f.quiet b
  else if f.abs b = f.inf then b
  else f.withSign (f.isNeg b) (f.round (floatMag f.F (f.abs b) * m) (2 ^ f.E))

/-- `a + b` -/
def Fmt.add (f : Fmt) (a b : Nat) : Nat :=
  if f.isNaN a then f.quiet a
  else if f.isNaN b then f.quiet b
  else if f.abs a = f.inf then (if f.abs b = f.inf ∧ f.isNeg a ≠ f.isNeg b then f.nan else a)
  else if f.abs b = f.inf then b
  else
    let s := f.value a + f.value b
    if s = 0 then (if f.isNeg a ∧ f.isNeg b then f.signBit else 0)
    else f.withSign (decide (s < 0)) (f.round s.natAbs (2 ^ f.E))

/-- `x > y` -/
def Fmt.gt (f : Fmt) (x y : Nat) : Bool := !f.isNaN x && !f.isNaN y && decide (f.value y < f.value x)

/-- `x >= y` -/
def Fmt.ge (f : Fmt) (x y : Nat) : Bool := !f.isNaN x && !f.isNaN y && decide (f.value y ≤ f.value x)

/-- `np.float32(x)` of a double, as numpy does with a Python float next to a `float32` -/
def narrow32 (b : Nat) : Nat :=
  if Fmt.b64.isNaN b then
    Fmt.b32.withSign (Fmt.b64.isNeg b) (Fmt.b32.quiet (Fmt.b32.inf + b % 2 ^ 52 / 2 ^ 29))
  else if Fmt.b64.abs b = Fmt.b64.inf then Fmt.b32.withSign (Fmt.b64.isNeg b) Fmt.b32.inf
  else Fmt.b32.withSign (Fmt.b64.isNeg b) (Fmt.b32.round (floatMag 52 (Fmt.b64.abs b)) (2 ^ 1074))

end PyULog
