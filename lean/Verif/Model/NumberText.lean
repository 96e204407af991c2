import Verif.Model.Tools
import Verif.Model.Extract
/-
`str` of the numbers that the tools print: `str(d.data[key][i])` (ulog2csv.py:148) of a numpy element
and `str(value)` (params.py:73,77,91,96,117,121,139, info.py:42) of a python value. A float is printed with
the shortest run of digits that reads back as the same float (`repr` of CPython with the short float
style; Dragon4 in unique mode in numpy), in fixed notation between 1e-4 and 1e16 and with an exponent
outside. numpy looks at the value for this (the `float32` next to 1e-4 is smaller and printed as `1e-04`);
CPython looks at the digits, which is the same for 64 bits. numpy 2.3 changes the upper bound for `float32`
to 1e8, which is not modelled.
-/
namespace PyULog

/-- does `n * Q / P` (in the units of `floatMag`) read back as the pattern `x`? It lies between the
middles to both neighbours; a middle itself goes to the even pattern. -/
def readsBack (F x P Q n : Nat) : Bool :=
  let below := (floatMag F (x - 1) + floatMag F x) * P
  let above := (floatMag F x + floatMag F (x + 1)) * P
  if x % 2 = 0 then below ≤ 2 * n * Q && 2 * n * Q ≤ above
  else below < 2 * n * Q && 2 * n * Q < above

/-- the `K` with `10^(K-1) <= value < 10^K`; the unit of the format is `2^-E` -/
def decExp (F E x : Nat) : Int := ((natDec (floatMag F x * 10 ^ 400 / 2 ^ E)).length : Int) - 400

/-- the other one of `lo` and `lo + 1` -/
def otherEnd (near lo : Nat) : Nat := if near = lo then lo + 1 else lo

/-- search for the shortest decimal `n * 10^k` that reads back as `x`: `nd` digits are tried first,
then up to `left` more; of the two neighbours with `nd` digits the closer one is preferred -/
def shortestF (F E x : Nat) (K : Int) : Nat → Nat → Nat × Int
  | left, nd =>
    let s : Int := (nd : Int) - K
    let P := 10 ^ s.toNat
    let Q := 2 ^ E * 10 ^ (-s).toNat
    let lo := floatMag F x * P / Q
    let near := rneDiv (floatMag F x * P) Q
    let far := otherEnd near lo
    match left with
    | 0 => (near, -s)
    | left + 1 =>
      if readsBack F x P Q near then (near, -s)
      else if readsBack F x P Q far then (far, -s)
      else shortestF F E x K left (nd + 1)

/-- remove trailing zeros of the digits -/
def stripZeros : Nat → Nat → Int → Nat × Int
  | 0, n, k => (n, k)
  | f + 1, n, k => if n % 10 = 0 then stripZeros f (n / 10) (k + 1) else (n, k)

/-- `'%02d' % n` -/
def atLeast2 (n : Nat) : Str := if n < 10 then '0' :: natDec n else natDec n

/-- is the number with an exponent: below 1e-4 or from 1e16 on -/
def scientific (F E x : Nat) : Bool := decide (floatMag F x * 10 ^ 4 < 2 ^ E) || decide (10 ^ 16 * 2 ^ E ≤ floatMag F x)

/-- the digits `n`, value `n * 10^k`, laid out as by `repr`, with or without an exponent -/
def layout (sci : Bool) (n : Nat) (k : Int) : Str :=
  let ds := natDec n
  let pt : Int := (ds.length : Int) + k
  if sci then
    let e := pt - 1
    ds.take 1 ++ (if 1 < ds.length then '.' :: ds.drop 1 else []) ++
      'e' :: (if e < 0 then '-' else '+') :: atLeast2 e.natAbs
  else if pt ≤ 0 then '0' :: '.' :: (List.replicate (-pt).toNat '0' ++ ds)
  else if pt < ds.length then ds.take pt.toNat ++ '.' :: ds.drop pt.toNat
  else ds ++ List.replicate (pt - ds.length).toNat '0' ++ ['.', '0']

/-- `str` of a float with `W` bits, `F` of them fraction, unit `2^-E`; `N` digits are always enough -/
def floatText (W F E N bits : Nat) : Str :=
  let x := bits % 2 ^ (W - 1)
  let sign : Str := if 2 ^ (W - 1) ≤ bits then ['-'] else []
  if x / 2 ^ F = 2 ^ (W - 1 - F) - 1 then
    if x % 2 ^ F = 0 then sign ++ py! "inf" else py! "nan"
  else if x = 0 then sign ++ py! "0.0"
  else
    let d := shortestF F E x (decExp F E x) (N - 1) 1
    let d := stripZeros N d.1 d.2
    sign ++ layout (scientific F E x) d.1 d.2

/-- `str` of a `float` or `np.float64` -/
def f64Text (bits : Nat) : Str := floatText 64 52 1074 17 bits

/-- `str` of a `np.float32` -/
def f32Text (bits : Nat) : Str := floatText 32 23 149 9 bits

/-- `str` of an array element -/
def npText : NpVal → Str
  | .int n => intDec n
  | .f32 b => f32Text b
  | .f64 b => f64Text b

/-- lower case hexadecimal digit -/
def hexC (n : Nat) : Char := Char.ofNat (if n < 10 then 48 + n else 87 + n)

/-- one byte in the `repr` of `bytes`, `q` being the quote -/
def byteRepr (q : Char) (b : UInt8) : Str :=
  let n := b.toNat
  if n = 92 ∨ n = q.toNat then ['\\', Char.ofNat n]
  else if n = 9 then py! "\\t"
  else if n = 10 then py! "\\n"
  else if n = 13 then py! "\\r"
  else if n < 32 ∨ 127 ≤ n then ['\\', 'x', hexC (n / 16), hexC (n % 16)]
  else [Char.ofNat n]

/-- `str` of `bytes`: `b'...'`, with double quotes if there are single but no double quotes in it -/
def bytesText (b : Bytes) : Str :=
  let q : Char := if b.any (·.toNat = 39) && !b.any (·.toNat = 34) then '"' else '\''
  'b' :: q :: (b.flatMap (byteRepr q) ++ [q])

/-- `str` of a value of an info message or a parameter -/
def pyText : Value → Str
  | .str s => s
  | .bytes b => bytesText b
  | .int n => intDec n
  | .float b => f64Text b
  | .bool true => py! "True"
  | .bool false => py! "False"

end PyULog
