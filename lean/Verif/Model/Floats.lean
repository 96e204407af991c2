import Verif.Model.NumberText
/-
Arithmetic of floats in ulog2kml.py.
-/
namespace PyULog

/-! ### ulog2kml.py -/

/-- `column / 1e7` and `column / 1e3` (ulog2kml.py:189-191), one element: integers become doubles -/
def npScale (d : Nat) : NpVal → NpVal
  | .int n => .f64 (Fmt.b64.divNat (Fmt.b64.ofInt n) d)
  | .f32 b => .f32 (Fmt.b32.divNat b d)
  | .f64 b => .f64 (Fmt.b64.divNat b d)

/-- the argument `altitude_offset`: a Python int or float -/
inductive Offset where
  | int (n : Int)
  | float (bits : Nat)

/-- `pos_alt[i] + altitude_offset` (ulog2kml.py:148,220). The overflow of an integer sum is not modelled. -/
def npAdd : NpVal → Offset → NpVal
  | .int n, .int k => .int (n + k)
  | .int n, .float b => .f64 (Fmt.b64.add (Fmt.b64.ofInt n) b)
  | .f64 a, .int k => .f64 (Fmt.b64.add a (Fmt.b64.ofInt k))
  | .f64 a, .float b => .f64 (Fmt.b64.add a b)
  | .f32 a, .int k => .f32 (Fmt.b32.add a (Fmt.b32.ofInt k))
  | .f32 a, .float b => .f32 (Fmt.b32.add a (narrow32 b))

/-- the coordinates of a point (ulog2kml.py:186-191 and 220; 148 for camera triggers) -/
def kmlCoord (offset : Offset) (scaled : Bool) (lon lat alt : NpVal) : NpVal × NpVal × NpVal :=
  if scaled then (npScale 10000000 lon, npScale 10000000 lat, npAdd (npScale 1000 alt) offset)
  else (lon, lat, npAdd alt offset)

/-- `(cur_t - last_t)/1e6 > minimum_interval_s` (ulog2kml.py:219) for the difference of the timestamps -/
def kmlFar (interval : Nat) (d : Nat) : Bool :=
  Fmt.b64.gt (Fmt.b64.divNat (Fmt.b64.ofInt d) 1000000) interval

/-- 0.1, the default of `minimum_interval_s` -/
def tenth : Nat := Fmt.b64.round 1 10

end PyULog
