import Verif.Model.Log
import Verif.Spec.Messages
import Verif.Spec.Flatten
/-
What `ulog_info` should print, in exact arithmetic.
-/
namespace PyULog.Spec
open PyULog

/-- two decimal digits -/
def two (n : Nat) : Str := [Char.ofNat (48 + n / 10), Char.ofNat (48 + n % 10)]

/-- seconds as h:mm:ss -/
def hourText (s : Nat) : Str := dec (s / 3600) ++ py! ":" ++ two (s / 60 % 60) ++ py! ":" ++ two (s % 60)

def timesText (start stop : Nat) : Str :=
  py! "Logging start time: " ++ hourText (start / 1000000) ++ py! ", duration: " ++ hourText ((stop - start) / 1000000)

/-- `tenths` is a nearest number of tenths of a second to `ms` milliseconds -/
def NearTenth (ms tenths : Nat) : Prop := 100 * tenths ≤ ms + 50 ∧ ms ≤ 100 * tenths + 50

/-- `m` is the greatest element -/
def Greatest (l : List Nat) (m : Nat) : Prop := m ∈ l ∧ ∀ x ∈ l, x ≤ m

def dropoutText (count tenths greatest mean : Nat) : Str :=
  py! "Dropouts: count: " ++ dec count ++ py! ", total duration: " ++ dec (tenths / 10) ++ py! "." ++
    dec (tenths % 10) ++ py! " s, max: " ++ dec greatest ++ py! " ms, mean: " ++ dec mean ++ py! " ms"

/-- the line about the dropouts with the given durations (ms) -/
def DropoutLine (l : List Nat) (line : Str) : Prop :=
  (l = [] ∧ line = py! "No Dropouts") ∨
  (∃ tenths greatest, NearTenth l.sum tenths ∧ Greatest l greatest ∧
    line = dropoutText l.length tenths greatest (l.sum / l.length))

/-- texts of at least `w` characters -/
def leftIn (w : Nat) (s : Str) : Str := s ++ List.replicate (w - s.length) ' '
def rightIn (w : Nat) (s : Str) : Str := List.replicate (w - s.length) ' ' ++ s

/-- row of the table for a topic with `points` samples of `size` bytes that have `total` bytes together -/
def rowText (name : Str) (multi size points total : Nat) : Str :=
  py! " " ++ leftIn 40 (name ++ py! " (" ++ dec multi ++ py! ", " ++ dec size ++ py! ")") ++ py! " " ++
    rightIn 7 (dec points) ++ py! " " ++ rightIn 10 (dec total)

/-- sort key of the table -/
def infoKey (d : Dataset) : List Nat := (d.name ++ dec d.multiId).map Char.toNat

/-- the datasets in the order of the table: ascending by name followed by instance, as text; datasets
with the same text keep their order -/
def TableOrder (l rows : List Dataset) : Prop :=
  rows.Perm l ∧ rows.Pairwise (fun a b => infoKey a ≤ infoKey b) ∧
    ∀ k, rows.filter (fun d => decide (infoKey d = k)) = l.filter fun d => decide (infoKey d = k)

/-- keys that are listed -/
def shownKey (verbose : Bool) (k : Str) : Bool := verbose || !(py! "perf_").isPrefixOf k

/-- the lines about the multi info messages -/
def multiText (fl : List (List Value) → Str) (verbose : Bool) (es : List (Str × List (List Value))) : List Str :=
  match es with
  | [] => []
  | _ :: _ =>
    if verbose then py! "Info Multiple Messages:" :: es.map fun e => py! " " ++ e.1 ++ py! ": " ++ fl e.2
    else [py! "Info Multiple Messages: " ++
      List.intercalate (py! ", ") (es.map fun e => py! "[" ++ e.1 ++ py! ": " ++ dec e.2.length ++ py! "]")]

/-- everything that is printed -/
def listing (corrupt : Bool) (times dropouts : Str) (version : Option Str) (infos multis rows : List Str) : List Str :=
  (if corrupt then [py! "Warning: file has data corruption(s)"] else []) ++ [times, dropouts] ++
    version.toList.map (fun v => py! "SW Version: " ++ v) ++ py! "Info Messages:" :: infos ++ multis ++
    [[], py! "Name (multi id, message size in bytes)    number of data points, total bytes"] ++ rows

/-- the bytes of a text of pairs of hexadecimal digits; other characters separate -/
def hexVal (c : Char) : Option Nat :=
  if '0'.toNat ≤ c.toNat ∧ c.toNat ≤ '9'.toNat then some (c.toNat - '0'.toNat)
  else if 'a'.toNat ≤ c.toNat ∧ c.toNat ≤ 'f'.toNat then some (c.toNat - 'a'.toNat + 10)
  else none

/-- digits to bytes -/
def pairUp : List Nat → List Nat
  | a :: b :: r => (16 * a + b) :: pairUp r
  | _ => []

def unhex (s : Str) : List Nat := pairUp (s.filterMap hexVal)

end PyULog.Spec
