/-
Basic vocabulary of the model: bytes, Python exceptions, little-endian integers,
insertion-ordered dictionaries, Python `set`, stable sorting.
-/
namespace PyULog

/-- Python `bytes` / `bytearray`. -/
abbrev Bytes := List UInt8

/-- Python `str`: a list of code points. (A `str` produced by UTF-8 decoding never contains
lone surrogates, so Lean's `Char` is exact.) -/
abbrev Str := List Char

/-- String literal as a `Str`, expanded at elaboration time to a list of characters. -/
syntax "py!" str : term
open Lean in
macro_rules
  | `(py! $s:str) => do
    let cs := s.getString.toList.map (fun c => Syntax.mkCharLit c)
    `([$(cs.toArray),*])

/-- The Python exceptions that the modelled code can raise.
`unicodeError` is `UnicodeDecodeError`/`UnicodeEncodeError`, `structError` is `struct.error`.
`unmodelled` marks inputs on which the Python behaviour is deliberately not modelled. -/
inductive PyErr where
  | indexError | structError | keyError | valueError | typeError | notImplemented
  | unicodeError | osError | overflowError | recursionError | attributeError
  | fileExists | fileNotFound | notADirectory | integrityError | operationalError
  | systemExit | assertionError | unmodelled
  deriving DecidableEq, Repr

/-! ### Python slices on non-negative indices -/

/-- `data[a:b]` for `0 <= a`, `0 <= b`. -/
def slice (a b : Nat) (l : List α) : List α := (l.take b).drop a

/-! ### Little-endian integers (`struct` codes with the `<` prefix) -/

/-- unsigned little-endian decoding (`struct.unpack('<B' | '<H' | '<I' | '<Q')`) -/
def leNat : Bytes → Nat
  | [] => 0
  | b :: bs => b.toNat + 256 * leNat bs

/-- unsigned little-endian encoding on `n` bytes -/
def leEnc : Nat → Nat → Bytes
  | 0, _ => []
  | n + 1, v => UInt8.ofNat (v % 256) :: leEnc n (v / 256)

/-- two's complement reading of an unsigned value of `8*n` bits -/
def toSigned (n : Nat) (v : Nat) : Int :=
  if v < 2 ^ (8 * n - 1) then (v : Int) else (v : Int) - 2 ^ (8 * n)

/-- two's complement representation of an integer on `8*n` bits -/
def ofSigned (n : Nat) (v : Int) : Nat :=
  if v < 0 then (v + 2 ^ (8 * n)).toNat else v.toNat

/-- `struct.unpack` of one unsigned integer of `n` bytes: the length must be exact. -/
def unpackU (n : Nat) (b : Bytes) : Except PyErr Nat :=
  if b.length = n then .ok (leNat b) else .error .structError

/-- `struct.pack` of one unsigned integer of `n` bytes: out-of-range raises `struct.error`. -/
def packU (n : Nat) (v : Nat) : Except PyErr Bytes :=
  if v < 256 ^ n then .ok (leEnc n v) else .error .structError

/-! ### dict (insertion ordered) -/

/-- Python `dict`: association list in insertion order. -/
abbrev Dict (κ α : Type) := List (κ × α)

namespace Dict
variable {κ α : Type} [DecidableEq κ]

/-- `d.get(k)` -/
def get? (d : Dict κ α) (k : κ) : Option α :=
  match d with
  | [] => none
  | (k', v) :: t => if k' = k then some v else get? t k

/-- `k in d` -/
def has (d : Dict κ α) (k : κ) : Bool := (get? d k).isSome

/-- `d[k] = v`: replaces in place, or appends at the end. -/
def set (d : Dict κ α) (k : κ) (v : α) : Dict κ α :=
  match d with
  | [] => [(k, v)]
  | (k', v') :: t => if k' = k then (k', v) :: t else (k', v') :: set t k v

/-- `d.keys()` -/
def keys (d : Dict κ α) : List κ := d.map (·.1)

/-- `d.values()` -/
def vals (d : Dict κ α) : List α := d.map (·.2)

end Dict

/-- Python `set.add` on a set kept as a list without repetition. -/
def setAdd [DecidableEq α] (s : List α) (x : α) : List α := if x ∈ s then s else s ++ [x]

/-! ### stable sort -/

/-- insert `x` before the first element that is not smaller than it -/
def ins (le : α → α → Bool) (x : α) : List α → List α
  | [] => [x]
  | y :: ys => if le x y then x :: y :: ys else y :: ins le x ys

/-- `sorted(l, key=...)` / `list.sort`: Python's sort is stable; this is the stable
insertion sort for the order `le` (`Lemmas/Sort.lean` proves that it is sorted, a permutation,
and keeps the order of equivalent elements, which determines the result uniquely). -/
def ssort (le : α → α → Bool) (l : List α) : List α := l.foldr (ins le) []

/-- comparison of Python strings: lexicographic by code point -/
def strLe : Str → Str → Bool
  | [], _ => true
  | _ :: _, [] => false
  | a :: as, b :: bs => if a = b then strLe as bs else decide (a.toNat < b.toNat)

end PyULog
