import Verif.Spec.Info
/-
How a python reader understands a bytes literal, restated without the printing.
-/
namespace PyULog.Spec

/-- the byte for a backslash and this character -/
def unescape : Char → Option Nat
  | 't' => some 9
  | 'n' => some 10
  | 'r' => some 13
  | '\\' => some 92
  | '\'' => some 39
  | '"' => some 34
  | _ => none

/-- the bytes up to the closing quote `q`, which ends the text -/
def readItems (q : Char) : Str → Option (List Nat)
  | '\\' :: 'x' :: a :: b :: r =>
    match hexVal a, hexVal b, readItems q r with
    | some h, some l, some bs => some ((16 * h + l) :: bs)
    | _, _, _ => none
  | '\\' :: c :: r =>
    match unescape c, readItems q r with
    | some e, some bs => some (e :: bs)
    | _, _ => none
  | c :: r =>
    if c = '\\' then none
    else if c = q then (if r = [] then some [] else none)
    else if 32 ≤ c.toNat ∧ c.toNat < 127 then (readItems q r).map (c.toNat :: ·)
    else none
  | [] => none

/-- a bytes literal, `b'...'` or `b"..."` -/
def readBytes : Str → Option (List Nat)
  | 'b' :: '\'' :: r => readItems '\'' r
  | 'b' :: '"' :: r => readItems '"' r
  | _ => none

end PyULog.Spec
