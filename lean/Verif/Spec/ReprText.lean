import Verif.Spec.BytesText
import Verif.Spec.NumberText
/-
How a python reader understands a list of lists of texts, bytes and numbers, restated without the
printing.
-/
namespace PyULog.Spec

/-- the character with these hexadecimal digits -/
def codeOf (ds : Str) : Option Char :=
  match ds.mapM hexVal with
  | some l =>
    let n := l.foldl (fun a d => 16 * a + d) 0
    if n.isValidChar then some (Char.ofNat n) else none
  | none => none

/-- put the character in front of what was read -/
def front (c : Option Char) (r : Option (Str × Str)) : Option (Str × Str) :=
  match c, r with
  | some c, some (s, rest) => some (c :: s, rest)
  | _, _ => none

/-- a text up to its closing quote `q`, and what follows -/
def textUpTo (q : Char) : Str → Option (Str × Str)
  | '\\' :: 'x' :: a :: b :: r => front (codeOf [a, b]) (textUpTo q r)
  | '\\' :: 'u' :: a :: b :: c :: d :: r => front (codeOf [a, b, c, d]) (textUpTo q r)
  | '\\' :: 'U' :: a :: b :: c :: d :: e :: f :: g :: h :: r => front (codeOf [a, b, c, d, e, f, g, h]) (textUpTo q r)
  | '\\' :: c :: r => front ((unescape c).map Char.ofNat) (textUpTo q r)
  | c :: r =>
    if c = '\\' then none
    else if c = q then some ([], r)
    else if c.toNat < 32 then none
    else front (some c) (textUpTo q r)
  | [] => none

/-- an element: a text, bytes, or a word that is taken as it is -/
inductive Elem where
  | text (s : Str)
  | bytes (b : List Nat)
  | word (s : Str)
  deriving DecidableEq

/-- an element and what follows it; a word ends before a comma or a bracket -/
def readElem : Str → Option (Elem × Str)
  | 'b' :: '\'' :: r => (textUpTo '\'' r).map fun p => (.bytes (p.1.map (·.toNat)), p.2)
  | 'b' :: '"' :: r => (textUpTo '"' r).map fun p => (.bytes (p.1.map (·.toNat)), p.2)
  | '\'' :: r => (textUpTo '\'' r).map fun p => (.text p.1, p.2)
  | '"' :: r => (textUpTo '"' r).map fun p => (.text p.1, p.2)
  | r => some (.word (r.takeWhile fun c => c ≠ ',' && c ≠ ']'), r.dropWhile fun c => c ≠ ',' && c ≠ ']')

/-- elements separated by `", "` up to the closing bracket, and what follows -/
def readRest (item : Str → Option (α × Str)) : Nat → Str → Option (List α × Str)
  | 0, _ => none
  | n + 1, s =>
    match item s with
    | some (x, ']' :: r) => some ([x], r)
    | some (x, ',' :: ' ' :: r) => (readRest item n r).map fun p => (x :: p.1, p.2)
    | _ => none

/-- a list in brackets, and what follows -/
def readList (item : Str → Option (α × Str)) : Str → Option (List α × Str)
  | '[' :: ']' :: r => some ([], r)
  | '[' :: r => readRest item r.length r
  | _ => none

/-- a list of lists -/
def readLists (s : Str) : Option (List (List Elem)) :=
  match readList (readList readElem) s with
  | some (l, []) => some l
  | _ => none

/-- the element that was read is the value -/
def ElemIs : Elem → Value → Prop
  | .text s, .str t => s = t
  | .bytes b, .bytes c => b = c.map (·.toNat)
  | .word w, .int n => ReadsAsInt w n
  | .word w, .float x => ReadsAs64 w x
  | .word w, .bool b => w = if b then py! "True" else py! "False"
  | _, _ => False

/-- the elements that were read are the values, one by one -/
def ElemsAre (items : List (List Elem)) (values : List (List Value)) : Prop :=
  items.length = values.length ∧ ∀ i (h1 : i < items.length) (h2 : i < values.length),
    items[i].length = values[i].length ∧ ∀ j (h3 : j < items[i].length) (h4 : j < values[i].length),
      ElemIs items[i][j] values[i][j]

end PyULog.Spec
