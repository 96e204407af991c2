import Verif.Model.Tools
/-
The command line tool `ulog_info` (info.py). What is printed is a list of lines; `fmt` is `str` of a
value and `fmtLists` is `str` of a list of lists of values.
-/
namespace PyULog

/-! ### quotients -/

/-- `p / q` as the nearest binary64 number (ties to even) `m * 2^up / 2^down`; exponents out of range
do not occur for the quotients below. The result is `(m, up, down)`. -/
def quotient (p q : Nat) : Nat × Nat × Nat :=
  if p = 0 then (0, 0, 0)
  else
    let d : Int := (p.log2 : Int) - (q.log2 : Int)
    let e : Int := if q * 2 ^ d.toNat ≤ p * 2 ^ (-d).toNat then d else d - 1
    let s : Int := 52 - e
    (rneDiv (p * 2 ^ s.toNat) (q * 2 ^ (-s).toNat), (-s).toNat, s.toNat)

/-- `int(p / q)` -/
def intQuot (p q : Nat) : Nat :=
  let x := quotient p q
  x.1 * 2 ^ x.2.1 / 2 ^ x.2.2

/-- `'{:.1f}'.format(p / q)`: the exact value of the binary64 number, rounded half to even -/
def fixed1 (p q : Nat) : Str :=
  let x := quotient p q
  let t := rneDiv (10 * x.1 * 2 ^ x.2.1) (2 ^ x.2.2)
  natDec (t / 10) ++ py! "." ++ natDec (t % 10)

/-! ### show_info -/

/-- the line with the times (info.py:18-24); negative durations, which no loaded log has, are not
modelled -/
def timeLine (u : ULog) : Except PyErr Str :=
  if u.lastTs < u.startTs then .error .unmodelled
  else .ok (py! "Logging start time: " ++ hmsStr u.startTs ++ py! ", duration: " ++ hmsStr (u.lastTs - u.startTs))

/-- `max(l)` of a list that is not empty -/
def listMax (l : List Nat) : Nat := l.foldl max 0

/-- the line about dropouts (info.py:26-33) -/
def dropoutLine (u : ULog) : Str :=
  let l := u.dropouts.map (·.duration)
  if l.length = 0 then py! "No Dropouts"
  else py! "Dropouts: count: " ++ natDec l.length ++ py! ", total duration: " ++ fixed1 (rnd53 l.sum) 1000 ++
    py! " s, max: " ++ natDec (listMax l) ++ py! " ms, mean: " ++ natDec (intQuot l.sum l.length) ++ py! " ms"

/-- the lines of the info messages (info.py:39-42) -/
def infoLines (fmt : Value → Str) (verbose : Bool) (u : ULog) : Except PyErr (List Str) := do
  let keys := (sortedKeys u.info).filter fun k => !startsWith (py! "perf_") k || verbose
  keys.mapM fun k => do
    let v ← dictGet u.info k
    .ok (py! " " ++ k ++ py! ": " ++ fmt v)

/-- the lines of the multi info messages (info.py:45-53) -/
def multiLines (fmtLists : List (List Value) → Str) (verbose : Bool) (u : ULog) : Except PyErr (List Str) := do
  if u.infoMulti.length > 0 then
    if verbose then
      let ls ← (sortedKeys u.infoMulti).mapM fun k => do
        let v ← dictGet u.infoMulti k
        .ok (py! " " ++ k ++ py! ": " ++ fmtLists v)
      .ok (py! "Info Multiple Messages:" :: ls)
    else
      let ls ← (sortedKeys u.infoMulti).mapM fun k => do
        let v ← dictGet u.infoMulti k
        .ok (py! "[" ++ k ++ py! ": " ++ natDec v.length ++ py! "]")
      .ok [py! "Info Multiple Messages: " ++ pyJoin (py! ", ") ls]
  else .ok []

/-- `'{:<n}'.format(s)` -/
def padRight (n : Nat) (s : Str) : Str := s ++ List.replicate (n - s.length) ' '

/-- `'{:nd}'.format(k)` -/
def padLeft (n : Nat) (s : Str) : Str := List.replicate (n - s.length) ' ' ++ s

/-- `sum(ULog.get_field_size(f.type_str) for f in d.field_data)` (info.py:63, core.py:66-71) -/
def messageSize (d : Dataset) : Nat := (d.fields.map fun f => f.type.size).sum

/-- one row of the table (info.py:62-67) -/
def tableLine (d : Dataset) : Except PyErr Str := do
  let ts ← dictGet d.data (py! "timestamp")
  let size := messageSize d
  let nameId := d.name ++ py! " (" ++ natDec d.multiId ++ py! ", " ++ natDec size ++ py! ")"
  .ok (py! " " ++ padRight 40 nameId ++ py! " " ++ padLeft 7 (natDec ts.length) ++ py! " " ++
    padLeft 10 (natDec (size * ts.length)))

/-- `d.name + str(d.multi_id)` (info.py:61) -/
def tableKey (d : Dataset) : Str := d.name ++ natDec d.multiId

/-- `sorted(ulog.data_list, key=...)` (info.py:61) -/
def tableOrder (l : List Dataset) : List Dataset := ssort (fun a b => strLe (tableKey a) (tableKey b)) l

/-- the head of the table (info.py:57-59) -/
def tableHead : Str :=
  py! "Name (multi id, message size in bytes)    number of data points, total bytes"

/-- `show_info` (info.py:13-67): the lines that are printed. For the lines printed before an exception see
`infoLeft`. -/
def showInfo (fmt : Value → Str) (fmtLists : List (List Value) → Str) (verbose : Bool) (u : ULog) :
    Except PyErr (List Str) := do
  let times ← timeLine u
  let version ← getVersionInfoStr u
  let infos ← infoLines fmt verbose u
  let multis ← multiLines fmtLists verbose u
  let rows ← (tableOrder u.dataList).mapM tableLine
  .ok ((if u.fileCorrupt then [py! "Warning: file has data corruption(s)"] else []) ++
    [times, dropoutLine u] ++
    (match version with
     | some v => [py! "SW Version: " ++ v]
     | none => []) ++
    [py! "Info Messages:"] ++ infos ++ multis ++ [[], tableHead] ++ rows)

/-! ### a multi info message -/

/-- digit of `'{:x}'` -/
def hexDigit (n : Nat) : Char := if n < 10 then Char.ofNat (48 + n) else Char.ofNat (87 + n)

/-- `'{:02x}'.format(x)` -/
def hex2 (b : UInt8) : Str := [hexDigit (b.toNat / 16), hexDigit (b.toNat % 16)]

/-- `' '.join('{:02x}'.format(x) for x in item)`: iteration over a text gives characters, for which the
format raises ValueError; a number cannot be iterated -/
def hexItem : Value → Except PyErr Str
  | .bytes b => .ok (pyJoin (py! " ") (b.map hex2))
  | .str [] => .ok []
  | .str (_ :: _) => .error .valueError
  | _ => .error .typeError

/-- `len(item)` -/
def itemLen : Value → Except PyErr Nat
  | .bytes b => .ok b.length
  | .str s => .ok s.length
  | _ => .error .typeError

/-- an element of `separator.join(m)` -/
def strItem : Value → Except PyErr Str
  | .str s => .ok s
  | _ => .error .typeError

/-- the two lines of one list (info.py:94-100) -/
def dumpLines (separator name : Str) (i : Nat) (m : List Value) : Except PyErr (List Str) :=
  match m with
  | .bytes _ :: _ => do
    let lens ← m.mapM itemLen
    let items ← m.mapM hexItem
    .ok [py! "# " ++ name ++ py! " " ++ natDec i ++ py! " (len: " ++ natDec lens.sum ++ py! "):",
      pyJoin separator items]
  | _ => do
    let items ← m.mapM strItem
    .ok [py! "# " ++ name ++ py! " " ++ natDec i ++ py! ":", pyJoin separator items]

/-- `ulog_info --message name` (info.py:88-102) -/
def showMessage (newline : Bool) (u : ULog) (name : Str) : Except PyErr (List Str) :=
  match u.infoMulti.get? name with
  | some lists => do
    let separator := if newline then py! "\n" else []
    let parts ← lists.zipIdx.mapM fun p => dumpLines separator name p.2 p.1
    .ok parts.flatten
  | none => .ok [py! "message " ++ name ++ py! " not found"]

end PyULog
