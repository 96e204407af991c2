import Verif.Spec.Trace
/-
Independent decoding of the payloads of ULog messages, used by the property statements: written from
the layout in the ULog file format (offsets, widths, type names), not from the model's parsers.
Text decoding itself is `parseString`, which C19 characterises.
-/
namespace PyULog.Spec
open PyULog

/-- text of a byte string in the chosen mode -/
def text (ign : Bool) (b : Bytes) : Option Str := (parseString ign b).toOption

/-- two's complement value of `bits` bits -/
def signed (bits v : Nat) : Int := if v < 2 ^ (bits - 1) then (v : Int) else (v : Int) - 2 ^ bits

/-- value of an info or parameter message of type `ty` with value bytes `b` -/
def infoValue (ign : Bool) (ty : Str) (b : Bytes) : Option Value :=
  if py! "char[" <+: ty then (text ign b).map .str
  else if ty = py! "int8_t" then
    if b.length = 1 then some (.int (signed 8 (leAt b 0 1))) else none
  else if ty = py! "uint8_t" then if b.length = 1 then some (.int (leAt b 0 1)) else none
  else if ty = py! "int16_t" then
    if b.length = 2 then some (.int (signed 16 (leAt b 0 2))) else none
  else if ty = py! "uint16_t" then if b.length = 2 then some (.int (leAt b 0 2)) else none
  else if ty = py! "int32_t" then
    if b.length = 4 then some (.int (signed 32 (leAt b 0 4))) else none
  else if ty = py! "uint32_t" then if b.length = 4 then some (.int (leAt b 0 4)) else none
  else if ty = py! "int64_t" then
    if b.length = 8 then some (.int (signed 64 (leAt b 0 8))) else none
  else if ty = py! "uint64_t" then if b.length = 8 then some (.int (leAt b 0 8)) else none
  else if ty = py! "float" then if b.length = 4 then some (.float (widen (leAt b 0 4))) else none
  else if ty = py! "double" then if b.length = 8 then some (.float (leAt b 0 8)) else none
  else if ty = py! "bool" then if b.length = 1 then some (.bool (leAt b 0 1 != 0)) else none
  else if ty = py! "char" then if b.length = 1 then some (.bytes b) else none
  else some (.bytes b)

/-- info or parameter payload: key length, `type key`, value -/
def keyValue (ign : Bool) (d : Bytes) : Option (Str × Str × Value) :=
  if d.length = 0 then none
  else match text ign ((d.drop 1).take (byteAt d 0)) with
    | none => none
    | some t =>
      match pySplit ' ' t with
      | ty :: key :: _ => (infoValue ign ty (d.drop (1 + byteAt d 0))).map fun v => (ty, key, v)
      | _ => none

/-- width in bytes of a basic type -/
def width : BT → Nat
  | .i8 | .u8 | .bool | .char => 1
  | .i16 | .u16 => 2
  | .i32 | .u32 | .f32 => 4
  | .i64 | .u64 | .f64 => 8

/-- size of a sample with the given fields -/
def rowSize (fs : List FieldData) : Nat := (fs.map fun f => width f.type).sum

/-- offset of the field named `timestamp` in a sample (the sample size when there is none) -/
def tsPos (fs : List FieldData) : Nat :=
  rowSize (fs.takeWhile fun f => f.name ≠ py! "timestamp")

/-- the subscription that accepts a message: a data message whose id is subscribed and whose size
is 2 plus the sample size -/
def acceptedBy (x : Tr) : Option Sub :=
  if x.2.1 = tyD ∧ 2 ≤ x.2.2.length then
    match x.1.subs.get? (leAt x.2.2 0 2) with
    | some s => if x.2.2.length = 2 + rowSize s.fields then some s else none
    | none => none
  else none

/-- timestamp of an accepted message -/
def acceptedTs (x : Tr) : Option Nat :=
  match acceptedBy x with
  | some s =>
    if tsPos s.fields + 8 ≤ rowSize s.fields then some (leAt x.2.2 (2 + tsPos s.fields) 8) else none
  | none => none

/-- a malformed data message: its id is neither subscribed nor filtered, or its size is wrong -/
def malformed (x : Tr) : Prop :=
  x.2.1 = tyD ∧ 2 ≤ x.2.2.length ∧
    ((x.1.subs.get? (leAt x.2.2 0 2) = none ∧ leAt x.2.2 0 2 ∉ x.1.filteredIds) ∨
     ∃ s, x.1.subs.get? (leAt x.2.2 0 2) = some s ∧ x.2.2.length ≠ 2 + rowSize s.fields)

/-- logged text message -/
def loggedOf (ign : Bool) (x : Tr) : Option LogMsg :=
  if x.2.1 = tyL ∧ 9 ≤ x.2.2.length then
    (text ign (x.2.2.drop 9)).map fun m => ⟨byteAt x.2.2 0, leAt x.2.2 1 8, m⟩
  else none

/-- tagged text message -/
def taggedOf (ign : Bool) (x : Tr) : Option TagMsg :=
  if x.2.1 = tyC ∧ 11 ≤ x.2.2.length then
    (text ign (x.2.2.drop 11)).map fun m => ⟨byteAt x.2.2 0, leAt x.2.2 1 2, leAt x.2.2 3 8, m⟩
  else none

/-- parameter message -/
def paramOf (ign : Bool) (x : Tr) : Option (Str × Value) :=
  if x.2.1 = tyP then (keyValue ign x.2.2).map (·.2) else none

/-- dropout duration -/
def dropoutOf (x : Tr) : Option Nat :=
  if x.2.1 = tyO ∧ x.2.2.length = 2 then some (leAt x.2.2 0 2) else none

/-- info message: type, key, value -/
def infoOf (ign : Bool) (x : Tr) : Option (Str × Str × Value) :=
  if x.2.1 = tyI then keyValue ign x.2.2 else none

/-- multi-part info message: continued flag, type, key, value -/
def infoMultiOf (ign : Bool) (x : Tr) : Option (Nat × Str × Str × Value) :=
  if x.2.1 = tyM ∧ 1 ≤ x.2.2.length then
    (keyValue ign (x.2.2.drop 1)).map fun r => (byteAt x.2.2 0, r)
  else none

/-- default parameter message: mask of default types, key, value -/
def defaultOf (ign : Bool) (x : Tr) : Option (Nat × Str × Value) :=
  if x.2.1 = tyQ ∧ 1 ≤ x.2.2.length then
    (keyValue ign (x.2.2.drop 1)).map fun r => (byteAt x.2.2 0, r.2)
  else none

/-- value of the last pair with the given key -/
def lastOf [DecidableEq κ] (k : κ) (l : List (κ × α)) : Option α :=
  ((l.filter fun p => p.1 = k).getLast?).map (·.2)

/-- value of the first pair with the given key -/
def firstOf [DecidableEq κ] (k : κ) (l : List (κ × α)) : Option α :=
  ((l.filter fun p => p.1 = k).head?).map (·.2)

/-- a list as a dictionary entry: absent when empty -/
def entry : List α → Option (List α)
  | [] => none
  | l => some l

/-- latest data timestamp after some messages -/
def lastSeen (start : Nat) (t : List Tr) : Nat := (t.filterMap acceptedTs).foldl max start

/-- entries of a list of messages, each stamped with the latest data timestamp before it -/
def stamped (f : Tr → Option α) : Nat → List Tr → List (Nat × α)
  | _, [] => []
  | last, x :: xs =>
    (match f x with
      | some a => [(last, a)]
      | none => []) ++
    stamped f (match acceptedTs x with
      | some t => max last t
      | none => last) xs

/-- leading continuation values, and the groups after them -/
def splitGroups : List (Nat × α) → List α × List (List α)
  | [] => ([], [])
  | (c, v) :: r =>
    let p := splitGroups r
    if c ≠ 0 then (v :: p.1, p.2) else ([], (v :: p.1) :: p.2)

/-- values grouped: a new group starts at the first message and at each message that is not a
continuation -/
def groups : List (Nat × α) → List (List α)
  | [] => []
  | (_, v) :: r => (v :: (splitGroups r).1) :: (splitGroups r).2

end PyULog.Spec
