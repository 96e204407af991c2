import Verif.Spec.Datasets
/-
What a written log contains, stated on the messages of the file: which value a message holds for a
cell of a dataset, which messages a log consists of.
-/
namespace PyULog.Spec
open PyULog

/-- the value found in the file for a value of a column: `bool` values become 0 or 1, signalling NaNs
become quiet; everything else is unchanged -/
def stored (t : BT) (v : NpVal) : NpVal :=
  match t, v with
  | .bool, .int n => .int (if n = 0 then 0 else 1)
  | .f32, .f32 x => .f32 (if x / 2 ^ 23 % 2 ^ 8 = 255 ∧ x % 2 ^ 23 ≠ 0 ∧ x % 2 ^ 23 < 2 ^ 22
      then x + 2 ^ 22 else x)
  | _, v => v

/-- a value that a column of the type can hold -/
def Typed (t : BT) (v : NpVal) : Prop := ∃ b : Bytes, b.length = width t ∧ v = valueAt t b 0

/-- the columns hold values of their types; this holds for every dataset made from a file -/
def ColumnsTyped (d : Dataset) : Prop :=
  ∀ f ∈ d.fields, ∀ col, d.data.get? f.name = some col → ∀ v ∈ col, Typed f.type v

/-- value of row `i` in the column `name` -/
def cell (d : Dataset) (name : Str) (i : Nat) : Option NpVal := (d.data.get? name).bind (·[i]?)

/-- number of rows: length of the column of the first field -/
def rowCount (d : Dataset) : Nat :=
  match d.fields with
  | [] => 0
  | f :: _ => ((d.data.get? f.name).getD []).length

/-- timestamp and message -/
abbrev Timed := Int × Nat × Bytes

/-- `x` is the data message of row `i`: it carries the subscription id and, at the offset of each
field, the value of its cell; its time is the `timestamp` cell -/
def IsRow (d : Dataset) (i : Nat) (x : Timed) : Prop :=
  x.2.1 = tyD ∧ x.2.2.length = 2 + rowSize d.fields ∧ leAt x.2.2 0 2 = d.msgId ∧
    cell d (py! "timestamp") i = some (.int x.1) ∧
    ∀ k (h : k < d.fields.length), ∃ v, cell d d.fields[k].name i = some v ∧
      valueAt d.fields[k].type (x.2.2.drop 2) (rowSize (d.fields.take k)) = stored d.fields[k].type v

/-- one message for each row of the dataset, in order -/
def IsRows (d : Dataset) (l : List Timed) : Prop :=
  l.length = rowCount d ∧ ∀ i (h : i < l.length), IsRow d i l[i]

/-- the value found in the file for a parameter value: a `bool` is written as an integer -/
def asParam : Value → Value
  | .bool b => .int (if b then 1 else 0)
  | v => v

/-- a parameter value that the format can hold: a 32-bit integer or a 32-bit float -/
def ParamOk (v : Value) : Prop :=
  (∃ n : Int, v = .int n ∧ -2 ^ 31 ≤ n ∧ n < 2 ^ 31) ∨ (∃ b, v = .bool b) ∨
    ∃ x, x < 2 ^ 32 ∧ v = .float (widen x)

/-- a message without the state before it -/
def trace0 (m : Nat × Bytes) : Tr := ({}, m)

/-- `out` is `all` ordered by time, equal times keep their order, nothing is lost or repeated -/
def TimeSorted (all out : List Timed) : Prop :=
  out.Perm all ∧ out.Pairwise (fun a b => a.1 ≤ b.1) ∧
    ∀ t : Int, out.filter (fun x => x.1 = t) = all.filter (fun x => x.1 = t)

end PyULog.Spec
