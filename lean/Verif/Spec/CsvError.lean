import Verif.Props.Csv
import Verif.Spec.FormatText
/-
Why a dataset cannot be converted to a CSV file, or a topic not be extracted: the reasons, each with its exception,
restated on the fields, the columns and the bounds of the window.
-/
namespace PyULog.Spec
open PyULog

/-- `field[index]`, on one line -/
def Element (s field index : Str) : Prop :=
  s = field ++ py! "[" ++ index ++ py! "]" ∧ '[' ∉ index ∧ '\n' ∉ s

/-- padding is not converted -/
def Padding (f : FieldData) : Prop := py! "_padding" <+: f.name

/-- the field is a character of the text `field` -/
def TextPart (f : FieldData) (field index : Str) : Prop := ¬ Padding f ∧ f.type = .char ∧ Element f.name field index

/-- `k` is the name of a text -/
def IsTextName (fields : List FieldData) (k : Str) : Prop := ∃ f ∈ fields, ∃ index, TextPart f k index

/-- the text `k` has a character number `n` -/
def HasPart (fields : List FieldData) (k : Str) (n : Int) : Prop :=
  ∃ f ∈ fields, ∃ index, TextPart f k index ∧ IntText index n

/-- `k` is the header of a column: the name of a field, or of a text that has a character number 0 -/
def HasHeader (fields : List FieldData) (k : Str) : Prop :=
  (∃ f ∈ fields, ¬ Padding f ∧ (∀ a b, ¬ TextPart f a b) ∧ f.name = k) ∨ HasPart fields k 0

/-- what is read from a column in row `i` -/
def ReadAt (d : Dataset) (k : Str) (i : Nat) (v : NpVal) : Prop := ∃ col, d.data.get? k = some col ∧ col[i]? = some v

/-- reasons why an element cannot be read -/
inductive ReadObstacle (d : Dataset) (k : Str) (i : Nat) : PyErr → Prop
  | missing : d.data.get? k = none → ReadObstacle d k i .keyError
  | short {col} : d.data.get? k = some col → col.length ≤ i → ReadObstacle d k i .indexError

/-- reasons why an element is not a character; larger numbers than 127 only occur in columns of another type, with
names that look like the characters of a text, and are not modelled -/
inductive CharObstacle (d : Dataset) (k : Str) (i : Nat) : PyErr → Prop
  | read {e} : ReadObstacle d k i e → CharObstacle d k i e
  | negative {n : Int} : ReadAt d k i (.int n) → n < 0 → CharObstacle d k i .valueError
  | float {v} : ReadAt d k i v → (∀ n, v ≠ .int n) → ¬ IsZero v → CharObstacle d k i .typeError
  | large {n : Int} : ReadAt d k i (.int n) → 128 ≤ n → CharObstacle d k i .unmodelled

/-- reasons why the cell in row `i` under the header `k` cannot be written. A text is read up to its last character or
the first NUL. -/
inductive CsvCellObstacle (d : Dataset) (i : Nat) (k : Str) : PyErr → Prop
  | plain {e} : ¬ IsTextName d.fields k → ReadObstacle d k i e → CsvCellObstacle d i k e
  | text {j : Nat} {n : Int} {e} : HasPart d.fields k n → (j : Int) ≤ n →
      (∀ j' < j, ∃ c : Int, ReadAt d (elemName k j') i (.int c) ∧ 0 < c ∧ c < 128) →
      CharObstacle d (elemName k j) i e → CsvCellObstacle d i k e

/-- row `i` lies between the rows of the two bounds -/
def RowInWindow (column : List NpVal) (timeS timeE : Option Int) (i : Nat) : Prop :=
  ∃ s n, boundRow column 0 timeS = some s ∧ boundRow column column.length timeE = some n ∧ s ≤ i ∧ i < n

/-- a bound that no timestamp reaches -/
def NotReached (column : List NpVal) (b : Option Int) : Prop := ∃ t, b = some t ∧ t ≠ 0 ∧ ∀ v ∈ column, ¬ AtOrAfter t v

/-- reasons why the file of a dataset cannot be written -/
inductive CsvObstacle (timeS timeE : Option Int) (d : Dataset) : PyErr → Prop
  | noTime : d.data.get? (py! "timestamp") = none → CsvObstacle timeS timeE d .keyError
  | index {f field index} : f ∈ d.fields → TextPart f field index → (∀ n, ¬ IntText index n) →
      CsvObstacle timeS timeE d .valueError
  | noHeader : ¬ HasHeader d.fields (py! "timestamp") → CsvObstacle timeS timeE d .valueError
  | bound {column} : d.data.get? (py! "timestamp") = some column → NotReached column timeS ∨ NotReached column timeE →
      CsvObstacle timeS timeE d .indexError
  | cell {column i k e} : d.data.get? (py! "timestamp") = some column → RowInWindow column timeS timeE i →
      HasHeader d.fields k → CsvCellObstacle d i k e → CsvObstacle timeS timeE d e

/-- reasons why a topic cannot be extracted -/
inductive ExtractObstacle (u : ULog) (message : Str) (timeS timeE : Option Int) : PyErr → Prop
  | noTopic : (∀ d ∈ u.dataList, ¬ (d.name = message ∧ d.multiId = 0)) → ExtractObstacle u message timeS timeE .attributeError
  | noField {d} : getDataset u message = .ok d → py! "timestamp" ∉ d.fields.map (·.name) →
      ExtractObstacle u message timeS timeE .valueError
  | noTime {d} : getDataset u message = .ok d → d.data.get? (py! "timestamp") = none →
      ExtractObstacle u message timeS timeE .keyError
  | bound {d column} : getDataset u message = .ok d → d.data.get? (py! "timestamp") = some column →
      NotReached column timeS ∨ NotReached column timeE → ExtractObstacle u message timeS timeE .indexError
  | cell {d column i f e} : getDataset u message = .ok d → d.data.get? (py! "timestamp") = some column →
      RowInWindow column timeS timeE i → f ∈ d.fields → ReadObstacle d f.name i e →
      ExtractObstacle u message timeS timeE e

end PyULog.Spec
