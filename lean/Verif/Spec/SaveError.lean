import Verif.Spec.Db
/-
The reasons why a log cannot be stored in the database, with the exceptions.
-/
namespace PyULog.Spec
open PyULog

/-- the value is of the kind of the column type; the values of an array of numpy always are -/
def SameKind (t : BT) (v : NpVal) : Prop :=
  match t, v with
  | .f32, .f32 _ => True
  | .f64, .f64 _ => True
  | .f32, _ => False
  | .f64, _ => False
  | _, .int _ => True
  | _, _ => False

/-- `-∞` as 32-bit or 64-bit pattern -/
def NegInfinite (v : NpVal) : Prop := v = .f32 0xFF800000 ∨ v = .f64 0xFFF0000000000000

/-- `SaveObstacle json l e`: a reason why storing the log raises `e`, where `json` tells whether the JSON
columns are made -/
inductive SaveObstacle (json : Bool) (l : DbLog) : PyErr → Prop
  /-- a flag is the number of a surrogate, which has no UTF-8 code -/
  | surrogate {x : Nat} : x ∈ l.compat ++ l.incompat → 0xD800 ≤ x → x ≤ 0xDFFF → SaveObstacle json l .unicodeError
  /-- a flag is not the number of a character -/
  | noChar {x : Nat} : x ∈ l.compat ++ l.incompat → 0x110000 ≤ x → SaveObstacle json l .valueError
  | header : ¬ (l.fileVersion < 2 ^ 63 ∧ l.startTs < 2 ^ 63 ∧ l.lastTs < 2 ^ 63 ∧ l.syncCnt < 2 ^ 63) →
      SaveObstacle json l .overflowError
  | offset {n : Nat} : n ∈ l.appendedOffsets → 2 ^ 63 ≤ n → SaveObstacle json l .overflowError
  | dataset {d : Dataset} : d ∈ l.dataList → ¬ (d.multiId < 2 ^ 63 ∧ d.msgId < 2 ^ 63 ∧ fitsInt d.tsIdx) →
      SaveObstacle json l .overflowError
  /-- two datasets of the same name and multi id -/
  | twice : ¬ (l.dataList.map fun d => (d.name, d.multiId)).Nodup → SaveObstacle json l .integrityError
  | column {d : Dataset} {f : FieldData} : d ∈ l.dataList → f ∈ d.fields → d.data.get? f.name = none →
      SaveObstacle json l .keyError
  | kind {d : Dataset} {f : FieldData} {col : List NpVal} {v : NpVal} : d ∈ l.dataList → f ∈ d.fields →
      d.data.get? f.name = some col → v ∈ col → ¬ SameKind f.type v → SaveObstacle json l .unmodelled
  /-- no timestamps for the JSON column -/
  | noTime {d : Dataset} : json = true → d ∈ l.dataList → d.fields ≠ [] → d.data.get? (py! "timestamp") = none →
      SaveObstacle json l .keyError
  /-- timestamps that are no integers are not modelled -/
  | time {d : Dataset} {ts : List NpVal} {v : NpVal} : json = true → d ∈ l.dataList → d.fields ≠ [] →
      d.data.get? (py! "timestamp") = some ts → v ∈ ts → (∀ n, v ≠ .int n) → SaveObstacle json l .unmodelled
  /-- the last value at a timestamp is `-∞`, which becomes `-null` in the JSON text -/
  | negInf {d : Dataset} {f : FieldData} {col ts : List NpVal} {t : Int} {v : NpVal} : json = true →
      d ∈ l.dataList → f ∈ d.fields → d.data.get? f.name = some col → d.data.get? (py! "timestamp") = some ts →
      ((ts.zip col).reverse.find? fun q => decide (q.1 = .int t)) = some (.int t, v) → NegInfinite v →
      SaveObstacle json l .operationalError
  | dropout {d : Dropout} : d ∈ l.dropouts → ¬ (d.ts < 2 ^ 63 ∧ d.duration < 2 ^ 63) → SaveObstacle json l .overflowError
  | logged {m : LogMsg} : m ∈ l.logged → ¬ (m.level < 2 ^ 63 ∧ m.ts < 2 ^ 63) → SaveObstacle json l .overflowError
  | tagged {p : Nat × List TagMsg} {m : TagMsg} : p ∈ l.tagged → m ∈ p.2 →
      ¬ (m.level < 2 ^ 63 ∧ m.ts < 2 ^ 63 ∧ p.1 < 2 ^ 63) → SaveObstacle json l .overflowError
  | format {p : Str × MsgFormat} {f : FieldDef} : p ∈ l.formats → f ∈ p.2.fields → ¬ fitsInt f.arr →
      SaveObstacle json l .overflowError
  /-- an info message without its type -/
  | infoType {p : Str × DVal} : p ∈ l.info → l.infoTypes.get? p.1 = none → SaveObstacle json l .keyError
  | info {p : Str × DVal} : p ∈ l.info → ¬ valueFits p.2 → SaveObstacle json l .overflowError
  | multiType {p : Str × List (List DVal)} : p ∈ l.infoMulti → l.infoMultiTypes.get? p.1 = none →
      SaveObstacle json l .keyError
  | multi {p : Str × List (List DVal)} {vs : List DVal} {v : DVal} : p ∈ l.infoMulti → vs ∈ p.2 → v ∈ vs →
      ¬ valueFits v → SaveObstacle json l .overflowError
  | initial {p : Str × DVal} : p ∈ l.initialParams → ¬ valueFits p.2 → SaveObstacle json l .overflowError
  | default {p : Nat × Dict Str DVal} {q : Str × DVal} : p ∈ l.defaultParams → q ∈ p.2 →
      ¬ (p.1 < 2 ^ 63 ∧ valueFits q.2) → SaveObstacle json l .overflowError
  | changed {p : Nat × Str × DVal} : p ∈ l.changedParams → ¬ (p.1 < 2 ^ 63 ∧ valueFits p.2.2) →
      SaveObstacle json l .overflowError

end PyULog.Spec
