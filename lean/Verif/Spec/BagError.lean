import Verif.Spec.ToolError
import Verif.Props.Ros2Error
/-
Why `ulog2ros2bag` stops with an exception.
-/
namespace PyULog.Spec
open PyULog

/-- the first element for which there is a reason, and the exception of this reason -/
def BagFirst (P : α → PyErr → Prop) (l : List α) (e : PyErr) : Prop :=
  ∃ pre x post, l = pre ++ x :: post ∧ (∀ y ∈ pre, ∀ e', ¬ P y e') ∧ P x e

/-- the dataset is exported as this type: the package has it, no field is nested, the type knows all fields -/
def BagExported (env : RosEnv) (d : Dataset) (name : Str) (ty : RosType) : Prop :=
  env.msgType d.name = some name ∧ env.type name = some ty ∧
    ∀ f ∈ d.fields, (¬ ∃ a b, f.name = a ++ '.' :: b ∧ '\n' ∉ a) ∧ ∃ b, BaseName f.name b ∧ b ∈ ty.types.keys

/-- reasons why a column of a loaded dataset cannot be stored in a message of a type that knows its name -/
inductive BagFieldObstacle (ty : RosType) : FieldData × Place → PyErr → Prop
  /-- the column of a field without a name has another name -/
  | unnamed {f : FieldData} {p : Place} : f.name = [] → BagFieldObstacle ty (f, p) .keyError
  /-- a new message has no such attribute -/
  | missing {f : FieldData} {n : Str} {k : Nat} : ty.fresh.get? n = none → BagFieldObstacle ty (f, .elem n k) .attributeError
  /-- the attribute is no array -/
  | scalar {f : FieldData} {n : Str} {k : Nat} {x : RosScalar} : ty.fresh.get? n = some (.plain x) →
      BagFieldObstacle ty (f, .elem n k) .typeError
  /-- the array of the type is too short -/
  | short {f : FieldData} {n : Str} {k : Nat} {l : List RosScalar} : ty.fresh.get? n = some (.array l) → l.length ≤ k →
      BagFieldObstacle ty (f, .elem n k) .indexError

/-- reasons why a dataset ends the conversion; a dataset without timestamps does so even if it is not exported -/
inductive BagTopicObstacle (env : RosEnv) (places : Dataset → List Place) (d : Dataset) : PyErr → Prop
  | untimed : Untimed d → BagTopicObstacle env places d .keyError
  | field {name : Str} {ty : RosType} {e : PyErr} : ¬ Untimed d → BagExported env d name ty →
      BagFirst (BagFieldObstacle ty) (d.fields.zip (places d)) e → BagTopicObstacle env places d e

/-- reasons why `ulog2ros2bag` raises for a log that was loaded -/
inductive BagObstacle (env : RosEnv) (verbose : Bool) (places : Dataset → List Place) (u : ULog) : PyErr → Prop
  /-- only the verbose run looks at the version -/
  | version : verbose = true → NoVersionNumber u → BagObstacle env verbose places u .typeError
  | topic {e : PyErr} : ¬ (verbose = true ∧ NoVersionNumber u) → BagFirst (BagTopicObstacle env places) u.dataList e →
      BagObstacle env verbose places u e

/-- timestamps are of type uint64_t -/
def BagTimes (d : Dataset) : Prop := ∀ f ∈ d.fields, f.name = py! "timestamp" → f.type = .u64

end PyULog.Spec
