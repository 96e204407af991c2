import Verif.Spec.LostKey
import Verif.Spec.DamageMsg
/-
A log of which one format definition is missing.
-/
namespace PyULog.Spec
open PyULog

/-- the topic `t` is `n`, or one of its fields, at any depth, has the type `n` -/
inductive Contains (formats : Dict Str MsgFormat) (n : Str) : Str → Prop where
  | self : Contains formats n n
  | field {t : Str} {f : MsgFormat} {g : FieldDef} : formats.get? t = some f → g ∈ f.fields →
      Contains formats n g.type → Contains formats n t

/-- the log `v'` is `v` without the format `n` -/
def WithoutFormat (n : Str) (v v' : ULog) : Prop := v' = { v with formats := others n v.formats }

/-- no message defines a format of this name -/
def NoFormat (ign : Bool) (n : Str) (l : List (Nat × Bytes)) : Prop :=
  ∀ m ∈ l, m.1 = tyF → ∀ f, parseFormat ign m.2 = .ok f → f.name ≠ n

/-- no subscribed topic contains the format `n` -/
def NotSubscribed (ign : Bool) (formats : Dict Str MsgFormat) (n : Str) (l : List (Nat × Bytes)) : Prop :=
  ∀ m ∈ l, m.1 = tyA → ∀ t, parseString ign (m.2.drop 3) = .ok t → ¬ Contains formats n t

end PyULog.Spec
