import Verif.Spec.CsvError
import Verif.Model.Info
/-
Why the tools that list or extract (`ulog_info`, `ulog_params`, `ulog_messages`, `ulog_extract_gps_dump`) stop with an
exception: the reasons, each with its exception, restated on the contents of the log.
-/
namespace PyULog.Spec
open PyULog

/-- the version of the software is not a number -/
def NoVersionNumber (u : ULog) : Prop :=
  ∃ v, u.info.get? (py! "ver_sw_release") = some v ∧ (∀ n, v ≠ .int n) ∧ ∀ b, v ≠ .bool b

/-- a topic without a field `timestamp` -/
def Untimed (d : Dataset) : Prop := ∀ f ∈ d.fields, f.name ≠ py! "timestamp"

/-- reasons why the overview cannot be printed: the version is printed before the table -/
inductive OverviewObstacle (u : ULog) : PyErr → Prop
  | version : NoVersionNumber u → OverviewObstacle u .typeError
  | untimed {d} : ¬ NoVersionNumber u → d ∈ u.dataList → Untimed d → OverviewObstacle u .keyError

/-- a value with a length -/
def IsBytes (v : Value) : Prop := ∃ b, v = .bytes b

/-- a text -/
def IsText (v : Value) : Prop := ∃ s, v = .str s

/-- reasons why the parts of a multi info message cannot be printed -/
inductive PartsObstacle (m : List Value) : PyErr → Prop
  /-- the first part is not bytes: all parts must be texts -/
  | text {v} : (∀ b, m.head? ≠ some (.bytes b)) → v ∈ m → ¬ IsText v → PartsObstacle m .typeError
  /-- the first part is bytes: the lengths come first -/
  | length {b v} : m.head? = some (.bytes b) → v ∈ m → ¬ IsBytes v → ¬ IsText v → PartsObstacle m .typeError
  /-- characters have no hexadecimal form -/
  | hex {b c s} : m.head? = some (.bytes b) → (∀ v ∈ m, IsBytes v ∨ IsText v) → .str (c :: s) ∈ m →
      PartsObstacle m .valueError

/-- reasons why a multi info message cannot be printed: the first list with an obstacle -/
def MessageObstacle (u : ULog) (name : Str) (e : PyErr) : Prop :=
  ∃ before m after, u.infoMulti.get? name = some (before ++ m :: after) ∧ PartsObstacle m e ∧
    ∀ x ∈ before, ∀ e', ¬ PartsObstacle x e'

/-- bit 0 of the first byte of the compatible flags -/
def FlagsDefaults (u : ULog) : Prop := ∃ f, u.compat.head? = some f ∧ f % 2 = 1

/-- reasons why parameters cannot be printed -/
inductive ParamsObstacle (default : Option Str) (u : ULog) : PyErr → Prop
  | noDefaults {which} : default = some which → ¬ FlagsDefaults u → ParamsObstacle default u .assertionError
  | unknown {which} : default = some which → FlagsDefaults u → which ≠ py! "system" → which ≠ py! "current_setup" →
      ParamsObstacle default u .valueError

/-- reasons why messages cannot be printed: only the messages of PX4 are merged with events -/
inductive LinesObstacle (u : ULog) (events : Except PyErr (List (Nat × Str × Str))) : PyErr → Prop
  | events {e} : u.info.get? (py! "sys_name") = some (.str (py! "PX4")) → events = .error e → LinesObstacle u events e
  | empty {ev m} : u.info.get? (py! "sys_name") = some (.str (py! "PX4")) → events = .ok ev → m ∈ u.logged → m.msg = [] →
      LinesObstacle u events .indexError

/-- the row belongs to the instance: all do without a column `instance` when 0 is asked for -/
def OfInstance (d : Dataset) (required : Int) (i : Nat) : Prop :=
  ReadAt d (py! "instance") i (.int required) ∨
    ((∀ f ∈ d.fields, f.name ≠ py! "instance") ∧ required = 0)

/-- reasons why the streams of GPS bytes cannot be written -/
inductive GpsObstacle (d : Dataset) (required : Int) : Prop
  | untimed : Untimed d → GpsObstacle d required
  /-- the lower seven bits of the length count more bytes than the message has -/
  | byte {i k : Nat} {n : Int} : OfInstance d required i → ReadAt d (py! "len") i (.int n) → (k : Int) < n % 128 →
      (∀ f ∈ d.fields, f.name ≠ elemName (py! "data") k) → GpsObstacle d required

/-- the message has the fields `len` and `data[0]` -/
def IsGpsDump (d : Dataset) : Prop :=
  (∃ f ∈ d.fields, f.name = py! "len") ∧ ∃ f ∈ d.fields, f.name = py! "data[0]"

/-- the length is of type uint8_t, and the instance is not a float -/
def GpsTypes (d : Dataset) : Prop :=
  ∀ f ∈ d.fields, (f.name = py! "len" → f.type = .u8) ∧
    (f.name = py! "instance" → f.type ≠ .f32 ∧ f.type ≠ .f64)

end PyULog.Spec
