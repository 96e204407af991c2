import Verif.Spec.CanWrite
/-
What can keep `write_ulog` from writing a log, and the exception that belongs to it; stated with the
sizes and types of Spec/CanWrite.lean.
-/
namespace PyULog.Spec
open PyULog

/-- a number that is a double but beyond the 32-bit floats -/
def TooBig : Value → Prop
  | .float x => ¬FitsFloat x
  | .int n => IntFitsDouble n ∧ ¬IntFitsFloat n
  | _ => False

/-- the same for an element of a column -/
def TooBigNp : NpVal → Prop
  | .f64 x => ¬FitsFloat x
  | .int n => IntFitsDouble n ∧ ¬IntFitsFloat n
  | .f32 _ => False

/-- the value `v` cannot be written under the type name `ty` -/
inductive ValueObstacle (ty : Str) (v : Value) : PyErr → Prop
  /-- `_UNPACK_TYPES[value_type]` -/
  | unknown : ¬WritableType ty → ValueObstacle ty v .keyError
  /-- `bytes(value, 'utf-8')` -/
  | noText : py! "char[" <+: ty → (∀ s, v ≠ .str s) → ValueObstacle ty v .typeError
  /-- `data.extend(value)` -/
  | noBytes : py! "uint8_t[" <+: ty → (∀ b, v ≠ .bytes b) → v ≠ .str [] → ValueObstacle ty v .typeError
  /-- `struct.pack('<f', value)` -/
  | big : basicType ty = some .f32 → TooBig v → ValueObstacle ty v .overflowError
  /-- `struct.pack` otherwise -/
  | range (t : BT) : basicType ty = some t → ¬Holds t v → ¬(t = .f32 ∧ TooBig v) → ValueObstacle ty v .structError

/-- the info message cannot be written -/
inductive InfoObstacle (extra : Nat) (ty k : Str) (v : Value) : PyErr → Prop
  | key : 256 ≤ utf8Size ty + 1 + utf8Size k → InfoObstacle extra ty k v .structError
  | value {e : PyErr} : ValueObstacle ty v e → InfoObstacle extra ty k v e
  | size (n : Nat) : WrittenIn ty v n → 65536 ≤ extra + 1 + (utf8Size ty + 1 + utf8Size k) + n →
      InfoObstacle extra ty k v .structError

/-- the parameter cannot be written -/
inductive ParamObstacle (k : Str) (v : Value) : PyErr → Prop
  | text (s : Str) : v = .str s → ParamObstacle k v .typeError
  | bytes (b : Bytes) : v = .bytes b → ParamObstacle k v .typeError
  | big (x : Nat) : v = .float x → ¬FitsFloat x → ParamObstacle k v .overflowError
  | range (n : Int) : v = .int n → ¬Within .i32 n → ParamObstacle k v .structError
  | name : (∀ x, v ≠ .float x) → 248 ≤ utf8Size k → ParamObstacle k v .structError
  | floatName (x : Nat) : v = .float x → 250 ≤ utf8Size k → ParamObstacle k v .structError

/-- the element of a column cannot be written under its type -/
inductive CellObstacle (t : BT) (v : NpVal) : PyErr → Prop
  /-- `chr(field_data)` -/
  | negative (n : Int) : t = .char → v = .int n → n < 0 → CellObstacle t v .valueError
  | noChar : t = .char → (∀ n, v ≠ .int n) → CellObstacle t v .typeError
  | big : t = .f32 → TooBigNp v → CellObstacle t v .overflowError
  | range : ¬HoldsNp t v → (t = .char → ∃ n, v = .int n ∧ 0 ≤ n) → (t = .f32 → ¬TooBigNp v) → CellObstacle t v .structError

/-- row `i` of the dataset cannot be written -/
inductive RowObstacle (d : Dataset) (i : Nat) : PyErr → Prop
  | noTime : d.data.get? (py! "timestamp") = none → RowObstacle d i .keyError
  | shortTime (col : List NpVal) : d.data.get? (py! "timestamp") = some col → col.length ≤ i → RowObstacle d i .indexError
  | noColumn (f : FieldData) : f ∈ d.fields → d.data.get? f.name = none → RowObstacle d i .keyError
  | short (f : FieldData) (col : List NpVal) : f ∈ d.fields → d.data.get? f.name = some col → col.length ≤ i →
      RowObstacle d i .indexError
  | value (f : FieldData) (v : NpVal) {e : PyErr} : f ∈ d.fields → cell d f.name i = some v → CellObstacle f.type v e →
      RowObstacle d i e
  | size : 65536 ≤ rowSize d.fields + 2 → RowObstacle d i .structError

/-- the log cannot be written, and the exception that says so -/
inductive Obstacle (u : ULog) : PyErr → Prop
  | head : ¬(u.fileVersion < 256 ∧ u.startTs < 2 ^ 64) → Obstacle u .structError
  | compat : ¬(u.compat.length = 8 ∧ ∀ x ∈ u.compat, x < 256) → Obstacle u .structError
  /-- `imcompat_flags[0]` -/
  | noFlags : u.incompat = [] → Obstacle u .indexError
  | incompat : u.incompat ≠ [] → ¬(u.incompat.length = 8 ∧ ∀ x ∈ u.incompat.drop 1, x < 256) → Obstacle u .structError
  | format (p : Str × MsgFormat) : p ∈ u.formats → 65536 ≤ utf8Size p.2.name + 1 + (p.2.fields.map fieldSize).sum →
      Obstacle u .structError
  | noType (p : Str × Value) : p ∈ u.info → u.infoTypes.get? p.1 = none → Obstacle u .keyError
  | info (p : Str × Value) (ty : Str) {e : PyErr} : p ∈ u.info → u.infoTypes.get? p.1 = some ty →
      InfoObstacle 0 ty p.1 p.2 e → Obstacle u e
  | noMultiType (p : Str × List (List Value)) : p ∈ u.infoMulti → u.infoMultiTypes.get? p.1 = none → Obstacle u .keyError
  | multi (p : Str × List (List Value)) (ty : Str) (s : List Value) (v : Value) {e : PyErr} : p ∈ u.infoMulti →
      u.infoMultiTypes.get? p.1 = some ty → s ∈ p.2 → v ∈ s → InfoObstacle 1 ty p.1 v e → Obstacle u e
  | initial (p : Str × Value) {e : PyErr} : p ∈ u.initialParams → ParamObstacle p.1 p.2 e → Obstacle u e
  | bit (p : Nat × Dict Str Value) : p ∈ u.defaultParams → p.2 ≠ [] → 8 ≤ p.1 → Obstacle u .structError
  | default (p : Nat × Dict Str Value) (q : Str × Value) {e : PyErr} : p ∈ u.defaultParams → q ∈ p.2 →
      ParamObstacle q.1 q.2 e → Obstacle u e
  | changed (p : Nat × Str × Value) {e : PyErr} : p ∈ u.changedParams → ParamObstacle p.2.1 p.2.2 e → Obstacle u e
  | sub (d : Dataset) : d ∈ u.dataList → ¬(d.multiId < 2 ^ 8 ∧ d.msgId < 2 ^ 16 ∧ utf8Size d.name + 3 < 65536) →
      Obstacle u .structError
  /-- `data_set.field_data[0]` -/
  | noField (d : Dataset) : d ∈ u.dataList → d.fields = [] → Obstacle u .indexError
  | noFirst (d : Dataset) (f : FieldData) (rest : List FieldData) : d ∈ u.dataList → d.fields = f :: rest →
      d.data.get? f.name = none → Obstacle u .keyError
  | row (d : Dataset) (f : FieldData) (rest : List FieldData) (col : List NpVal) (i : Nat) {e : PyErr} : d ∈ u.dataList →
      d.fields = f :: rest → d.data.get? f.name = some col → i < col.length → RowObstacle d i e → Obstacle u e
  | logged (m : LogMsg) : m ∈ u.logged → ¬(m.level < 2 ^ 8 ∧ m.ts < 2 ^ 64 ∧ utf8Size m.msg + 9 < 65536) →
      Obstacle u .structError
  | tagged (m : TagMsg) : m ∈ (u.tagged.map (·.2)).flatten →
      ¬(m.level < 2 ^ 8 ∧ m.tag < 2 ^ 16 ∧ m.ts < 2 ^ 64 ∧ utf8Size m.msg + 11 < 65536) → Obstacle u .structError
  | dropout (m : Dropout) : m ∈ u.dropouts → ¬m.duration < 2 ^ 16 → Obstacle u .structError

/-- what can keep a log that was loaded from a file from being written -/
inductive LoadedObstacle (u : ULog) : PyErr → Prop
  | format (p : Str × MsgFormat) : p ∈ u.formats → 65536 ≤ utf8Size p.2.name + 1 + (p.2.fields.map fieldSize).sum →
      LoadedObstacle u .structError
  | type (p : Str × Str) : p ∈ u.infoTypes → ¬WritableType p.2 → LoadedObstacle u .keyError
  | multi (p : Str × Str) (sets : List (List Value)) (s : List Value) (v : Value) {e : PyErr} : p ∈ u.infoMultiTypes →
      u.infoMulti.get? p.1 = some sets → s ∈ sets → v ∈ s → InfoObstacle 1 p.2 p.1 v e → LoadedObstacle u e
  | initial (p : Str × Value) {e : PyErr} : p ∈ u.initialParams → ParamObstacle p.1 p.2 e → LoadedObstacle u e
  | bit (p : Nat × Dict Str Value) : p ∈ u.defaultParams → 8 ≤ p.1 → LoadedObstacle u .structError
  | default (p : Nat × Dict Str Value) (q : Str × Value) {e : PyErr} : p ∈ u.defaultParams → q ∈ p.2 →
      ParamObstacle q.1 q.2 e → LoadedObstacle u e
  | changed (p : Nat × Str × Value) {e : PyErr} : p ∈ u.changedParams → ParamObstacle p.2.1 p.2.2 e → LoadedObstacle u e
  | noTime (d : Dataset) : d ∈ u.dataList → (∀ f ∈ d.fields, f.name ≠ py! "timestamp") → LoadedObstacle u .keyError
  | unnamed (d : Dataset) (f : FieldData) : d ∈ u.dataList → f ∈ d.fields → f.name = [] → LoadedObstacle u .keyError
  | char (d : Dataset) (f : FieldData) (col : List NpVal) (n : Int) : d ∈ u.dataList → f ∈ d.fields → f.type = .char →
      d.data.get? f.name = some col → .int n ∈ col → n < 0 → LoadedObstacle u .valueError

end PyULog.Spec
