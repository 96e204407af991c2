import Verif.Spec.RoundTrip
import Verif.Spec.Float
/-
Which logs `write_ulog` can write, in terms of the sizes of a file; restated independently of the
conversions of the model.
-/
namespace PyULog.Spec
open PyULog

/-- smallest and greatest number of an integer type -/
def intBounds : BT → Option (Int × Int)
  | .i8 => some (-128, 127)
  | .u8 => some (0, 255)
  | .i16 => some (-32768, 32767)
  | .u16 => some (0, 65535)
  | .i32 => some (-2147483648, 2147483647)
  | .u32 => some (0, 4294967295)
  | .i64 => some (-9223372036854775808, 9223372036854775807)
  | .u64 => some (0, 18446744073709551615)
  | .f32 | .f64 | .bool | .char => none

/-- the integer belongs to the type -/
def Within (t : BT) (n : Int) : Prop := ∃ p, intBounds t = some p ∧ p.1 ≤ n ∧ n ≤ p.2

/-- a double that rounds to a 32-bit float: not finite, or below the middle between the greatest
float and 2^128 -/
def FitsFloat (x : Nat) : Prop := finite64 x → mag64 x < (2 ^ 25 - 1) * 2 ^ 1177

/-- an integer that rounds to a double: below the middle between the greatest double and 2^1024 -/
def IntFitsDouble (n : Int) : Prop := n.natAbs < (2 ^ 54 - 1) * 2 ^ 970

/-- an integer that rounds to a double that rounds to a 32-bit float -/
def IntFitsFloat (n : Int) : Prop := n.natAbs < (2 ^ 25 - 1) * 2 ^ 103 - 2 ^ 74

/-- an info value that the type can hold -/
def Holds (t : BT) (v : Value) : Prop :=
  match t, v with
  | .bool, _ => True
  | .char, .bytes b => b.length = 1
  | .char, _ => False
  | .f32, .float x => FitsFloat x
  | .f64, .float _ => True
  | .f32, .int n => IntFitsFloat n
  | .f64, .int n => IntFitsDouble n
  | t, .int n => Within t n
  | _, .bool _ => True
  | _, _ => False

/-- an element of a column that the type can hold -/
def HoldsNp (t : BT) (v : NpVal) : Prop :=
  match t, v with
  | .bool, _ => True
  | .char, .int n => 0 ≤ n ∧ n < 128
  | .char, _ => False
  | .f32, .f32 _ => True
  | .f32, .f64 x => FitsFloat x
  | .f32, .int n => IntFitsFloat n
  | .f64, .int n => IntFitsDouble n
  | .f64, _ => True
  | t, .int n => Within t n
  | _, _ => False

/-- the value is written under the type name `ty` in `n` bytes -/
def WrittenIn (ty : Str) (v : Value) (n : Nat) : Prop :=
  (py! "char[" <+: ty ∧ ∃ s, v = .str s ∧ n = utf8Size s) ∨
  (py! "uint8_t[" <+: ty ∧ ((∃ b, v = .bytes b ∧ n = b.length) ∨ v = .str [] ∧ n = 0)) ∨
  ∃ t, basicType ty = some t ∧ Holds t v ∧ n = width t

/-- an info message with this type, key and value can be written: the key takes one byte for its
length, the message two; `extra` bytes stand before the key -/
def InfoFits (extra : Nat) (ty k : Str) (v : Value) : Prop :=
  utf8Size ty + 1 + utf8Size k < 256 ∧
    ∃ n, WrittenIn ty v n ∧ extra + 1 + (utf8Size ty + 1 + utf8Size k) + n < 65536

/-- a parameter can be written: integers as `int32_t name`, floats as `float name` -/
def ParamFits (k : Str) (v : Value) : Prop :=
  match v with
  | .int n => Within .i32 n ∧ utf8Size k < 248
  | .bool _ => utf8Size k < 248
  | .float x => FitsFloat x ∧ utf8Size k < 250
  | _ => False

/-- row `i` of a dataset can be written -/
structure RowFits (d : Dataset) (i : Nat) : Prop where
  time : ∃ v, cell d (py! "timestamp") i = some v
  values : ∀ f ∈ d.fields, ∃ v, cell d f.name i = some v ∧ HoldsNp f.type v
  size : rowSize d.fields + 2 < 65536

/-- a log that can be written -/
structure CanWrite (u : ULog) : Prop where
  version : u.fileVersion < 256
  start : u.startTs < 2 ^ 64
  compat : u.compat.length = 8 ∧ ∀ x ∈ u.compat, x < 256
  incompat : u.incompat.length = 8 ∧ ∀ x ∈ u.incompat.drop 1, x < 256
  formats : ∀ p ∈ u.formats, utf8Size p.2.name + 1 + (p.2.fields.map fieldSize).sum < 65536
  info : ∀ p ∈ u.info, ∃ ty, u.infoTypes.get? p.1 = some ty ∧ InfoFits 0 ty p.1 p.2
  multi : ∀ p ∈ u.infoMulti, ∃ ty, u.infoMultiTypes.get? p.1 = some ty ∧
    ∀ s ∈ p.2, ∀ v ∈ s, InfoFits 1 ty p.1 v
  initial : ∀ p ∈ u.initialParams, ParamFits p.1 p.2
  defaults : ∀ p ∈ u.defaultParams, ∀ q ∈ p.2, p.1 < 8 ∧ ParamFits q.1 q.2
  changed : ∀ p ∈ u.changedParams, ParamFits p.2.1 p.2.2
  subs : ∀ d ∈ u.dataList, d.multiId < 2 ^ 8 ∧ d.msgId < 2 ^ 16 ∧ utf8Size d.name + 3 < 65536
  data : ∀ d ∈ u.dataList, ∃ f rest col, d.fields = f :: rest ∧ d.data.get? f.name = some col ∧
    ∀ i < col.length, RowFits d i
  logged : ∀ m ∈ u.logged, m.level < 2 ^ 8 ∧ m.ts < 2 ^ 64 ∧ utf8Size m.msg + 9 < 65536
  tagged : ∀ m ∈ (u.tagged.map (·.2)).flatten, m.level < 2 ^ 8 ∧ m.tag < 2 ^ 16 ∧ m.ts < 2 ^ 64 ∧
    utf8Size m.msg + 11 < 65536
  dropouts : ∀ m ∈ u.dropouts, m.duration < 2 ^ 16

/-- the timestamps of the log are integers; other timestamps are not modelled -/
def IntegerTimes (u : ULog) : Prop :=
  ∀ d ∈ u.dataList, ∀ col, d.data.get? (py! "timestamp") = some col → ∀ v ∈ col, ∃ n, v = .int n

/-- the types of info messages that can be written: text, bytes and single values -/
def WritableType (ty : Str) : Prop :=
  py! "char[" <+: ty ∨ py! "uint8_t[" <+: ty ∨ ∃ t, basicType ty = some t

/-- what remains to be asked of a log that was loaded from a file -/
structure LoadedFits (u : ULog) : Prop where
  /-- the last field of a format need not end with `;` in the file read -/
  formats : ∀ p ∈ u.formats, utf8Size p.2.name + 1 + (p.2.fields.map fieldSize).sum < 65536
  info : ∀ p ∈ u.infoTypes, WritableType p.2
  /-- the type of the first message of a key is used for all of them -/
  multi : ∀ p ∈ u.infoMultiTypes, ∀ sets, u.infoMulti.get? p.1 = some sets →
    ∀ s ∈ sets, ∀ v ∈ s, InfoFits 1 p.2 p.1 v
  initial : ∀ p ∈ u.initialParams, ParamFits p.1 p.2
  defaults : ∀ p ∈ u.defaultParams, p.1 < 8 ∧ ∀ q ∈ p.2, ParamFits q.1 q.2
  changed : ∀ p ∈ u.changedParams, ParamFits p.2.1 p.2.2
  times : ∀ d ∈ u.dataList, ∃ f ∈ d.fields, f.name = py! "timestamp"
  named : ∀ d ∈ u.dataList, ∀ f ∈ d.fields, f.name ≠ []
  chars : ∀ d ∈ u.dataList, ∀ f ∈ d.fields, f.type = .char → ∀ col, d.data.get? f.name = some col →
    ∀ v ∈ col, ∃ n : Nat, v = .int n

/-- what a loaded log needs to be the same after it is written and loaded again -/
structure ComesBack (u : ULog) : Prop where
  /-- no negative array size in a format -/
  arrays : ∀ p ∈ u.formats, ∀ f ∈ p.2.fields, 0 ≤ f.arr
  /-- all messages of a key have the type of the first -/
  multi : ∀ p ∈ u.infoMultiTypes, ∀ sets, u.infoMulti.get? p.1 = some sets →
    ∀ s ∈ sets, ∀ v ∈ s, ValueFits p.2 v
  /-- parameters are `int32_t` or `float` values -/
  initial : ∀ p ∈ u.initialParams, ParamOk p.2
  defaults : ∀ p ∈ u.defaultParams, (p.1 = 0 ∨ p.1 = 1) ∧ ∀ q ∈ p.2, ParamOk q.2
  changed : ∀ p ∈ u.changedParams, ParamOk p.2.2
  /-- an id and an instance of a topic occur once -/
  ids : (u.dataList.map (·.msgId)).Nodup
  instances : (u.dataList.map fun d => (d.name, d.multiId)).Nodup
  times : ∀ d ∈ u.dataList, ⟨py! "timestamp", .u64⟩ ∈ d.fields
  starts : u.dataList = [] → u.dropouts = [] ∧ u.changedParams = []

end PyULog.Spec
