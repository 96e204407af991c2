import Verif.Spec.FormatText
import Verif.Spec.Flatten
import Verif.Spec.Utf8
import Verif.Spec.Trace
import Verif.Spec.Datasets
/-
The reasons why processing a message raises an exception.
-/
namespace PyULog.Spec
open PyULog

/-- the text of the bytes: characters that are not UTF-8 are dropped (`ign`) or not allowed -/
def TextOf (ign : Bool) (b : Bytes) (s : Str) : Prop := if ign then Drops b s else b = utf8 s

/-- bytes that are no UTF-8 text -/
def NoText (b : Bytes) : Prop := ∀ s, b ≠ utf8 s

/-- the bytes of `type key` in an info or parameter message -/
def keyBytes (d : Bytes) : Bytes := (d.drop 1).take (byteAt d 0)

/-- the bytes of the value -/
def valueBytes (d : Bytes) : Bytes := d.drop (1 + byteAt d 0)

/-- the type: the text before the first space -/
def TypeOf (s ty : Str) : Prop := ∃ rest, s = ty ++ ' ' :: rest ∧ ' ' ∉ ty

/-- an info or parameter message -/
inductive KeyObstacle (ign : Bool) (d : Bytes) : PyErr → Prop
  /-- no byte for the length of the key -/
  | empty : d = [] → KeyObstacle ign d .structError
  | key : ign = false → NoText (keyBytes d) → KeyObstacle ign d .unicodeError
  /-- no space between type and key -/
  | space {s : Str} : d ≠ [] → TextOf ign (keyBytes d) s → ' ' ∉ s → KeyObstacle ign d .indexError
  /-- a text that is no text -/
  | text {s ty : Str} : TextOf ign (keyBytes d) s → TypeOf s ty → py! "char[" <+: ty → ign = false →
      NoText (valueBytes d) → KeyObstacle ign d .unicodeError
  /-- a value that has not the size of its type -/
  | size {s ty : Str} {t : BT} : TextOf ign (keyBytes d) s → TypeOf s ty → basicType ty = some t →
      (valueBytes d).length ≠ t.size → KeyObstacle ign d .structError

/-- the first field definition in the text of a format that is not well formed (empty ones are skipped) -/
def FirstBad (s p : Str) : Prop :=
  ∃ parts body fs pre post, Splits ':' s parts ∧ parts[1]? = some body ∧ Splits ';' body fs ∧ fs = pre ++ p :: post ∧
    (∀ q ∈ pre, q = [] ∨ ∃ f, FieldText q f) ∧ p ≠ [] ∧ ∀ f, ¬ FieldText p f

/-- a format message -/
inductive FormatObstacle (ign : Bool) (d : Bytes) : PyErr → Prop
  | text : ign = false → NoText d → FormatObstacle ign d .unicodeError
  /-- no colon after the name -/
  | colon {s : Str} : TextOf ign d s → ':' ∉ s → FormatObstacle ign d .indexError
  /-- a field without a name -/
  | field {s p : Str} : TextOf ign d s → FirstBad s p → ' ' ∉ p → FormatObstacle ign d .indexError
  /-- an array size that is no number -/
  | size {s p : Str} : TextOf ign d s → FirstBad s p → ' ' ∈ p → FormatObstacle ign d .valueError

/-- a chain of nested types: the `n`-th one is reached from the first -/
inductive NestedIn (F : Dict Str MsgFormat) : Nat → Str → Str → Prop
  | self (a : Str) : NestedIn F 0 a a
  | step {n : Nat} {a b c : Str} : NestedIn F n a b → Uses F b c → NestedIn F (n + 1) a c

/-- `Columns F name cols`: the columns of a topic -/
def Columns (F : Dict Str MsgFormat) (name : Str) (cols : List FieldData) : Prop :=
  ∃ fmt full, F.get? name = some fmt ∧ Expands F [] fmt.fields full ∧ StripsPadding full cols

/-- a subscription, with the formats that are defined; nesting deeper than `depth` exceeds the recursion limit -/
inductive SubObstacle (ign : Bool) (F : Dict Str MsgFormat) (depth : Nat) (d : Bytes) : PyErr → Prop
  | short : d.length < 3 → SubObstacle ign F depth d .structError
  | text : ign = false → NoText (d.drop 3) → SubObstacle ign F depth d .unicodeError
  /-- a type that is not defined -/
  | unknown {name t : Str} {n : Nat} : 3 ≤ d.length → TextOf ign (d.drop 3) name → n < depth → NestedIn F n name t →
      F.get? t = none → SubObstacle ign F depth d .keyError
  | deep {name t : Str} : 3 ≤ d.length → TextOf ign (d.drop 3) name → NestedIn F depth name t →
      SubObstacle ign F depth d .recursionError
  /-- two columns of one name -/
  | twice {name : Str} {cols : List FieldData} : 3 ≤ d.length → TextOf ign (d.drop 3) name →
      (∀ t, ¬ NestedIn F depth name t) → Columns F name cols →
      ¬ (columnNames cols).Nodup → SubObstacle ign F depth d .valueError

/-- `DefObstacle cfg d ty e`: why a definition message of type `ty` raises `e` -/
inductive DefObstacle (cfg : Cfg) (d : Bytes) : Nat → PyErr → Prop
  | info {e : PyErr} : KeyObstacle cfg.ign d e → DefObstacle cfg d tyI e
  | param {e : PyErr} : KeyObstacle cfg.ign d e → DefObstacle cfg d tyP e
  | multiEmpty : d = [] → DefObstacle cfg d tyM .structError
  | multi {e : PyErr} : KeyObstacle cfg.ign (d.drop 1) e → DefObstacle cfg d tyM e
  | defaultEmpty : d = [] → DefObstacle cfg d tyQ .structError
  | default {e : PyErr} : KeyObstacle cfg.ign (d.drop 1) e → DefObstacle cfg d tyQ e
  | format {e : PyErr} : FormatObstacle cfg.ign d e → DefObstacle cfg d tyF e
  | flags : d.length < 40 → DefObstacle cfg d tyB .structError
  /-- an unknown bit of the first incompatible flag -/
  | incompatible : 40 ≤ d.length → 2 ≤ byteAt d 8 → DefObstacle cfg d tyB .valueError
  /-- another incompatible flag -/
  | unknownFlag {i : Nat} : 40 ≤ d.length → byteAt d 8 < 2 → 9 ≤ i → i < 16 → byteAt d i ≠ 0 → DefObstacle cfg d tyB .notImplemented

/-- `DataObstacle cfg v d ty e`: why a message of type `ty` in the data section raises `e`, when the object is `v` -/
inductive DataObstacle (cfg : Cfg) (v : ULog) (d : Bytes) : Nat → PyErr → Prop
  | info {e : PyErr} : KeyObstacle cfg.ign d e → DataObstacle cfg v d tyI e
  | param {e : PyErr} : KeyObstacle cfg.ign d e → DataObstacle cfg v d tyP e
  | multiEmpty : d = [] → DataObstacle cfg v d tyM .structError
  | multi {e : PyErr} : KeyObstacle cfg.ign (d.drop 1) e → DataObstacle cfg v d tyM e
  | defaultEmpty : d = [] → DataObstacle cfg v d tyQ .structError
  | default {e : PyErr} : KeyObstacle cfg.ign (d.drop 1) e → DataObstacle cfg v d tyQ e
  | sub {e : PyErr} : SubObstacle cfg.ign v.formats cfg.depth d e → DataObstacle cfg v d tyA e
  | loggedShort : d.length < 9 → DataObstacle cfg v d tyL .structError
  | logged : cfg.ign = false → NoText (d.drop 9) → DataObstacle cfg v d tyL .unicodeError
  | taggedShort : d.length < 11 → DataObstacle cfg v d tyC .structError
  | tagged : cfg.ign = false → NoText (d.drop 11) → DataObstacle cfg v d tyC .unicodeError
  | dropout : d.length ≠ 2 → DataObstacle cfg v d tyO .structError
  | sampleShort : d.length < 2 → DataObstacle cfg v d tyD .structError
  /-- a sample of the right size, in which the timestamp has less than eight bytes -/
  | sample {s : Sub} : v.subs.get? (leAt d 0 2) = some s → s.itemSize + 2 ≤ d.length → d.length ≤ s.maxSize + 2 →
      s.itemSize < s.tsOff + 8 → DataObstacle cfg v d tyD .structError

/-- the positions and objects of the reader in the definition section -/
inductive DefReach (cfg : Cfg) (bs : Bytes) : RS → Prop
  | start {u : ULog} : readHeader bs = .ok u → DefReach cfg bs { pos := 16, cur := 16, u := u }
  | step {s s' : RS} : DefReach cfg bs s → defStep cfg bs s = .cont s' → DefReach cfg bs s'

/-- the message at `pos` announces more bytes than the file has, and the reader wants to go back by that many: to the
start of a message that ends the definitions, or to the second byte of one with an impossible header -/
def SeeksBeforeStart (bs : Bytes) (pos : Nat) : Prop :=
  pos + 3 ≤ bs.length ∧
    ((byteAt bs (pos + 2) ∈ [tyA, tyL, tyC] ∧ bs.length < leAt bs pos 2 + 3) ∨
     (byteAt bs (pos + 2) ∉ [tyA, tyL, tyC, tyI, tyM, tyF, tyP, tyQ, tyB] ∧
       badHeader (byteAt bs (pos + 2)) (leAt bs pos 2) ∧ bs.length < leAt bs pos 2 + 2))

/-- why a load raises `e` -/
inductive LoadObstacle (fuel : Nat) (cfg : Cfg) (bs : Bytes) : PyErr → Prop
  | header : ¬ HeaderOk bs → LoadObstacle fuel cfg bs .typeError
  /-- a definition message; an `IndexError` only marks the file as corrupt -/
  | definition {pre : List Tr} {v : ULog} {ty : Nat} {d : Bytes} {e : PyErr} :
      defTrace fuel cfg bs = pre ++ [(v, ty, d)] → DefObstacle cfg d ty e → e ≠ .indexError →
      LoadObstacle fuel cfg bs e
  /-- the file ends in the header of a definition message -/
  | tail {s : RS} : DefReach cfg bs s → s.pos < bs.length → bs.length < s.pos + 3 → LoadObstacle fuel cfg bs .structError
  | seek {s : RS} : DefReach cfg bs s → SeeksBeforeStart bs s.pos → LoadObstacle fuel cfg bs .osError
  /-- a message of the data section; a `struct.error` only ends the section -/
  | data {secs : List (List Tr)} {pre : List Tr} {v : ULog} {ty : Nat} {d : Bytes} {e : PyErr} :
      fileTrace fuel cfg bs = secs ++ [pre ++ [(v, ty, d)]] → DataObstacle cfg v d ty e → e ≠ .indexError →
      e ≠ .structError → LoadObstacle fuel cfg bs e
  /-- an appended section starts where no file position is -/
  | offset {s : RS} {off : Nat} : afterDefs fuel cfg bs = some s → cfg.headerOnly = false →
      (s.u.incompat.getD 0 0) % 2 = 1 → off ∈ s.u.appendedOffsets → 2 ^ 63 ≤ off →
      LoadObstacle fuel cfg bs .valueError

end PyULog.Spec
