import Verif.Model.Parse
/-
The expansion of a message format into columns, as a relation between a format table and a list of
columns: no recursion bound, no accumulator.
-/
namespace PyULog.Spec
open PyULog

/-- the basic types of the format -/
def typeTable : List (Str × BT) :=
  [(py! "int8_t", .i8), (py! "uint8_t", .u8), (py! "int16_t", .i16), (py! "uint16_t", .u16),
   (py! "int32_t", .i32), (py! "uint32_t", .u32), (py! "int64_t", .i64), (py! "uint64_t", .u64),
   (py! "float", .f32), (py! "double", .f64), (py! "bool", .bool), (py! "char", .char)]

/-- basic type of a name -/
def basicType (s : Str) : Option BT := (typeTable.find? fun p => p.1 = s).map (·.2)

/-- decimal numeral -/
def dec (n : Nat) : Str := Nat.toDigits 10 n

/-- what is appended to the name of a field: `[0]`, `[1]`, … for arrays, nothing otherwise -/
def suffixes (arr : Int) : List Str :=
  if 0 < arr then (List.range arr.toNat).map fun i => py! "[" ++ dec i ++ py! "]" else [[]]

/-- `Expands F pre fs cols`: with the format table `F`, the fields `fs` expand to the columns `cols`
when their names are prefixed with `pre` -/
inductive Expands (F : Dict Str MsgFormat) : Str → List FieldDef → List FieldData → Prop
  | nil (pre : Str) : Expands F pre [] []
  | basic {pre : Str} {f : FieldDef} {fs : List FieldDef} {r : List FieldData} {t : BT} :
      basicType f.type = some t → Expands F pre fs r →
      Expands F pre (f :: fs) ((suffixes f.arr).map (fun s => ⟨pre ++ f.name ++ s, t⟩) ++ r)
  | nested {pre : Str} {f : FieldDef} {fs : List FieldDef} {r : List FieldData} {fmt : MsgFormat}
      {g : Str → List FieldData} :
      basicType f.type = none → F.get? f.type = some fmt →
      (∀ s ∈ suffixes f.arr, Expands F (pre ++ f.name ++ s ++ py! ".") fmt.fields (g s)) →
      Expands F pre fs r →
      Expands F pre (f :: fs) ((suffixes f.arr).flatMap g ++ r)

/-- format `a` has a field of the nested type `b` -/
def Uses (F : Dict Str MsgFormat) (a b : Str) : Prop :=
  ∃ fmt, F.get? a = some fmt ∧ ∃ f ∈ fmt.fields, basicType f.type = none ∧ f.type = b

/-- nested types reached from a format -/
inductive UsesStar (F : Dict Str MsgFormat) : Str → Str → Prop
  | refl (a : Str) : UsesStar F a a
  | step {a b c : Str} : UsesStar F a b → Uses F b c → UsesStar F a c

/-- reached in at least one step -/
def UsesPlus (F : Dict Str MsgFormat) (a c : Str) : Prop := ∃ b, UsesStar F a b ∧ Uses F b c

/-- `kept` is `full` without its trailing padding columns -/
def StripsPadding (full kept : List FieldData) : Prop :=
  ∃ pad, full = kept ++ pad ∧ (∀ p ∈ pad, py! "_padding" <+: p.name) ∧
    ∀ l, kept.getLast? = some l → ¬ py! "_padding" <+: l.name

end PyULog.Spec
