import Verif.Spec.NumberText
import Verif.Model.Text
/-
JSON objects with numbers and null as values (RFC 8259), as far as the column `ValueJson` needs them.
-/
namespace PyULog.Spec

/-- a run of digits, at least one -/
def Digits (s : Str) : Prop := s ≠ [] ∧ ∀ c ∈ s, isNumeral c = true

/-- an integer without sign and without leading zeros -/
def JsonInt (s : Str) : Prop := s = py! "0" ∨ Digits s ∧ s.head? ≠ some '0'

/-- nothing, or a point and digits -/
def JsonFrac (s : Str) : Prop := s = [] ∨ ∃ d, Digits d ∧ s = '.' :: d

/-- nothing, or `e`, a sign and digits -/
def JsonExp (s : Str) : Prop := s = [] ∨ ∃ c d, (c = '+' ∨ c = '-') ∧ Digits d ∧ s = 'e' :: c :: d

/-- a number in JSON -/
def JsonNumber (s : Str) : Prop :=
  ∃ sign i f e, (sign = [] ∨ sign = ['-']) ∧ JsonInt i ∧ JsonFrac f ∧ JsonExp e ∧ s = sign ++ (i ++ (f ++ e))

/-- a value in the column -/
def JsonValue (s : Str) : Prop := s = py! "null" ∨ JsonNumber s

/-- a text in double quotes -/
def readQuoted : Str → Option Str
  | '"' :: s => if s.getLast? = some '"' then some s.dropLast else none
  | _ => none

/-- a member `"key":value` of an object -/
def readMember (m : Str) : Option (Str × Str) :=
  match pySplit ':' m with
  | [k, v] => (readQuoted k).map fun k => (k, v)
  | _ => none

/-- the members of an object; neither keys nor values have blanks, commas, colons or braces in them -/
def readObject (s : Str) : Option (List (Str × Str)) :=
  match s.filter (fun c => c ≠ ' ') with
  | '{' :: r =>
    if r.getLast? = some '}' then
      if r.dropLast = [] then some [] else (pySplit ',' r.dropLast).mapM readMember
    else none
  | _ => none

/-- the text is an object whose values are numbers or null -/
def ValidJson (s : Str) : Prop := ∃ ms, readObject s = some ms ∧ ∀ m ∈ ms, JsonValue m.2

/-- the text that stands for a value: NaN and infinity become `null`, and `-inf` becomes `-null`. The
others are numbers; 32-bit floats are printed with the digits of the 64-bit float of the same value. -/
def JsonOf (txt : Str) : NpVal → Prop
  | .int n => JsonNumber txt ∧ ReadsAsInt txt n
  | .f64 b =>
    if exp64 b = 2047 then
      txt = if frac64 b = 0 ∧ sign64 b = 1 then py! "-null" else py! "null"
    else JsonNumber txt ∧ ReadsAs64 txt b
  | .f32 b =>
    if exp32 b = 255 then
      txt = if frac32 b = 0 ∧ sign32 b = 1 then py! "-null" else py! "null"
    else JsonNumber txt ∧ ∃ w, w < 2 ^ 64 ∧ finite64 w ∧ sign64 w = sign32 b ∧
      mag64 w = mag32 b * 2 ^ (1074 - 149) ∧ ReadsAs64 txt w

end PyULog.Spec
