import Verif.Spec.Messages
/-
The text of a format message, restated as a grammar.
-/
namespace PyULog.Spec
open PyULog

/-- `parts` are the pieces of `s` between the separators -/
def Splits (c : Char) (s : Str) (parts : List Str) : Prop :=
  parts ≠ [] ∧ s = List.intercalate [c] parts ∧ ∀ p ∈ parts, c ∉ p

/-- the zeros of all scripts with decimal digits -/
def zeros : Str := py! "0٠۰߀०০੦૦୦௦౦೦൦෦๐໐༠၀႐០᠐᥆᧐᪀᪐᭐᮰᱀᱐꘠꣐꤀꧐꧰꩐꯰０𐒠𐴰𑁦𑃰𑄶𑇐𑋰𑑐𑓐𑙐𑛀𑜰𑣠𑥐𑱐𑵐𑶠𖩠𖫀𖭐𝟎𝟘𝟢𝟬𝟶𞅀𞋰𞥐🯰"

/-- `c` is a decimal digit of some script with the value `d` -/
def DigitOf (c : Char) (d : Nat) : Prop := d < 10 ∧ ∃ z ∈ zeros, c.toNat = z.toNat + d

/-- decimal digits, with single underscores between them -/
inductive Numeral : Str → Nat → Prop
  | one {c : Char} {d : Nat} (h : DigitOf c d) : Numeral [c] d
  | more {s : Str} {m d : Nat} {c : Char} (h : DigitOf c d) : Numeral s m → Numeral (s ++ [c]) (10 * m + d)
  | under {s : Str} {m d : Nat} {c : Char} (h : DigitOf c d) : Numeral s m → Numeral (s ++ ['_', c]) (10 * m + d)

/-- the code points of white space, but for the four separators of ASCII -/
def blanks : List Nat :=
  [9, 10, 11, 12, 13, 32, 133, 160, 5760, 8192, 8193, 8194, 8195, 8196, 8197, 8198, 8199, 8200, 8201, 8202, 8232, 8233,
    8239, 8287, 12288]

/-- white space that `int` skips -/
def Blank (c : Char) : Prop := c.toNat ∈ blanks

/-- text of an integer: white space, sign, digits, white space -/
def IntText (s : Str) (n : Int) : Prop :=
  ∃ pre sign body post m, s = pre ++ sign ++ body ++ post ∧ (∀ c ∈ pre ++ post, Blank c) ∧
    Numeral body m ∧ ((sign = [] ∨ sign = ['+']) ∧ n = m ∨ sign = ['-'] ∧ n = -(m : Int))

/-- `type name` or `type[size] name`; what follows a second space is ignored, and so is what follows
the bracket. Without a closing bracket the last character of the type is dropped. -/
def FieldText (s : Str) (f : FieldDef) : Prop :=
  ∃ parts t, Splits ' ' s parts ∧ parts[0]? = some t ∧ parts[1]? = some f.name ∧
    (('[' ∉ t ∧ f.type = t ∧ f.arr = 0) ∨
      ∃ size rest, t = f.type ++ ['['] ++ size ++ rest ∧ '[' ∉ f.type ∧ IntText size f.arr ∧
        ((']' ∉ f.type ∧ ']' ∉ size ∧ rest.head? = some ']') ∨ (']' ∉ t ∧ rest.length = 1)))

/-- `name:field;field;…`; empty fields and what follows a second colon are ignored -/
def FormatText (s : Str) (f : MsgFormat) : Prop :=
  ∃ parts body fs, Splits ':' s parts ∧ parts[0]? = some f.name ∧ parts[1]? = some body ∧
    Splits ';' body fs ∧ (fs.filter (· ≠ [])).length = f.fields.length ∧
    ∀ p ∈ (fs.filter (· ≠ [])).zip f.fields, FieldText p.1 p.2

/-- format of a message -/
def formatOf (ign : Bool) (m : Tr) : Option (Str × MsgFormat) :=
  if m.2.1 = tyF then (parseFormat ign m.2.2).toOption.map fun f => (f.name, f) else none

end PyULog.Spec
