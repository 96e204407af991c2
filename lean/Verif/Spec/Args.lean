import Verif.Model.Args
import Verif.Spec.FormatText
/-
C92, C93: which command lines say what.
-/
namespace PyULog.Spec

/-- the option strings of a parser -/
def optionNames (d : CliDecl) : List Str := py! "-h" :: py! "--help" :: (d.opts.map (·.names)).flatten

/-- an ASCII letter -/
def AsciiLetter (c : Char) : Prop := (97 ≤ c.toNat ∧ c.toNat ≤ 122) ∨ (65 ≤ c.toNat ∧ c.toNat ≤ 90)

instance (c : Char) : Decidable (AsciiLetter c) := by unfold AsciiLetter; infer_instance

/-- what the declarations of the tools have in common: every option string is a dash and a letter, followed by
more for some, or two dashes and a text; a dash with a single letter is the beginning of no other option string -/
structure Orderly (d : CliDecl) : Prop where
  distinct : (optionNames d).Nodup
  shape : ∀ n ∈ optionNames d, '=' ∉ n ∧ n.head? = some '-' ∧
    ((∃ c ∈ n[1]?, AsciiLetter c) ∨ (n[1]? = some '-' ∧ 3 ≤ n.length))
  short : ∀ n ∈ optionNames d, n.length = 2 → ∀ m ∈ optionNames d, n <+: m → m = n
  dests : (d.opts.map (·.dest) ++ d.pos.map (·.dest)).Nodup

/-- `s` is an option string of `o`, or the beginning of one with two dashes and of no other option string -/
def Spelled (d : CliDecl) (s : Str) (o : OptDecl) : Prop :=
  s ∈ o.names ∨ ∃ n ∈ o.names, py! "--" <+: s ∧ 3 ≤ s.length ∧ '=' ∉ s ∧ s <+: n ∧
    ∀ m ∈ optionNames d, s <+: m → m = n

/-- neither the first two characters of the word nor the part before a `=` belong to an option string -/
def Foreign (d : CliDecl) (w : Str) : Prop :=
  ∃ c r, w = '-' :: c :: r ∧ ['-', c] ∉ optionNames d ∧ ∀ n ∈ optionNames d, ¬ (w.takeWhile fun x => decide (x ≠ '=')) <+: n

/-- a word that cannot be an option: it does not begin with a dash, is a single dash or a negative integer, or has a
space and the beginning of no option -/
def PlainWord (d : CliDecl) (s : Str) : Prop :=
  s.head? ≠ some '-' ∨ s = ['-'] ∨ (∃ ds, s = '-' :: ds ∧ ds ≠ [] ∧ ∀ c ∈ ds, ∃ k, DigitOf c k) ∨ (' ' ∈ s ∧ Foreign d s)

/-- `s` is a text of the type `t` with the value `x` -/
inductive ValueOf (isDir : Str → Bool) : ArgType → Str → ArgVal → Prop
  | text {s} : ValueOf isDir .text s (.str s)
  | int {s n} : IntText s n → ValueOf isDir .int s (.int n)
  | dir {s} : isDir s = true → ValueOf isDir .dir s (.str s)

/-- letters of options behind a single dash: flags, and at the end perhaps an option with its value, in the
same word (behind a `=` or not) or in the next one -/
inductive Bundle (d : CliDecl) (isDir : Str → Bool) : Str → Option Str → List (OptDecl × ArgVal) → Prop
  | flag {o c} : o ∈ d.opts → ['-', c] ∈ o.names → o.action = .storeTrue → Bundle d isDir [c] none [(o, .bool true)]
  | attached {o c t v x} : o ∈ d.opts → ['-', c] ∈ o.names → o.action = .store t → v ≠ [] → v.head? ≠ some '=' →
      ValueOf isDir t v x → Bundle d isDir (c :: v) none [(o, x)]
  | equals {o c t v x} : o ∈ d.opts → ['-', c] ∈ o.names → o.action = .store t →
      ValueOf isDir t v x → Bundle d isDir (c :: '=' :: v) none [(o, x)]
  | next {o c t v x} : o ∈ d.opts → ['-', c] ∈ o.names → o.action = .store t → PlainWord d v →
      ValueOf isDir t v x → Bundle d isDir [c] (some v) [(o, x)]
  | more {o c b w l} : o ∈ d.opts → ['-', c] ∈ o.names → o.action = .storeTrue → Bundle d isDir b w l →
      Bundle d isDir (c :: b) w ((o, .bool true) :: l)

/-- the words set the options -/
inductive Says (d : CliDecl) (isDir : Str → Bool) : List Str → List (OptDecl × ArgVal) → Prop
  | bundle {b w l} : Bundle d isDir b w l → Says d isDir (('-' :: b) :: w.toList) l
  | flag {o s} : o ∈ d.opts → Spelled d s o → o.action = .storeTrue → Says d isDir [s] [(o, .bool true)]
  | value {o s t v x} : o ∈ d.opts → Spelled d s o → o.action = .store t → PlainWord d v → ValueOf isDir t v x →
      Says d isDir [s, v] [(o, x)]
  | equals {o s t v x} : o ∈ d.opts → Spelled d s o → o.action = .store t → ValueOf isDir t v x →
      Says d isDir [s ++ '=' :: v] [(o, x)]

/-- a sequence of such words -/
inductive Line (d : CliDecl) (isDir : Str → Bool) : List Str → List (OptDecl × ArgVal) → Prop
  | nil : Line d isDir [] []
  | cons {w l ws ls} : Says d isDir w l → Line d isDir ws ls → Line d isDir (w ++ ws) (l ++ ls)

/-- the last value of an option, or its default -/
def finalValue (o : OptDecl) (l : List (OptDecl × ArgVal)) : ArgVal :=
  match (l.filter fun p : OptDecl × ArgVal => p.1.dest = o.dest).getLast? with
  | some p => p.2
  | none => o.dflt

/-- the values of a namespace -/
structure Means (d : CliDecl) (files : List Str) (l : List (OptDecl × ArgVal)) (ns : Dict Str ArgVal) : Prop where
  options : ∀ o ∈ d.opts, ns.get? o.dest = some (finalValue o l)
  files : ∀ (i : Nat) (p : PosDecl), d.pos[i]? = some p → ns.get? p.dest = some (match files[i]? with | some f => .str f | none => .none)

/-- a word that begins with a dash but names no option: it is no `--`, no number, has no space, and neither its first two
characters nor the part before a `=` belong to an option string -/
def Unknown (d : CliDecl) (w : Str) : Prop :=
  ∃ c r, w = '-' :: c :: r ∧ (c = '-' → r ≠ []) ∧ (∀ k, ¬ DigitOf c k) ∧ c ≠ '.' ∧ ' ' ∉ w ∧ ['-', c] ∉ optionNames d ∧
    ∀ n ∈ optionNames d, ¬ (w.takeWhile fun x => decide (x ≠ '=')) <+: n

/-- a word with a dash that may ask for the help -/
def MayHelp (w : Str) : Prop := w.head? = some '-' ∧ ('h' ∈ w ∨ py! "--=" <+: w)

end PyULog.Spec
