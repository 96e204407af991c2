import Verif.Spec.Args
/-
C94: the values that the words of a command line give to the options, by the names of the options.
-/
namespace PyULog.Spec

/-- the value that is given last for the option with the name `n` -/
def given (n : Str) (l : List (OptDecl × ArgVal)) : Option ArgVal :=
  (l.filter fun p : OptDecl × ArgVal => decide (n ∈ p.1.names)).getLast?.map (·.2)

/-- a text that is given -/
def givenText (n : Str) (l : List (OptDecl × ArgVal)) : Option Str :=
  match given n l with
  | some (.str s) => some s
  | _ => none

/-- a number that is given -/
def givenInt (n : Str) (l : List (OptDecl × ArgVal)) : Option Int :=
  match given n l with
  | some (.int k) => some k
  | _ => none

/-- the flag is given -/
def isGiven (n : Str) (l : List (OptDecl × ArgVal)) : Bool := l.any fun p => decide (n ∈ p.1.names)

/-- a command line: options, file names, options; or options, `--` and file names -/
inductive CmdLine (d : CliDecl) (isDir : Str → Bool) : List Str → List Str → List (OptDecl × ArgVal) → Prop
  | line {pre fs post l1 l2} : Line d isDir pre l1 → Line d isDir post l2 → (∀ f ∈ fs, PlainWord d f) →
      (fs ≠ [] ∨ post = []) → CmdLine d isDir (pre ++ fs ++ post) fs (l1 ++ l2)
  | dashes {pre f fs l} : Line d isDir pre l → (∀ g ∈ fs, g ≠ py! "--") →
      CmdLine d isDir (pre ++ py! "--" :: f :: fs) (f :: fs) l

end PyULog.Spec
