import Verif.Model.Basic
/-
C43: what the statements of a script are, independent of the tokenizer: a script is a sequence of pieces.
-/
namespace PyULog.Spec

/-- a piece of a script -/
inductive Piece where
  /-- `;` outside of everything else -/
  | semicolon
  /-- any other single character -/
  | char (c : Char)
  /-- a text in quotes of one of the kinds `'`, `"` and the backquote; a doubled quote is two such texts -/
  | quoted (q : Char) (body : Str)
  /-- a name in square brackets -/
  | bracketed (body : Str)
  /-- `-- …` up to the end of the line -/
  | line (body : Str)
  /-- `/* … */` -/
  | block (body : Str)

/-- the characters of a piece in the script -/
def Piece.source : Piece → Str
  | .semicolon => [';']
  | .char c => [c]
  | .quoted q b => q :: b ++ [q]
  | .bracketed b => '[' :: b ++ [']']
  | .line b => '-' :: '-' :: b ++ ['\n']
  | .block b => '/' :: '*' :: b ++ ['*', '/']

/-- what it is in a statement: a comment is a blank -/
def Piece.text : Piece → Str
  | .semicolon => []
  | .char c => [c]
  | .quoted q b => q :: b ++ [q]
  | .bracketed b => '[' :: b ++ [']']
  | .line _ => [' ']
  | .block _ => [' ']

/-- the piece has this shape; a single character begins nothing else, in view of the next one -/
def Piece.Ok (next : Option Char) : Piece → Prop
  | .semicolon => True
  | .char c => c ≠ ';' ∧ c ≠ '\'' ∧ c ≠ '"' ∧ c ≠ '`' ∧ c ≠ '[' ∧ (c = '-' → next ≠ some '-') ∧ (c = '/' → next ≠ some '*')
  | .quoted q b => (q = '\'' ∨ q = '"' ∨ q = '`') ∧ q ∉ b
  | .bracketed b => ']' ∉ b
  | .line b => '\n' ∉ b
  | .block b => ¬ ['*', '/'] <:+: b ++ ['*']

/-- the script of a sequence of pieces -/
def scriptOf (ps : List Piece) : Str := (ps.map Piece.source).flatten

/-- every piece has its shape -/
def PiecesOk : List Piece → Prop
  | [] => True
  | p :: ps => p.Ok (scriptOf ps).head? ∧ PiecesOk ps

/-- the statements: the texts between the semicolons -/
def statementsOf : List Piece → List Str
  | [] => [[]]
  | .semicolon :: ps => [] :: statementsOf ps
  | p :: ps =>
    match statementsOf ps with
    | s :: l => (p.text ++ s) :: l
    | [] => [p.text]

end PyULog.Spec
