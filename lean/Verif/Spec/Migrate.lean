import Verif.Model.Migrate
/-
What migrating means, independent of the loop of `migrate_db`: scripts as lists of statements, and the
states between them.
-/
namespace PyULog.Spec
open PyULog

/-- the code points of white space, as Python understands it -/
def whiteSpace : List Nat :=
  [9, 10, 11, 12, 13, 28, 29, 30, 31, 32, 133, 160, 5760, 8192, 8193, 8194, 8195, 8196, 8197, 8198, 8199, 8200, 8201,
    8202, 8232, 8233, 8239, 8287, 12288]

/-- only white space, as Python understands it -/
def BlankText (s : Str) : Prop := ∀ c ∈ s, c.toNat ∈ whiteSpace

/-- only white space of SQL: space, tab, line feed, form feed, carriage return -/
def SqlBlank (s : Str) : Prop := ∀ c ∈ s, c.toNat ∈ [32, 9, 10, 12, 13]

/-- reading a text: state of the tokenizer at the end, the unfinished statement (reversed) and the
finished statements -/
def lexRun : LexMode → Str → Str → LexMode × Str × List Str
  | m, acc, [] => (m, acc, [])
  | m, acc, c :: cs =>
    let t := lexStep m acc c
    let r := lexRun t.1 t.2.1 cs
    (r.1, r.2.1, t.2.2.toList ++ r.2.2)

/-- first and last word are those demanded of a script -/
def Framed (text : Str) : Prop :=
  (∃ a b, text = a ++ py! "BEGIN;" ++ b ∧ BlankText a) ∧ ∃ a b, text = a ++ py! "COMMIT;" ++ b ∧ BlankText b

/-- `text` is one transaction with the statements `body` (which contain no transaction control and do
not set the version): `BEGIN; body... COMMIT;`, with comments allowed, none of them left open -/
structure OneTransaction (text : Str) (body : List Str) : Prop where
  framed : Framed text
  /-- nothing but blanks and comments after the last semicolon -/
  closed : (lexRun .normal [] text).1 = .normal ∨ (lexRun .normal [] text).1 = .line
  tail : SqlBlank (lexRun .normal [] text).2.1
  stmts : ∃ b c, (lexRun .normal [] text).2.2 = b :: body ++ [c] ∧
    stmtKind b = .begin ∧ stmtKind c = .commit
  ordinary : ∀ s ∈ body, stmtKind s = .other ∨ stmtKind s = .blank

/-- a directory whose scripts are each missing, rejected, or one transaction -/
def ScriptsOk (dir : SqlDir) (body : Nat → List Str) (ids : List Nat) : Prop :=
  ∀ id ∈ ids, dir id = none ∨ ∃ text, dir id = some text ∧ (¬ Framed text ∨ OneTransaction text (body id))

/-- the script exists and has the required frame -/
def Present (dir : SqlDir) (id : Nat) : Prop := ∃ t, dir id = some t ∧ Framed t

/-- effect of the statements of one script -/
def applyBody (E : Engine σ) : List Str → SDb σ → Except PyErr (SDb σ)
  | [], d => .ok d
  | s :: ss, d =>
    match stmtKind s with
    | .blank => applyBody E ss d
    | _ =>
      match E.exec s d with
      | .ok d' => applyBody E ss d'
      | .error e => .error e

/-- effect of the scripts `ids`, each recorded -/
def applied (E : Engine σ) (body : Nat → List Str) : List Nat → SDb σ → Except PyErr (SDb σ)
  | [], d => .ok d
  | id :: ids, d =>
    match applyBody E (body id) d with
    | .ok d' => applied E body ids { d' with version := id }
    | .error e => .error e

/-- why script `id` does not run on `d` -/
def Refused (E : Engine σ) (dir : SqlDir) (body : Nat → List Str) (id : Nat) (d : SDb σ) (e : PyErr) : Prop :=
  (dir id = none ∧ e = .fileNotFound) ∨
  (∃ text, dir id = some text ∧ ¬ Framed text ∧ e = .valueError) ∨
  (∃ text, dir id = some text ∧ Framed text ∧ applyBody E (body id) d = .error e)

/-- the scripts from version `v` to 5 -/
def idsFrom (v : Nat) : List Nat := List.range' (v + 1) (5 - v)

/-- statements other than the recording of the version leave the version alone -/
def KeepsVersion (E : Engine σ) : Prop :=
  ∀ s d d', E.exec s d = .ok d' → d'.version = d.version

/-- the database from which `migrate_db` starts: a new file counts as version 0, an existing file of
version 0 only with `force` -/
def Start (file : Option (SDb σ)) (force : Bool) (v : Nat) : Prop :=
  (file = none ∧ v = 0) ∨ ∃ d, file = some d ∧ d.version = v ∧ (v ≠ 0 ∨ force = true)

/-- the contents of the file; a new file is empty and has version 0 -/
def contents (E : Engine σ) (file : Option (SDb σ)) : SDb σ := file.getD ⟨E.empty, 0⟩

end PyULog.Spec
