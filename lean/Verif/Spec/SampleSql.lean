import Verif.Spec.Migrate
/-
A small engine and directory for the examples about migrations: every statement that does not begin
with `X` is appended to the list of executed statements.
-/
namespace PyULog.Sample
open PyULog Spec

def listEngine : Engine (List Str) where
  empty := []
  exec s d := if startsWith (py! "X") s then .error .operationalError
    else .ok { d with content := d.content ++ [s] }

/-- script 1 with a comment after it, script 2 with a quoted semicolon, script 3 fails, script 4 is not
a transaction -/
def sqlDir : SqlDir
  | 1 => some (py! " BEGIN;A;COMMIT; -- done: COMMIT;")
  | 2 => some (py! "BEGIN;B ';'; /* ; */ ;COMMIT;\n")
  | 3 => some (py! "BEGIN;X;COMMIT;")
  | 4 => some (py! "D;")
  | _ => none

def sqlBody : Nat → List Str
  | 1 => [py! "A"]
  | 2 => [py! "B ';'", py! "   "]
  | 3 => [py! "X"]
  | _ => []

instance (s : Str) : Decidable (BlankText s) := inferInstanceAs (Decidable (∀ c ∈ s, _))

instance (s : Str) : Decidable (SqlBlank s) := inferInstanceAs (Decidable (∀ c ∈ s, _))

/-- framed from the check of the text -/
theorem framed_of (text a b a' b' : Str) (h : text = a ++ py! "BEGIN;" ++ b) (ha : BlankText a)
    (h' : text = a' ++ py! "COMMIT;" ++ b') (hb : BlankText b') : Framed text :=
  ⟨⟨a, b, h, ha⟩, ⟨a', b', h', hb⟩⟩

theorem one1 : OneTransaction (py! " BEGIN;A;COMMIT; -- done: COMMIT;") (sqlBody 1) where
  framed := framed_of _ (py! " ") (py! "A;COMMIT; -- done: COMMIT;") (py! " BEGIN;A;COMMIT; -- done: ") []
    rfl (by decide) rfl (by decide)
  closed := by decide
  tail := by decide
  stmts := ⟨py! " BEGIN", py! "COMMIT", by decide, by decide, by decide⟩
  ordinary := by decide

theorem one2 : OneTransaction (py! "BEGIN;B ';'; /* ; */ ;COMMIT;\n") (sqlBody 2) where
  framed := framed_of _ [] (py! "B ';'; /* ; */ ;COMMIT;\n") (py! "BEGIN;B ';'; /* ; */ ;") (py! "\n")
    rfl (by decide) rfl (by decide)
  closed := by decide
  tail := by decide
  stmts := ⟨py! "BEGIN", py! "COMMIT", by decide, by decide, by decide⟩
  ordinary := by decide

theorem one3 : OneTransaction (py! "BEGIN;X;COMMIT;") (sqlBody 3) where
  framed := framed_of _ [] (py! "X;COMMIT;") (py! "BEGIN;X;") [] rfl (by decide) rfl (by decide)
  closed := by decide
  tail := by decide
  stmts := ⟨py! "BEGIN", py! "COMMIT", by decide, by decide, by decide⟩
  ordinary := by decide

end PyULog.Sample
