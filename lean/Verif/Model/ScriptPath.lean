import Verif.Model.Names
import Verif.Model.Migrate
/-
The name of a migration file (migrate_db.py:77-78): the directory is joined with `pyulog.{migration_id}.sql`, and
`str.format` is applied to the whole path, directory included.
-/
namespace PyULog

/-! ### `str.format(migration_id=…)` -/

/-- the name of a replacement field: up to `}`, `:` or `!`; between `[` and `]` nothing ends it. The name, the character
that ends it, and the rest. -/
def scanField : Bool → Str → Str → Except PyErr (Str × Char × Str)
  | _, _, [] => .error .valueError
  | true, acc, c :: cs => scanField (decide (c ≠ ']')) (c :: acc) cs
  | false, acc, c :: cs =>
    if c = '{' then .error .valueError
    else if c = '}' ∨ c = ':' ∨ c = '!' then .ok (acc.reverse, c, cs)
    else scanField (decide (c = '[')) (c :: acc) cs

/-- the value of a field. Conversions and format specifications are not modelled, nor are attributes and items of
`migration_id`. -/
def replacement (value name : Str) (close : Char) : Except PyErr Str :=
  let first := name.takeWhile fun c => decide (c ≠ '.' ∧ c ≠ '[')
  if close ≠ '}' then .error .unmodelled
  else if first.all isDig then
    if 2 ^ 63 ≤ digVal first then .error .valueError else .error .indexError
  else if name = py! "migration_id" then .ok value
  else if first = py! "migration_id" then .error .unmodelled
  else .error .keyError

/-- `s.format(migration_id=value)`; every step takes a character, so that the length is enough fuel -/
def formatId (value : Str) : Nat → Str → Except PyErr Str
  | 0, _ => .ok []
  | _ + 1, [] => .ok []
  | n + 1, '{' :: '{' :: cs => do
    let r ← formatId value n cs
    .ok ('{' :: r)
  | n + 1, '}' :: '}' :: cs => do
    let r ← formatId value n cs
    .ok ('}' :: r)
  | _ + 1, ['{'] => .error .valueError
  | _ + 1, '}' :: _ => .error .valueError
  | n + 1, '{' :: cs => do
    let (name, close, rest) ← scanField false [] cs
    let t ← replacement value name close
    let r ← formatId value n rest
    .ok (t ++ r)
  | n + 1, c :: cs => do
    let r ← formatId value n cs
    .ok (c :: r)

/-- the name of the file (migrate_db.py:77-78) -/
def scriptPath (sqlDir : Str) (id : Nat) : Except PyErr Str :=
  let format := pathJoin sqlDir (py! "pyulog.{migration_id}.sql")
  formatId (natDec id) (format.length + 1) format

/-- `_read_migration_file` (migrate_db.py:72-91): name and text; `files` are the files that exist -/
def readScript (files : Str → Option Str) (sqlDir : Str) (id : Nat) : Except PyErr (Str × Str) := do
  let path ← scriptPath sqlDir id
  let text ← readMigration (fun _ => files path) id
  .ok (path, text)

/-- the loop of `migrate_db` (migrate_db.py:120-127) -/
def migrateLoopAt (E : Engine σ) (files : Str → Option Str) (sqlDir : Str) (noop : Bool) :
    List Nat → Conn σ → Conn σ × Option PyErr
  | [], c => (c, none)
  | id :: ids, c =>
    match readScript files sqlDir id with
    | .error e => (c, some e)
    | .ok (_, script) =>
      if noop then migrateLoopAt E files sqlDir noop ids c
      else
        match executescript E c script with
        | (c', none) => migrateLoopAt E files sqlDir noop ids c'
        | (c', some e) => (c', some e)

/-- `migrate_db` (migrate_db.py:93-131) with the name of the directory; `isDir` is `os.path.isdir` -/
def migrateDbAt (E : Engine σ) (isDir : Str → Bool) (files : Str → Option Str) (sqlDir : Str) (noop force : Bool)
    (file : Option (SDb σ)) : Option (SDb σ) × Except PyErr Unit :=
  if !isDir sqlDir then (file, .error .notADirectory)
  else
    match readSchemaVersion file force with
    | .error e => (file, .error e)
    | .ok v =>
      let r := closeWith (migrateLoopAt E files sqlDir noop (migrationIds v) (openConn E file))
      (some r.1, r.2)

end PyULog
