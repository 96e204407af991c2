import Verif.Model.Text
/-
`migrate_db.py`: bringing a database to the schema version of the code.

Of SQLite and of Python's `sqlite3` this file models: splitting a script into statements, transactions
(`BEGIN`, `COMMIT`, `ROLLBACK`, commit of a pending transaction before `executescript`, commit or
rollback at the end of `with connection:`), and `PRAGMA user_version`, which is part of the database
and of the transaction. What the other statements do is a parameter (`Engine`); `Model/Sql.lean` gives
it for the statements of the shipped scripts. A statement that fails has no effect. `SAVEPOINT`,
triggers (whose bodies contain semicolons) and other connections are not modelled.
-/
namespace PyULog

/-- `DatabaseULog.SCHEMA_VERSION` (db.py:52) -/
def SCHEMA_VERSION : Nat := 5

/-! ### statements of a script -/

/-- state of the SQLite tokenizer as far as it matters for finding the semicolons; `dash` and `slash`
have read one character that may begin a comment, `star` one that may end it -/
inductive LexMode where
  | normal | dash | slash | quote (c : Char) | bracket | line | block | star
  deriving DecidableEq, Repr

/-- one character outside of quotes and comments; `acc` is the statement so far, reversed; the third
component is a completed statement -/
def lexNormal (acc : Str) (c : Char) : LexMode × Str × Option Str :=
  if c = ';' then (.normal, [], some acc.reverse)
  else if c = '\'' ∨ c = '"' ∨ c = '`' then (.quote c, c :: acc, none)
  else if c = '[' then (.bracket, c :: acc, none)
  else if c = '-' then (.dash, acc, none)
  else if c = '/' then (.slash, acc, none)
  else (.normal, c :: acc, none)

/-- one character; a comment counts as a blank -/
def lexStep (m : LexMode) (acc : Str) (c : Char) : LexMode × Str × Option Str :=
  match m with
  | .normal => lexNormal acc c
  | .dash => if c = '-' then (.line, ' ' :: acc, none) else lexNormal ('-' :: acc) c
  | .slash => if c = '*' then (.block, ' ' :: acc, none) else lexNormal ('/' :: acc) c
  | .quote q => (if c = q then .normal else .quote q, c :: acc, none)
  | .bracket => (if c = ']' then .normal else .bracket, c :: acc, none)
  | .line => (if c = '\n' then .normal else .line, acc, none)
  | .block => (if c = '*' then .star else .block, acc, none)
  | .star => (if c = '/' then .normal else if c = '*' then .star else .block, acc, none)

/-- the statements of a script; the last one is what follows the last semicolon -/
def splitStmts : LexMode → Str → Str → List Str
  | .dash, acc, [] => [('-' :: acc).reverse]
  | .slash, acc, [] => [('/' :: acc).reverse]
  | _, acc, [] => [acc.reverse]
  | m, acc, c :: cs =>
    match lexStep m acc c with
    | (m', acc', some s) => s :: splitStmts m' acc' cs
    | (m', acc', none) => splitStmts m' acc' cs

/-- ASCII upper case (keywords and names of SQL are not case sensitive) -/
def upperC (c : Char) : Char :=
  if 97 ≤ c.toNat ∧ c.toNat ≤ 122 then Char.ofNat (c.toNat - 32) else c

/-- white space of SQL -/
def isSqlSpace (c : Char) : Bool :=
  c.toNat = 32 || c.toNat = 9 || c.toNat = 10 || c.toNat = 12 || c.toNat = 13

/-- words of a statement; `acc` is the current word, reversed -/
def sqlWords : Str → Str → List Str
  | [], [] => []
  | acc, [] => [acc.reverse]
  | acc, c :: cs =>
    if isSqlSpace c then
      match acc with
      | [] => sqlWords [] cs
      | _ => acc.reverse :: sqlWords [] cs
    else sqlWords (upperC c :: acc) cs

/-- what a statement is for the transaction -/
inductive StmtKind where
  | blank | begin | commit | rollback
  | version (n : Int)
  | other
  deriving DecidableEq, Repr

/-- characters of an integer with sign -/
def sqlNumberC (c : Char) : Bool := (decide (48 ≤ c.toNat) && decide (c.toNat ≤ 57)) || c = '-' || c = '+'

/-- kind of a statement -/
def stmtKind (s : Str) : StmtKind :=
  match sqlWords [] s with
  | [] => .blank
  | w :: ws =>
    if w = py! "BEGIN" then .begin
    else if w = py! "COMMIT" ∨ w = py! "END" then .commit
    else if w = py! "ROLLBACK" then .rollback
    else if w = py! "PRAGMA" ∧ ws.take 2 = [py! "USER_VERSION", py! "="] then
      match ws.drop 2 with
      | [d] => if d.all sqlNumberC then match pyInt d with
          | .ok n => .version n
          | .error _ => .other
        else .other
      | _ => .other
    else .other

/-! ### connection -/

/-- a database: tables and `user_version` -/
structure SDb (σ : Type) where
  content : σ
  version : Int
  deriving DecidableEq, Repr

/-- the part of SQLite that executes ordinary statements -/
structure Engine (σ : Type) where
  /-- a new database -/
  empty : σ
  exec : Str → SDb σ → Except PyErr (SDb σ)

/-- what is on disk, and the state inside the open transaction -/
structure Conn (σ : Type) where
  disk : SDb σ
  tx : Option (SDb σ) := none
  deriving DecidableEq, Repr

/-- the state seen by statements -/
def Conn.cur (c : Conn σ) : SDb σ := c.tx.getD c.disk

/-- a change, in the open transaction or committed at once -/
def Conn.put (c : Conn σ) (d : SDb σ) : Conn σ :=
  match c.tx with
  | some _ => { c with tx := some d }
  | none => { c with disk := d }

/-- one statement -/
def execOne (E : Engine σ) (c : Conn σ) (s : Str) : Except PyErr (Conn σ) :=
  match stmtKind s with
  | .blank => .ok c
  | .begin =>
    match c.tx with
    | some _ => .error .operationalError
    | none => .ok { c with tx := some c.disk }
  | .commit =>
    match c.tx with
    | some d => .ok { disk := d, tx := none }
    | none => .error .operationalError
  | .rollback =>
    match c.tx with
    | some _ => .ok { c with tx := none }
    | none => .error .operationalError
  | .version n => .ok (c.put { c.cur with version := n })
  | .other => (E.exec s c.cur).map c.put

/-- the statements of a script one after the other; ends at the first error -/
def execAll (E : Engine σ) : Conn σ → List Str → Conn σ × Option PyErr
  | c, [] => (c, none)
  | c, s :: ss =>
    match execOne E c s with
    | .ok c' => execAll E c' ss
    | .error e => (c, some e)

/-- `con.commit()` -/
def Conn.commit (c : Conn σ) : Conn σ := { disk := c.cur, tx := none }

/-- `con.rollback()` -/
def Conn.rollback (c : Conn σ) : Conn σ := { c with tx := none }

/-- `cur.executescript(script)`: commits a pending transaction first -/
def executescript (E : Engine σ) (c : Conn σ) (script : Str) : Conn σ × Option PyErr :=
  execAll E c.commit (splitStmts .normal [] script)

/-! ### migrate_db -/

/-- `str.strip()` -/
def pyStrip (s : Str) : Str := ((s.dropWhile isSpaceC).reverse.dropWhile isSpaceC).reverse

/-- the directory of the scripts: text of `pyulog.<id>.sql`, if it exists -/
abbrev SqlDir := Nat → Option Str

/-- `_read_migration_file` (migrate_db.py:72-91). Decoding errors are not modelled. -/
def readMigration (dir : SqlDir) (id : Nat) : Except PyErr Str :=
  match dir id with
  | none => .error .fileNotFound
  | some text =>
    if ¬ startsWith (py! "BEGIN;") (pyStrip text) then .error .valueError
    else if ¬ (py! "COMMIT;").isSuffixOf (pyStrip text) then .error .valueError
    else .ok (text ++ py! "\nPRAGMA user_version = " ++ natDec id ++ py! ";")

/-- `_read_db_schema_version` (migrate_db.py:41-70); `none`: there is no database file -/
def readSchemaVersion (file : Option (SDb σ)) (force : Bool) : Except PyErr Nat :=
  match file with
  | none => .ok 0
  | some d =>
    if d.version = 0 ∧ force = false then .error .fileExists
    else if d.version < 0 then .error .valueError
    else .ok d.version.toNat

/-- the loop of `migrate_db` (migrate_db.py:120-127) -/
def migrateLoop (E : Engine σ) (dir : SqlDir) (noop : Bool) : List Nat → Conn σ → Conn σ × Option PyErr
  | [], c => (c, none)
  | id :: ids, c =>
    match readMigration dir id with
    | .error e => (c, some e)
    | .ok script =>
      if noop then migrateLoop E dir noop ids c
      else
        match executescript E c script with
        | (c', none) => migrateLoop E dir noop ids c'
        | (c', some e) => (c', some e)

/-- `range(db_schema_version+1, SCHEMA_VERSION+1)` -/
def migrationIds (v : Nat) : List Nat := List.range' (v + 1) (SCHEMA_VERSION - v)

/-- the connection of a database file; opening a file that does not exist creates it -/
def openConn (E : Engine σ) (file : Option (SDb σ)) : Conn σ :=
  { disk := file.getD { content := E.empty, version := 0 } }

/-- end of `with connection:` -/
def closeWith (r : Conn σ × Option PyErr) : SDb σ × Except PyErr Unit :=
  match r with
  | (c, none) => (c.commit.disk, .ok ())
  | (c, some e) => (c.rollback.disk, .error e)

/-- `migrate_db` (migrate_db.py:93-131): the database file afterwards and the outcome. `sqlDir = none`:
not a directory. The lines that are printed are in Prints.lean. -/
def migrateDb (E : Engine σ) (sqlDir : Option SqlDir) (noop force : Bool) (file : Option (SDb σ)) :
    Option (SDb σ) × Except PyErr Unit :=
  match sqlDir with
  | none => (file, .error .notADirectory)
  | some dir =>
    match readSchemaVersion file force with
    | .error e => (file, .error e)
    | .ok v =>
      let r := closeWith (migrateLoop E dir noop (migrationIds v) (openConn E file))
      (some r.1, r.2)

/-! ### what a crash leaves on disk

A process that dies loses its open transaction; what is on disk afterwards is one of the following
states. -/

/-- contents of the disk before each statement and at the end -/
def stmtDisks (E : Engine σ) : Conn σ → List Str → List (SDb σ)
  | c, [] => [c.disk]
  | c, s :: ss =>
    c.disk :: match execOne E c s with
      | .ok c' => stmtDisks E c' ss
      | .error _ => []

/-- contents of the disk during the loop -/
def loopDisks (E : Engine σ) (dir : SqlDir) : List Nat → Conn σ → List (SDb σ)
  | [], c => [c.disk, c.commit.disk]
  | id :: ids, c =>
    match readMigration dir id with
    | .error _ => [c.disk]
    | .ok script =>
      c.disk :: stmtDisks E c.commit (splitStmts .normal [] script) ++
        match executescript E c script with
        | (c', none) => loopDisks E dir ids c'
        | (_, some _) => []

/-- every state in which the database file can be when `migrate_db` (without noop) dies -/
def crashFiles (E : Engine σ) (dir : SqlDir) (force : Bool) (file : Option (SDb σ)) :
    List (Option (SDb σ)) :=
  file :: match readSchemaVersion file force with
    | .error _ => []
    | .ok v => (loopDisks E dir (migrationIds v) (openConn E file)).map some

end PyULog
