import Verif.Model.Migrate
import Verif.Model.Db
/-
The statements of the shipped migration scripts (pyulog/sql/pyulog.1.sql .. pyulog.5.sql) and what
SQLite does with them.

Modelled: tables with columns, rows, `UNIQUE`, primary key and foreign keys; indexes by name;
`CREATE ... IF NOT EXISTS`, `INSERT OR IGNORE ... SELECT`, `DROP TABLE IF EXISTS`,
`ALTER TABLE ... RENAME TO | RENAME COLUMN | ADD COLUMN`, `UPDATE ... SET c = CAST(d AS INT)`.
`get_db_handle` turns foreign keys on (db.py:66); `PRAGMA foreign_keys` has no effect inside a
transaction, so the `PRAGMA foreign_keys=off` of scripts 2 and 4 does nothing. With foreign keys on,
`DROP TABLE` first deletes all rows of the table, with cascading deletes, and fails if a row remains
that refers to a deleted one. Names are not case sensitive and are kept in upper case.
Not modelled: AUTOINCREMENT counters, conversion of values by column affinity (the scripts copy between
columns of the same type), other statements (they fail with an error).
-/
namespace PyULog

/-! ### tables -/

/-- a column with a foreign key -/
structure Fk where
  col : Str
  parent : Str
  parentCol : Str
  cascade : Bool
  deriving DecidableEq, Repr

/-- a table; `uniques` holds the primary key and the `UNIQUE` constraints -/
structure Table where
  cols : List (Str × Str) := []
  uniques : List (List Str) := []
  fks : List Fk := []
  rows : List (List SqlVal) := []
  deriving DecidableEq, Repr

/-- tables by name; indexes by name with table and column -/
structure Schema where
  tables : Dict Str Table := []
  indexes : Dict Str (Str × Str) := []
  deriving DecidableEq, Repr

/-! ### statements -/

/-- the statements of the shipped scripts -/
inductive SqlStmt where
  | createTable (name : Str) (t : Table)
  | createIndex (name table col : Str)
  /-- columns of the target and of the source; `none` = all -/
  | insertSelect (into : Str) (cols : Option (List Str)) (from_ : Str) (src : Option (List Str))
  | dropTable (name : Str)
  | renameTable (name to : Str)
  | renameColumn (table name to : Str)
  | addColumn (table name type : Str)
  | updateCast (table col from_ : Str)
  | foreignKeys
  deriving DecidableEq, Repr

/-- characters that are tokens of their own -/
def isPunct (c : Char) : Bool := c = '(' || c = ')' || c = ',' || c = '=' || c = '*'

/-- the current word, if any, before `rest` -/
def flushWord (acc : Str) (rest : List Str) : List Str :=
  match acc with
  | [] => rest
  | _ => acc.reverse :: rest

/-- tokens of a statement, in upper case; `acc` is the current word, reversed -/
def sqlTokens : Str → Str → List Str
  | acc, [] => flushWord acc []
  | acc, c :: cs =>
    if isSqlSpace c then flushWord acc (sqlTokens [] cs)
    else if isPunct c then flushWord acc ([c] :: sqlTokens [] cs)
    else sqlTokens (upperC c :: acc) cs

/-- tokens up to the closing parenthesis without the commas, and the rest -/
def nameList : List Str → Option (List Str × List Str)
  | [] => none
  | t :: ts =>
    if t = py! ")" then some ([], ts)
    else (nameList ts).map fun r => if t = py! "," then r else (t :: r.1, r.2)

/-- items of a parenthesised list, split at the commas outside of inner parentheses; `depth` counts
these, `cur` is the current item, reversed -/
def splitItems : Nat → List Str → List Str → Option (List (List Str))
  | _, _, [] => none
  | depth, cur, t :: ts =>
    if t = py! ")" ∧ depth = 0 then (if ts = [] then some [cur.reverse] else none)
    else if t = py! "," ∧ depth = 0 then (splitItems depth [] ts).map fun r => cur.reverse :: r
    else if t = py! "(" then splitItems (depth + 1) (t :: cur) ts
    else if t = py! ")" then splitItems (depth - 1) (t :: cur) ts
    else splitItems depth (t :: cur) ts

/-- one item of `CREATE TABLE` -/
def addItem (t : Table) (item : List Str) : Option Table :=
  match item with
  | [] => none
  | w :: rest =>
    if w = py! "UNIQUE" then
      match rest with
      | p :: names => if p = py! "(" then
          (nameList names).bind fun r =>
            if r.2 = [] then some { t with uniques := t.uniques ++ [r.1] } else none
        else none
      | [] => none
    else
      match rest with
      | [] => none
      | ty :: extra =>
        let t := { t with cols := t.cols ++ [(w, ty)] }
        if extra = [] then some t
        else if extra = [py! "PRIMARY", py! "KEY", py! "AUTOINCREMENT"] ∨ extra = [py! "UNIQUE"] then
          some { t with uniques := t.uniques ++ [[w]] }
        else
          match extra with
          | r :: parent :: p :: pc :: q :: tail =>
            if r = py! "REFERENCES" ∧ p = py! "(" ∧ q = py! ")" then
              if tail = [] then some { t with fks := t.fks ++ [⟨w, parent, pc, false⟩] }
              else if tail = [py! "ON", py! "DELETE", py! "CASCADE"] then
                some { t with fks := t.fks ++ [⟨w, parent, pc, true⟩] }
              else none
            else none
          | _ => none

/-- `CREATE TABLE` items -/
def addItems : Table → List (List Str) → Option Table
  | t, [] => some t
  | t, i :: is => (addItem t i).bind fun t' => addItems t' is

/-- drop an expected prefix of keywords -/
def dropKw (kw : List Str) (ts : List Str) : Option (List Str) :=
  if ts.take kw.length = kw then some (ts.drop kw.length) else none

/-- `SELECT <columns> FROM <table>` -/
def parseSelect (ts : List Str) : Option (Option (List Str) × Str) :=
  match ts with
  | s :: rest =>
    if s = py! "SELECT" then
      let names := rest.takeWhile (· ≠ py! "FROM")
      match rest.drop names.length with
      | [_, tbl] =>
        if names = [py! "*"] then some (none, tbl) else some (some (names.filter (· ≠ py! ",")), tbl)
      | _ => none
    else none
  | [] => none

/-- the statement of a list of tokens -/
def parseTokens (ts : List Str) : Option SqlStmt :=
  if ts = [py! "PRAGMA", py! "FOREIGN_KEYS", py! "=", py! "OFF"] ∨
      ts = [py! "PRAGMA", py! "FOREIGN_KEYS", py! "=", py! "ON"] then some .foreignKeys
  else
  match dropKw [py! "CREATE", py! "TABLE", py! "IF", py! "NOT", py! "EXISTS"] ts with
  | some (name :: p :: rest) =>
    if p = py! "(" then
      (splitItems 0 [] rest).bind fun items => (addItems {} items).map fun t => .createTable name t
    else none
  | some _ => none
  | none =>
  match dropKw [py! "CREATE", py! "INDEX", py! "IF", py! "NOT", py! "EXISTS"] ts with
  | some [name, on, table, p, col, q] =>
    if on = py! "ON" ∧ p = py! "(" ∧ q = py! ")" then some (.createIndex name table col) else none
  | some _ => none
  | none =>
  match dropKw [py! "INSERT", py! "OR", py! "IGNORE", py! "INTO"] ts with
  | some (name :: rest) =>
    match rest with
    | p :: more =>
      if p = py! "(" then
        (nameList more).bind fun r =>
          (parseSelect r.2).map fun q => .insertSelect name (some r.1) q.2 q.1
      else (parseSelect rest).map fun q => .insertSelect name none q.2 q.1
    | [] => none
  | some _ => none
  | none =>
  match dropKw [py! "DROP", py! "TABLE", py! "IF", py! "EXISTS"] ts with
  | some [name] => some (.dropTable name)
  | some _ => none
  | none =>
  match dropKw [py! "ALTER", py! "TABLE"] ts with
  | some (table :: rest) =>
    match rest with
    | [a, b, c] =>
      if a = py! "RENAME" ∧ b = py! "TO" then some (.renameTable table c) else none
    | [a, b, c, d] =>
      if a = py! "ADD" ∧ b = py! "COLUMN" then some (.addColumn table c d) else none
    | [a, b, c, d, e] =>
      if a = py! "RENAME" ∧ b = py! "COLUMN" ∧ d = py! "TO" then some (.renameColumn table c e) else none
    | _ => none
  | some _ => none
  | none =>
  match dropKw [py! "UPDATE"] ts with
  | some [table, set, col, eq, cast, p, src, as, int, q] =>
    if [set, eq, cast, p, as, int, q]
        = [py! "SET", py! "=", py! "CAST", py! "(", py! "AS", py! "INT", py! ")"] then
      some (.updateCast table col src)
    else none
  | _ => none

/-! ### execution -/

/-- position of a column -/
def colIdx (t : Table) (c : Str) : Option Nat :=
  t.cols.findIdx? fun p => p.1 = c

/-- value of a column in a row -/
def colVal (t : Table) (row : List SqlVal) (c : Str) : SqlVal :=
  match colIdx t c with
  | some i => row.getD i .null
  | none => .null

/-- a foreign key value refers to a key: the value is converted to the type of the (integer) key -/
def fkMatch (key child : SqlVal) : Bool :=
  match key, child with
  | .int a, .int b => a = b
  | .int a, .text s => s = intDec a
  | .text a, .text b => a = b
  | _, _ => false

/-- rows `row` and `other` agree on a `UNIQUE` constraint (NULLs are all different) -/
def conflicts (t : Table) (row other : List SqlVal) : Bool :=
  t.uniques.any fun u => u.all fun c =>
    decide (colVal t row c ≠ .null) && decide (colVal t row c = colVal t other c)

/-- every foreign key of the row is NULL or has its target; `none`: the parent table is missing -/
def fksHold (s : Schema) (t : Table) (row : List SqlVal) : Option Bool :=
  t.fks.foldr (fun fk acc =>
    if colVal t row fk.col = .null then acc
    else match s.tables.get? fk.parent with
      | none => none
      | some p => acc.map fun b =>
          b && p.rows.any fun r => fkMatch (colVal p r fk.parentCol) (colVal t row fk.col)) (some true)

/-- insert rows one by one; a row that violates `UNIQUE` is ignored -/
def insertRows (s : Schema) (name : Str) : Table → List (List SqlVal) → Except PyErr Table
  | t, [] => .ok t
  | t, row :: rows =>
    if t.rows.any (conflicts t row) then insertRows s name t rows
    else match fksHold { s with tables := s.tables.set name { t with rows := t.rows ++ [row] } } t row with
      | none => .error .operationalError
      | some false => .error .integrityError
      | some true => insertRows s name { t with rows := t.rows ++ [row] } rows

/-- row of the target table from a source row -/
def targetRow (t src : Table) (cols srcCols : List Str) (row : List SqlVal) : List SqlVal :=
  t.cols.map fun p =>
    match (cols.zip srcCols).find? (fun q => q.1 = p.1) with
    | some q => colVal src row q.2
    | none => .null

/-- deleting rows of a table: rows of other tables that refer to them by a cascading foreign key are
deleted as well. Result: all deleted rows, with their table, and the tables. -/
def cascade : Nat → Dict Str Table → Str → List (List SqlVal) →
    List (Str × List SqlVal) × Dict Str Table
  | 0, ts, _, _ => ([], ts)
  | fuel + 1, ts, name, gone =>
    match Dict.get? ts name with
    | none => ([], ts)
    | some parent =>
      let start : List (Str × List SqlVal) × Dict Str Table :=
        (gone.map fun r => (name, r), ts.map fun p =>
          if p.1 = name then (p.1, { p.2 with rows := p.2.rows.filter fun r => ¬ gone.contains r }) else p)
      ts.foldl (fun acc p =>
        p.2.fks.foldl (fun acc fk =>
          if fk.cascade ∧ fk.parent = name then
            let child := (Dict.get? acc.2 p.1).getD {}
            let del := child.rows.filter fun r => gone.any fun g =>
              fkMatch (colVal parent g fk.parentCol) (colVal child r fk.col)
            if del = [] then acc
            else
              let r := cascade fuel acc.2 p.1 del
              (acc.1 ++ r.1, r.2)
          else acc) acc) start

/-- a remaining row of a table other than `dropped` refers to a deleted row -/
def dangling (before after : Dict Str Table) (dropped : Str) (gone : List (Str × List SqlVal)) : Bool :=
  after.any fun p => decide (p.1 ≠ dropped) && p.2.fks.any fun fk => p.2.rows.any fun r =>
    gone.any fun g => decide (g.1 = fk.parent) &&
      match before.get? g.1 with
      | some parent => fkMatch (colVal parent g.2 fk.parentCol) (colVal p.2 r fk.col)
      | none => false

/-- magnitude of a binary64 number, rounded towards zero -/
def truncMag (bits : Nat) : Nat :=
  let e := bits / 2 ^ 52 % 2048
  let m := bits % 2 ^ 52
  if e = 0 then 0
  else if e < 1075 then (m + 2 ^ 52) / 2 ^ (1075 - e) else (m + 2 ^ 52) * 2 ^ (e - 1075)

/-- `CAST(x AS INT)`: truncation, with the limits of 64 bits. Texts are not modelled. -/
def castInt : SqlVal → Except PyErr SqlVal
  | .null => .ok .null
  | .int n => .ok (.int n)
  | .real x =>
    if x / 2 ^ 63 % 2 = 0 then .ok (.int (min (truncMag x : Int) ((2 : Int) ^ 63 - 1)))
    else .ok (.int (max (-(truncMag x : Int)) (-(2 : Int) ^ 63)))
  | .text _ => .error .unmodelled
  | .blob _ => .error .unmodelled

/-- `t` under another name -/
def renameKey (d : Dict Str α) (a b : Str) : Dict Str α := d.map fun p => if p.1 = a then (b, p.2) else p

/-- one statement -/
def execStmt (s : Schema) : SqlStmt → Except PyErr Schema
  | .foreignKeys => .ok s
  | .createTable name t =>
    if s.tables.has name then .ok s else .ok { s with tables := s.tables.set name t }
  | .createIndex name table col =>
    if s.indexes.has name then .ok s
    else match s.tables.get? table with
      | none => .error .operationalError
      | some t =>
        if (colIdx t col).isSome then .ok { s with indexes := s.indexes.set name (table, col) }
        else .error .operationalError
  | .insertSelect into cols from_ src =>
    match s.tables.get? into, s.tables.get? from_ with
    | some t, some f =>
      let cols := cols.getD (t.cols.map (·.1))
      let src := src.getD (f.cols.map (·.1))
      if cols.length ≠ src.length ∨ ¬ (cols.all fun c => (colIdx t c).isSome) ∨
          ¬ (src.all fun c => (colIdx f c).isSome) then .error .operationalError
      else (insertRows s into t (f.rows.map (targetRow t f cols src))).map fun t' =>
        { s with tables := s.tables.set into t' }
    | _, _ => .error .operationalError
  | .dropTable name =>
    match s.tables.get? name with
    | none => .ok s
    | some t =>
      let r := cascade (s.tables.length + 1) s.tables name t.rows
      if dangling s.tables r.2 name r.1 then .error .integrityError
      else .ok {
        tables := r.2.filter fun p => p.1 ≠ name
        indexes := s.indexes.filter fun p => p.2.1 ≠ name }
  | .renameTable name to =>
    if ¬ s.tables.has name ∨ s.tables.has to then .error .operationalError
    else .ok {
      tables := (renameKey s.tables name to).map fun p =>
        (p.1, { p.2 with fks := p.2.fks.map fun fk => if fk.parent = name then { fk with parent := to } else fk })
      indexes := s.indexes.map fun p => if p.2.1 = name then (p.1, to, p.2.2) else p }
  | .renameColumn table name to =>
    match s.tables.get? table with
    | none => .error .operationalError
    | some t =>
      if (colIdx t name).isNone ∨ (colIdx t to).isSome then .error .operationalError
      else
        let ren := fun c => if c = name then to else c
        .ok {
          tables := s.tables.map fun p =>
            if p.1 = table then (p.1, { p.2 with
              cols := p.2.cols.map fun c => (ren c.1, c.2)
              uniques := p.2.uniques.map fun u => u.map ren
              fks := p.2.fks.map fun fk => { fk with col := ren fk.col } })
            else (p.1, { p.2 with fks := p.2.fks.map fun fk =>
              if fk.parent = table then { fk with parentCol := ren fk.parentCol } else fk })
          indexes := s.indexes.map fun p => if p.2.1 = table then (p.1, table, ren p.2.2) else p }
  | .addColumn table name type =>
    match s.tables.get? table with
    | none => .error .operationalError
    | some t =>
      if (colIdx t name).isSome then .error .operationalError
      else
        let t' := { t with cols := t.cols ++ [(name, type)], rows := t.rows.map fun r => r ++ [.null] }
        .ok { s with tables := s.tables.set table t' }
  | .updateCast table col from_ =>
    match s.tables.get? table with
    | none => .error .operationalError
    | some t =>
      match colIdx t col, colIdx t from_ with
      | some i, some j =>
        (t.rows.mapM fun r => (castInt (r.getD j .null)).map fun v => r.set i v).map fun rows =>
          { s with tables := s.tables.set table { t with rows := rows } }
      | _, _ => .error .operationalError

/-- SQLite on the statements of the shipped scripts -/
def sqlite : Engine Schema where
  empty := {}
  exec s d :=
    match parseTokens (sqlTokens [] s) with
    | some st => (execStmt d.content st).map fun c => { d with content := c }
    | none => .error .operationalError

end PyULog
