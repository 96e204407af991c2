import Verif.Lemmas.ScriptPath
import Verif.Props.Names
/-
C101: the migration scripts are read from the directory that is given.
-/
namespace PyULog
open Spec

/-- what follows the directory in the path -/
theorem pathJoin_tail {dir : Str} (hd : dir ≠ []) : pathJoin dir (py! "pyulog.{migration_id}.sql") =
    dir ++ ((if dir.getLast? = some '/' then [] else ['/']) ++ py! "pyulog.{migration_id}.sql") := by
  rw [pathJoin_folder hd (by decide), Spec.folder]
  split <;> simp

theorem tail_format {dir v : Str} {n : Nat}
    (hn : ((if dir.getLast? = some '/' then [] else ['/']) ++ py! "pyulog.{migration_id}.sql").length < n) :
    formatId v n ((if dir.getLast? = some '/' then [] else ['/']) ++ py! "pyulog.{migration_id}.sql") =
      .ok ((if dir.getLast? = some '/' then [] else ['/']) ++ (py! "pyulog." ++ v ++ py! ".sql")) := by
  split at hn
  · rename_i h
    obtain ⟨m, rfl⟩ : ∃ m, n = m + 26 := ⟨n - 26, by simp at hn; omega⟩
    rw [if_pos h]
    exact formatId_tail
  · rename_i h
    obtain ⟨m, rfl⟩ : ∃ m, n = m + 26 + 1 := ⟨n - 27, by simp at hn; omega⟩
    rw [if_neg h]
    have := formatId_plain (v := v) (s := ['/']) (tl := py! "pyulog.{migration_id}.sql") (n := m + 26) (by decide)
    rw [formatId_tail] at this
    exact this

theorem scriptPath_plain {dir : Str} {id : Nat} (hd : dir ≠ []) (hb : NoBraces dir) :
    scriptPath dir id = .ok (scriptName dir id) := by
  simp only [scriptPath]
  rw [pathJoin_tail hd]
  have e : ∀ t : Str, (dir ++ t).length + 1 = (t.length + 1) + dir.length := by
    intro t
    simp only [List.length_append]
    omega
  rw [e, formatId_plain hb, tail_format (by omega)]
  show Except.ok _ = _
  congr 1
  simp only [scriptName, List.append_assoc]

/-- the numbers that are in use -/
theorem natDec_short {id : Nat} (h : id ≤ 5) : (natDec id).length < 14 := by
  have : ∀ id < 6, (natDec id).length < 14 := by decide
  exact this id (by omega)

/-- C101: the path of a script is the file of that name in the directory exactly if the name of the directory has no
curly brackets: `str.format` is applied to the directory too -/
theorem C101_path_partial {dir : Str} {id : Nat} (hd : dir ≠ []) (hid : id ≤ 5) :
    scriptPath dir id = .ok (scriptName dir id) ↔ NoBraces dir := by
  refine ⟨fun h => ?_, scriptPath_plain hd⟩
  apply Decidable.not_not.mp
  intro hb
  simp only [scriptPath] at h
  rw [pathJoin_tail hd] at h
  have hs := (formatId_short (x := (if dir.getLast? = some '/' then [] else ['/']) ++
      (py! "pyulog." ++ natDec id ++ py! ".sql")) (natDec_short hid) (by simp) (by
      intro c hc
      split at hc
      · cases hc; decide
      · cases hc; decide) (fun n hn => tail_format hn) (by
      simp only [List.length_append, List.length_cons, List.length_nil]
      omega) _ _ _ (by simp) h).2 hb
  simp only [scriptName, List.length_append, List.length_cons, List.length_nil] at hs
  omega

/-- the directory of the shipped scripts, with and without a slash at the end -/
example : scriptPath (py! "/usr/lib/pyulog/sql") 3 = .ok (py! "/usr/lib/pyulog/sql/pyulog.3.sql") ∧
    scriptPath (py! "sql/") 5 = .ok (py! "sql/pyulog.5.sql") :=
  ⟨scriptPath_plain (by decide) (by decide), scriptPath_plain (by decide) (by decide)⟩

theorem readScript_plain {files : Str → Option Str} {dir : Str} {id : Nat} (hd : dir ≠ []) (hb : NoBraces dir) :
    readScript files dir id =
      (readMigration (fun id => files (scriptName dir id)) id).map fun t => (scriptName dir id, t) := by
  unfold readScript
  rw [scriptPath_plain hd hb]
  rfl

theorem migrateLoopAt_plain {σ : Type} {E : Engine σ} {files : Str → Option Str} {dir : Str} {noop : Bool} (hd : dir ≠ [])
    (hb : NoBraces dir) (ids : List Nat) (c : Conn σ) :
    migrateLoopAt E files dir noop ids c = migrateLoop E (fun id => files (scriptName dir id)) noop ids c := by
  induction ids generalizing c with
  | nil => rfl
  | cons id ids ih =>
    rw [migrateLoopAt, migrateLoop, readScript_plain hd hb]
    cases hr : readMigration (fun id => files (scriptName dir id)) id with
    | error e => rfl
    | ok t =>
      show (if noop = true then _ else _) = (if noop = true then _ else _)
      rw [ih]
      split
      · rfl
      · cases hx : executescript E c t with
        | mk c' o =>
          cases o with
          | none => exact ih c'
          | some e => rfl

/-- C101: without curly brackets in the name of the directory `migrate_db` works on the files of that directory, so that
everything that is proved about the migration holds -/
theorem C101_migrate {σ : Type} {E : Engine σ} {isDir : Str → Bool} {files : Str → Option Str} {dir : Str} {noop force : Bool}
    {file : Option (SDb σ)} (hd : dir ≠ []) (hb : NoBraces dir) :
    migrateDbAt E isDir files dir noop force file =
      migrateDb E (if isDir dir then some fun id => files (scriptName dir id) else none) noop force file := by
  unfold migrateDbAt migrateDb
  cases isDir dir with
  | false => rfl
  | true =>
    show (match readSchemaVersion file force with | .error e => _ | .ok v => _) = _
    simp only [if_true]
    cases readSchemaVersion file force with
    | error e => rfl
    | ok v =>
      show (some (closeWith (migrateLoopAt E files dir noop _ _)).1, (closeWith (migrateLoopAt E files dir noop _ _)).2) = _
      rw [migrateLoopAt_plain hd hb]

/-- C101, negation: the scripts of the directory `v{1}` are not found; for `a{{b}}` those of another directory, `a{b}`, are
executed; for `{migration_id}` every script comes from its own directory -/
theorem C101_other_directory :
    (∀ files, readScript files (py! "v{1}") 1 = .error .indexError) ∧
    (∀ files, readScript files (py! "my{dir}") 1 = .error .keyError) ∧
    (∀ files, readScript files (py! "a{") 1 = .error .valueError) ∧
    scriptPath (py! "a{{b}}") 2 = .ok (py! "a{b}/pyulog.2.sql") ∧
    scriptPath (py! "s{migration_id}") 4 = .ok (py! "s4/pyulog.4.sql") := by
  have e : ∀ {files : Str → Option Str} {dir : Str} {id : Nat} {e : PyErr}, scriptPath dir id = .error e →
      readScript files dir id = .error e := by
    intro files dir id e h
    unfold readScript
    rw [h]
    rfl
  exact ⟨fun _ => e rfl, fun _ => e rfl, fun _ => e rfl, rfl, rfl⟩

/-- with curly brackets in the name no script of the directory is ever read: the path is another one or the call fails -/
theorem C101_never {files : Str → Option Str} {dir path text : Str} {id : Nat} (hd : dir ≠ []) (hid : id ≤ 5)
    (hb : ¬ NoBraces dir) (h : readScript files dir id = .ok (path, text)) : path ≠ scriptName dir id := by
  intro hp
  subst hp
  apply hb
  rw [← C101_path_partial hd hid]
  unfold readScript at h
  cases hs : scriptPath dir id with
  | error e =>
    rw [hs] at h
    cases h
  | ok p =>
    rw [hs] at h
    cases hm : readMigration (fun _ => files p) id with
    | error e =>
      have : (do let text ← readMigration (fun _ => files p) id; Except.ok (p, text) : Except PyErr (Str × Str)) =
        .ok (scriptName dir id, text) := h
      rw [hm] at this
      cases this
    | ok t =>
      have : (do let text ← readMigration (fun _ => files p) id; Except.ok (p, text) : Except PyErr (Str × Str)) =
        .ok (scriptName dir id, text) := h
      rw [hm] at this
      cases this
      rfl

/-- the script of another directory is executed -/
example : readScript (fun p => if p = py! "a{b}/pyulog.1.sql" then some (py! "BEGIN;COMMIT;") else none) (py! "a{{b}}") 1 =
    .ok (py! "a{b}/pyulog.1.sql", py! "BEGIN;COMMIT;\nPRAGMA user_version = 1;") ∧ ¬ NoBraces (py! "a{{b}}") :=
  ⟨rfl, by decide⟩

end PyULog
