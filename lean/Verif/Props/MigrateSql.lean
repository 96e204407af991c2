import Verif.Lemmas.SqlServes
import Verif.Props.Migrate
/-
Property theorems about the shipped migration scripts: crashes between scripts (C44) and the schema that
a migration ends with (C69).
-/
namespace PyULog
open Spec

/-- `migrate_db` with the shipped scripts, in terms of their parsed statements -/
theorem migrate_shipped {file : Option (SDb Schema)} {force : Bool} {v : Nat} (hs : Start file force v)
    (hv : v ≤ 5) :
    (∀ s', runScripts (idsFrom v) (contents sqlite file).content = .ok s' →
      migrateDb sqlite (some shipped) false force file = (some ⟨s', 5⟩, .ok ())) ∧
    (∀ file', migrateDb sqlite (some shipped) false force file = (file', .ok ()) →
      ∃ s', runScripts (idsFrom v) (contents sqlite file).content = .ok s' ∧ file' = some ⟨s', 5⟩) := by
  obtain ⟨done, d, h1, h2, h3⟩ := C43_in_order sqlite shipped shippedBody force file v hs (shipped_ok v)
  have hr := applied_shipped done (contents sqlite file)
  rw [h1] at hr
  rcases h3 with ⟨hd, hm⟩ | ⟨id, rest, e, hd, hm, href⟩
  · have hver : d.version = 5 := by
      rw [h2, hd]; simp only [idsFrom, List.length_range']; omega
    have hde : d = ⟨d.content, 5⟩ := by rw [← hver]
    rw [hd] at hr
    refine ⟨fun s' hs' => ?_, fun file' hf => ?_⟩
    · rw [← hr] at hs'
      have hs2 : d.content = s' := Except.ok.inj hs'
      rw [hm, hde, hs2]
    · rw [hm] at hf
      injection hf with hf _
      exact ⟨d.content, hr.symm, by rw [← hf, ← hde]⟩
  · have herr : runScripts (idsFrom v) (contents sqlite file).content = .error e := by
      have key : ∀ a b s s1, runScripts a s = .ok s1 → runScripts (a ++ b) s = runScripts b s1 := by
        intro a
        induction a with
        | nil => intro b s s1 h; cases h; rfl
        | cons x a ih =>
          intro b s s1 h
          simp only [List.cons_append, runScripts] at h ⊢
          obtain ⟨s2, h1, h2⟩ := except_bind_ok.mp h
          rw [h1]
          exact ih b s2 s1 h2
      rw [hd, key _ _ _ d.content hr.symm, runScripts]
      obtain ⟨t, ht, hone⟩ := shipped_one id (mem_idsFrom (v := v) (by rw [hd]; simp))
      rcases href with ⟨hn, _⟩ | ⟨t', ht', hb, _⟩ | ⟨_, _, _, he⟩
      · rw [ht] at hn; cases hn
      · rw [ht] at ht'; cases ht'; exact absurd hone.framed hb
      · rw [applyBody_shipped] at he
        rw [except_map_error.mp he]
        rfl
    refine ⟨fun s' hs' => ?_, fun file' hf => ?_⟩
    · rw [herr] at hs'; cases hs'
    · rw [hm] at hf; injection hf with _ hf; cases hf

/-! ### C69 -/

/-- the database was made by the first `v` shipped scripts and then filled with any rows -/
def Spec.MadeByScripts (file : Option (SDb Schema)) (v : Nat) : Prop :=
  ∃ e, applied sqlite shippedBody (List.range' 1 v) ⟨{}, 0⟩ = .ok e ∧
    bareSchema (contents sqlite file).content = e.content

/-- **C69.** Migrating a new database with the shipped scripts succeeds, and the result has all that
db.py needs. -/
theorem C69_new_database (force : Bool) :
    ∃ s, migrateDb sqlite (some shipped) false force none = (some ⟨s, 5⟩, .ok ()) ∧ Serves s := by
  refine ⟨freshSchema 5, ?_, fresh_serves⟩
  exact (migrate_shipped (Or.inl ⟨rfl, rfl⟩) (by omega)).1 _ (fresh_from 0 (by omega))

theorem migrated_bare {file file' : Option (SDb Schema)} {force : Bool} {v : Nat} (hs : Start file force v)
    (hv : v ≤ 5) (hm : MadeByScripts file v)
    (h : migrateDb sqlite (some shipped) false force file = (file', .ok ())) :
    ∃ s, file' = some ⟨s, 5⟩ ∧ bareSchema s = freshSchema 5 := by
  obtain ⟨s', h1, h2⟩ := (migrate_shipped hs hv).2 file' h
  refine ⟨s', h2, ?_⟩
  obtain ⟨e, h3, h4⟩ := hm
  have h5 := applied_shipped (List.range' 1 v) ⟨{}, 0⟩
  rw [h3] at h5
  have h6 : runScripts (List.range' 1 v) {} = .ok e.content := h5.symm
  rw [fresh_upto v hv] at h6
  have h7 := runScripts_bare _ _ _ h1
  rw [h4, ← Except.ok.inj h6, fresh_from v hv] at h7
  exact (Except.ok.inj h7).symm

/-- **C69.** Whenever the migration of a database of any version, with any rows, succeeds, the result
has version 5 and all that db.py needs: every table and column of its statements, unique digests,
datasets and keys, and foreign keys through which a deleted log takes everything with it. -/
theorem C69_serves (file file' : Option (SDb Schema)) (force : Bool) (v : Nat) (hs : Start file force v)
    (hv : v ≤ 5) (hm : MadeByScripts file v)
    (h : migrateDb sqlite (some shipped) false force file = (file', .ok ())) :
    ∃ s, file' = some ⟨s, 5⟩ ∧ Serves s := by
  obtain ⟨s, h1, h2⟩ := migrated_bare hs hv hm h
  refine ⟨s, h1, serves_bare ?_⟩
  rw [h2]
  exact fresh_serves

/-- **C69.** Databases of the versions 2, 3 and 4 have no index at all: script 2 makes the only index of
version 1 again under the name it already has (which does nothing), then drops the table it belongs to. -/
theorem C69_no_index (d : SDb Schema) (v : Nat) (h2 : 2 ≤ v) (h4 : v ≤ 4) (hm : MadeByScripts (some d) v) :
    d.content.indexes = [] ∧ (freshSchema 1).indexes.length = 1 := by
  refine ⟨?_, by decide +kernel⟩
  obtain ⟨e, h3, he⟩ := hm
  have h5 := applied_shipped (List.range' 1 v) ⟨{}, 0⟩
  rw [h3] at h5
  have h6 : runScripts (List.range' 1 v) {} = .ok e.content := h5.symm
  rw [fresh_upto v (by omega)] at h6
  have h7 : d.content.indexes = (freshSchema v).indexes := by
    rw [Except.ok.inj h6, ← he]; rfl
  rw [h7]
  have : v = 2 ∨ v = 3 ∨ v = 4 := by omega
  rcases this with rfl | rfl | rfl <;> decide +kernel

/-- every column that refers to another table has an index, every index is for a column that exists, and no
name and no column has two indexes -/
def Spec.Indexed (s : Schema) : Prop :=
  (∀ p ∈ s.tables, ∀ fk ∈ p.2.fks, ∃ i ∈ s.indexes, i.2 = (p.1, fk.col)) ∧
  (∀ i ∈ s.indexes, ∃ p ∈ s.tables, p.1 = i.2.1 ∧ i.2.2 ∈ p.2.cols.map (·.1)) ∧
  (s.indexes.map (·.1)).Nodup ∧ (s.indexes.map (·.2)).Nodup

theorem fresh_indexed : Indexed (freshSchema 5) := by
  have h : ((freshSchema 5).tables.all fun p => p.2.fks.all fun fk =>
      (freshSchema 5).indexes.any fun i => decide (i.2 = (p.1, fk.col))) = true ∧
      ((freshSchema 5).indexes.all fun i => (freshSchema 5).tables.any fun p =>
        decide (p.1 = i.2.1) && decide (i.2.2 ∈ p.2.cols.map (·.1))) = true := by decide +kernel
  refine ⟨fun p hp fk hfk => ?_, fun i hi => ?_, by decide +kernel, by decide +kernel⟩
  · obtain ⟨i, hi, h'⟩ := List.any_eq_true.mp (List.all_eq_true.mp (List.all_eq_true.mp h.1 p hp) fk hfk)
    exact ⟨i, hi, by simpa using h'⟩
  · obtain ⟨p, hp, h'⟩ := List.any_eq_true.mp (List.all_eq_true.mp h.2 i hi)
    rw [Bool.and_eq_true, decide_eq_true_eq, decide_eq_true_eq] at h'
    exact ⟨p, hp, h'⟩

/-- **C69.** After a successful migration, from any version, every column by which rows are looked up or deleted
along a foreign key has an index. -/
theorem C69_indexed (file file' : Option (SDb Schema)) (force : Bool) (v : Nat) (hs : Start file force v)
    (hv : v ≤ 5) (hm : MadeByScripts file v)
    (h : migrateDb sqlite (some shipped) false force file = (file', .ok ())) :
    ∃ s, file' = some ⟨s, 5⟩ ∧ Indexed s := by
  obtain ⟨s, h1, h2⟩ := migrated_bare hs hv hm h
  refine ⟨s, h1, ?_⟩
  have hf := fresh_indexed
  rw [← h2] at hf
  refine ⟨fun p hp fk hfk => ?_, fun i hi => ?_, hf.2.2⟩
  · exact hf.1 (p.1, bareTable p.2) (List.mem_map.mpr ⟨p, hp, rfl⟩) fk hfk
  · obtain ⟨p, hp, h3, h4⟩ := hf.2.1 i hi
    obtain ⟨q, hq, rfl⟩ := List.mem_map.mp hp
    exact ⟨q, hq, h3, h4⟩

/-- non-vacuity: a version 2 database with one log -/
example :
    let d : SDb Schema := ⟨fill (freshSchema 2) (py! "ULOG") [[.int 1, .text (py! "d"), .int 1, .real 0,
      .real 4611686018427387904, .text [], .text [], .int 0, .int 0]], 2⟩
    Start (some d) false 2 ∧ MadeByScripts (some d) 2 ∧
      ∃ file', migrateDb sqlite (some shipped) false false (some d) = (file', .ok ()) := by
  intro d
  have hs : Start (some d) false 2 := Or.inr ⟨d, rfl, rfl, Or.inl (by decide)⟩
  refine ⟨hs, ?_, ?_⟩
  · have h5 := applied_shipped (List.range' 1 2) ⟨{}, 0⟩
    have h6 := fresh_upto 2 (by omega)
    cases h : applied sqlite shippedBody (List.range' 1 2) ⟨{}, 0⟩ with
    | error e => rw [h] at h5; rw [h6] at h5; cases h5
    | ok e =>
      rw [h, h6] at h5
      refine ⟨e, h, ?_⟩
      have : e.content = freshSchema 2 := Except.ok.inj h5
      rw [this]
      decide +kernel
  · have : isOk (runScripts (idsFrom 2) (contents sqlite (some d)).content) = true := by decide +kernel
    cases hr : runScripts (idsFrom 2) (contents sqlite (some d)).content with
    | error e => rw [hr] at this; cases this
    | ok s' => exact ⟨_, (migrate_shipped hs (by omega)).1 s' hr⟩

/-! ### C44 for the shipped scripts -/

theorem script3_once (s s' : Schema) (h : runAst ast3 s = .ok s') :
    runAst ast3 s' = .error .operationalError := by
  obtain ⟨s1, h1, h2⟩ := except_bind_ok.mp h
  cases h2
  simp only [execStmt] at h1
  split at h1
  · cases h1
  · split at h1
    · cases h1
    · cases h1
      rename_i t _ _
      let t' : Table := { t with
        cols := t.cols ++ [(py! "VALUEJSON", py! "JSON")], rows := t.rows.map fun r => r ++ [.null] }
      have hc : (colIdx t' (py! "VALUEJSON")).isSome = true := by
        rw [colIdx_isSome]; exact ⟨(py! "VALUEJSON", py! "JSON"), by simp [t'], rfl⟩
      simp only [ast3, runAst, execStmt, Dict.get?_set_self]
      rw [if_pos hc]
      rfl

theorem script4_once (s s' : Schema) (h : runAst ast4 s = .ok s') :
    runAst ast4 s' = .error .operationalError := by
  have e : ast4 = [.foreignKeys, .renameColumn (py! "ULOG") (py! "STARTTIMESTAMP") (py! "STARTTIMESTAMP_OLD")]
      ++ ast4.drop 2 := rfl
  rw [e, runAst_append] at h
  obtain ⟨s2, h1, h2⟩ := except_bind_ok.mp h
  have h1' : execStmt s (.renameColumn (py! "ULOG") (py! "STARTTIMESTAMP") (py! "STARTTIMESTAMP_OLD")) = .ok s2 := by
    simp only [runAst] at h1
    obtain ⟨s0, h3, h4⟩ := except_bind_ok.mp h1
    cases h3
    obtain ⟨s3, h5, h6⟩ := except_bind_ok.mp h4
    cases h6
    exact h5
  have hc : HasCol s2 (py! "ULOG") (py! "STARTTIMESTAMP_OLD") := by
    obtain ⟨t, ht, hn, _, rfl⟩ := exec_renameColumn h1'
    refine ⟨_, by rw [get?_mapKey, ht]; rfl, ?_⟩
    rw [colIdx_isSome] at hn ⊢
    obtain ⟨p, hp, hpc⟩ := hn
    simp only [renCol, if_true]
    exact ⟨(if p.1 = py! "STARTTIMESTAMP" then py! "STARTTIMESTAMP_OLD" else p.1, p.2),
      List.mem_map.mpr ⟨p, hp, rfl⟩, by simp [hpc]⟩
  have ha : ∀ st ∈ ast4.drop 2, isAlter st = true := by decide +kernel
  have hr : ∀ to, .renameColumn (py! "ULOG") (py! "STARTTIMESTAMP_OLD") to ∉ ast4.drop 2 := by
    intro to hm
    simp [ast4] at hm
  obtain ⟨t, ht, hsome⟩ := hasCol_run ha hr h2 hc
  rw [e, runAst_append]
  simp only [runAst, execStmt, ht, hsome, Except.bind, or_true, if_true]

/-- **C44**, where it fails for the shipped scripts: scripts 3 and 4 fail on their own result, whatever
the database contains. If the process dies after the `COMMIT` of such a script and before the version is
recorded, every later run fails with `OperationalError` and changes nothing. -/
theorem C44_stuck (id : Nat) (hid : id = 3 ∨ id = 4) (d y : SDb Schema) (hv : d.version = (id - 1 : Nat))
    (hy : applyBody sqlite (shippedBody id) d = .ok y) (force : Bool) :
    migrateDb sqlite (some shipped) false force (some y) = (some y, .error .operationalError) := by
  have hrest : ∃ rest, idsFrom (id - 1) = id :: rest := by
    rcases hid with rfl | rfl
    · exact ⟨[4, 5], rfl⟩
    · exact ⟨[5], rfl⟩
  obtain ⟨rest, hrest⟩ := hrest
  refine (C44_not_recorded sqlite sqlite_keeps shipped shippedBody id rest d y (id - 1) force
    (hrest ▸ shipped_ok (id - 1)) hrest (shipped_present (v := id - 1) (hrest ▸ by simp)) hv
    (Or.inl (by omega)) hy).1 .operationalError ?_
  rw [applyBody_shipped] at hy ⊢
  obtain ⟨c, h1, h2⟩ := except_map_ok.mp hy
  subst h2
  have : runAst (shippedAst id) c = .error .operationalError := by
    rcases hid with rfl | rfl
    · exact script3_once _ _ h1
    · exact script4_once _ _ h1
  simp only
  rw [this]
  rfl

/-- non-vacuity: the states are left behind by crashes in the migration of a version 2 database -/
example :
    some ⟨freshSchema 3, 2⟩ ∈ crashFiles sqlite shipped false (some ⟨freshSchema 2, 2⟩) ∧
    some ⟨freshSchema 4, 3⟩ ∈ crashFiles sqlite shipped false (some ⟨freshSchema 2, 2⟩) := by
  decide +kernel

/-- **C44**, where it holds for the shipped scripts (partial, see `C44_stuck`): scripts 1 and 5 change
nothing when they are executed again, whatever the database contains, so that after a crash between
`COMMIT` and recording the next run (after script 1: with `force`) ends as an uninterrupted one. -/
theorem C44_rerun_partial (id : Nat) (hid : id = 1 ∨ id = 5) (d y : SDb Schema)
    (hv : d.version = (id - 1 : Nat)) (force : Bool) (hf : id = 1 → force = true)
    (hy : applyBody sqlite (shippedBody id) d = .ok y) :
    migrateDb sqlite (some shipped) false force (some y)
      = migrateDb sqlite (some shipped) false force (some d) := by
  have hrest : ∃ rest, idsFrom (id - 1) = id :: rest := by
    rcases hid with rfl | rfl
    · exact ⟨[2, 3, 4, 5], rfl⟩
    · exact ⟨[], rfl⟩
  obtain ⟨rest, hrest⟩ := hrest
  refine (C44_not_recorded sqlite sqlite_keeps shipped shippedBody id rest d y (id - 1) force
    (hrest ▸ shipped_ok (id - 1)) hrest (shipped_present (v := id - 1) (hrest ▸ by simp)) hv
    (by rcases hid with rfl | rfl
        · exact Or.inr (hf rfl)
        · exact Or.inl (by decide)) hy).2 ?_
  rw [applyBody_shipped] at hy ⊢
  obtain ⟨c, h1, h2⟩ := except_map_ok.mp hy
  subst h2
  have hcr : ∀ st ∈ shippedAst id, isCreate st = true := by
    rcases hid with rfl | rfl <;> decide +kernel
  simp only
  rw [rerun_creates hcr h1]
  rfl

/-- **C44**: after a crash between the `COMMIT` of script 2 and its recording, in the migration of a new
database, the next run succeeds: the tables are those of an uninterrupted run; the indexes are the same
but listed in another order. -/
theorem C44_rerun_second :
    some ⟨freshSchema 2, 1⟩ ∈ crashFiles sqlite shipped false (some ⟨freshSchema 1, 1⟩) ∧
    ∃ s s', migrateDb sqlite (some shipped) false false (some ⟨freshSchema 2, 1⟩) = (some ⟨s', 5⟩, .ok ()) ∧
      migrateDb sqlite (some shipped) false false (some ⟨freshSchema 1, 1⟩) = (some ⟨s, 5⟩, .ok ()) ∧
      s'.tables = s.tables ∧ s'.indexes.Perm s.indexes := by
  refine ⟨by decide +kernel, ?_⟩
  have h : (match runScripts (idsFrom 1) (freshSchema 2), runScripts (idsFrom 1) (freshSchema 1) with
      | .ok a, .ok b => decide (a.tables = b.tables) && a.indexes.isPerm b.indexes
      | _, _ => false) = true := by decide +kernel
  have hs : ∀ s, Start (some (⟨s, 1⟩ : SDb Schema)) false 1 :=
    fun s => Or.inr ⟨_, rfl, rfl, Or.inl (by decide)⟩
  cases h1 : runScripts (idsFrom 1) (freshSchema 2) with
  | error e => rw [h1] at h; cases h
  | ok a =>
    cases h2 : runScripts (idsFrom 1) (freshSchema 1) with
    | error e => rw [h1, h2] at h; cases h
    | ok b =>
      rw [h1, h2] at h
      simp only [Bool.and_eq_true, decide_eq_true_eq, List.isPerm_iff] at h
      exact ⟨b, a, (migrate_shipped (hs _) (by omega)).1 a h1, (migrate_shipped (hs _) (by omega)).1 b h2,
        h.1, h.2⟩

end PyULog
