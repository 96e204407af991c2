import Verif.Props.MigrateSql
import Verif.Lemmas.SqlKeep
import Verif.Lemmas.SqlDrop
/-
Property theorems about the stored logs in a migration with the shipped scripts (C68).
-/
namespace PyULog
open Spec

attribute [local irreducible] freshSchema ast1 ast2 ast4 ast5

/-- the schema of a database made by the scripts -/
theorem made_fresh {file : Option (SDb Schema)} {v : Nat} (hv : v ≤ 5) (h : MadeByScripts file v) :
    bareSchema (contents sqlite file).content = freshSchema v := by
  obtain ⟨e, h3, h4⟩ := h
  have h5 := applied_shipped (List.range' 1 v) ⟨{}, 0⟩
  rw [h3] at h5
  have h6 : runScripts (List.range' 1 v) {} = .ok e.content := h5.symm
  rw [fresh_upto v hv] at h6
  rw [h4, ← Except.ok.inj h6]

theorem fresh_made (d : SDb Schema) (v : Nat) (hv : v ≤ 5) (h : bareSchema d.content = freshSchema v) :
    MadeByScripts (some d) v := by
  have h5 := applied_shipped (List.range' 1 v) ⟨{}, 0⟩
  have h6 := fresh_upto v hv
  cases h7 : applied sqlite shippedBody (List.range' 1 v) ⟨{}, 0⟩ with
  | error e => rw [h7] at h5; rw [h6] at h5; cases h5
  | ok e =>
    rw [h7, h6] at h5
    exact ⟨e, h7, h.trans (Except.ok.inj h5).symm⟩

theorem run_fk (s : Schema) : runAst [.foreignKeys] s = .ok s := rfl

theorem bind_ok_run {α β : Type} (a : α) (f : α → Except PyErr β) : Except.bind (.ok a) f = f a := rfl

theorem retyped_nodup : retyped.Nodup := by decide

/-- the columns of `retyped` are there -/
theorem retyped_cols : ∀ v, v = 2 ∨ v = 3 → ∀ q ∈ retyped,
    (match (freshSchema v).tables.get? q.1 with
     | some t => decide (q.2 ∈ t.cols.map (·.1))
     | none => false) = true := by
  rintro v (rfl | rfl) <;> decide +kernel

theorem keep4 {s : Schema} (hb : bareSchema s = freshSchema 3) (hfull : FullRows s)
    (hnum : ∀ q ∈ retyped, ∀ t, s.tables.get? q.1 = some t → ∀ r ∈ t.rows, Numeric (colVal t r q.2)) :
    ∃ s', runAst ast4 s = .ok s' ∧ KeptData (fun n c => (n, c) ∈ retyped) s s' := by
  have hok : isOk (runAst ast4 (bareSchema s)) = true := by
    have := fresh_run 3 (by omega)
    rw [hb]
    show isOk (runAst (shippedAst 4) (freshSchema 3)) = true
    rw [this]
    rfl
  rw [ast4_eq, runAst_append, runAst_append] at hok
  have hok' : isOk (runAst (retyped.flatMap retypeStmts) (bareSchema s)) = true := by
    obtain ⟨b, h1, _⟩ := isOk_bind hok
    rw [run_fk, bind_ok_run] at h1
    rw [h1]
    rfl
  obtain ⟨s', h1, h2, _⟩ := retypes_run retyped s hok' hfull (by
    intro q hq t ht
    refine ⟨?_, hnum q hq t ht⟩
    have hc := retyped_cols 3 (Or.inr rfl) q hq
    rw [← hb, bareSchema] at hc
    simp only [get?_bare, ht, Option.map_some, decide_eq_true_eq] at hc
    exact hc) retyped_nodup
  refine ⟨s', ?_, h2⟩
  rw [ast4_eq, runAst_append, runAst_append]
  rw [run_fk, bind_ok_run, h1, bind_ok_run, run_fk]

theorem keep5 {s : Schema} (hb : bareSchema s = freshSchema 4) :
    ∃ s', runAst ast5 s = .ok s' ∧ s'.tables = s.tables := by
  refine indexes_run ast5 s ?_ ?_
  · have : ∀ st ∈ ast5, (match st with | .createIndex _ _ _ => true | _ => false) = true := by decide +kernel
    intro st hst
    have := this st hst
    cases st <;> simp at this ⊢
  · have := fresh_run 4 (by omega)
    rw [hb]
    show isOk (runAst (shippedAst 5) (freshSchema 4)) = true
    rw [this]
    rfl

theorem keep3 {s : Schema} (hb : bareSchema s = freshSchema 2) (hfull : FullRows s) :
    ∃ s', runAst ast3 s = .ok s' ∧ KeptData (fun _ _ => False) s s' ∧ FullRows s' := by
  have hok : isOk (runAst ast3 (bareSchema s)) = true := by
    have := fresh_run 2 (by omega)
    rw [hb]
    show isOk (runAst (shippedAst 3) (freshSchema 2)) = true
    rw [this]
    rfl
  obtain ⟨b, hb1, _⟩ := isOk_bind (show isOk ((execStmt (bareSchema s) _).bind _) = true from hok)
  obtain ⟨s', h1, h2⟩ := addColumn_run (by rw [hb1]; rfl) hfull
  refine ⟨s', ?_, h2, keptData_full h2 (fun n t' h => ?_)⟩
  · show (execStmt s _).bind _ = _
    rw [h1]
    rfl
  · rw [get?_isSome_keys, ← alter_keys rfl h1, ← get?_isSome_keys]
    exact ⟨t', h⟩

theorem runAst_bareEq {id : Nat} {s s' : Schema} (hid : id < 5) (hb : bareSchema s = freshSchema id)
    (h : runAst (shippedAst (id + 1)) s = .ok s') : bareSchema s' = freshSchema (id + 1) := by
  have := runAst_bare _ s s' (shippedAst_empty (id + 1)) h
  rw [hb, fresh_run id hid] at this
  exact (Except.ok.inj this).symm

theorem keptData_tables {casts : Str → Str → Prop} {s s1 s2 : Schema} (h : KeptData casts s s1)
    (e : s2.tables = s1.tables) : KeptData casts s s2 := by
  unfold KeptData
  rw [e]
  exact h

/-- **C68.** A database of version 2, 3 or 4 made by the scripts, with any rows in which the timestamps
are numbers: the migration succeeds, no table is lost, every table keeps its rows, in their order, with
the same values in all columns, except that the seven timestamp columns converted by script 4 hold the
integer part (`CAST(... AS INT)`) of their former value. -/
theorem C68_kept (d : SDb Schema) (v : Nat) (hv : d.version = v) (h2 : 2 ≤ v) (h4 : v ≤ 4) (force : Bool)
    (hm : MadeByScripts (some d) v) (hfull : FullRows d.content)
    (hnum : ∀ q ∈ retyped, ∀ t, d.content.tables.get? q.1 = some t → ∀ r ∈ t.rows, Numeric (colVal t r q.2)) :
    ∃ s', migrateDb sqlite (some shipped) false force (some d) = (some ⟨s', 5⟩, .ok ()) ∧
      KeptData (fun n c => v < 4 ∧ (n, c) ∈ retyped) d.content s' := by
  have hb : bareSchema d.content = freshSchema v := made_fresh (by omega) hm
  have hs : Start (some d) force v := Or.inr ⟨d, rfl, hv, Or.inl (by omega)⟩
  have fin : ∀ s', runScripts (idsFrom v) d.content = .ok s' →
      migrateDb sqlite (some shipped) false force (some d) = (some ⟨s', 5⟩, .ok ()) :=
    fun s' h => (migrate_shipped hs (by omega)).1 s' h
  have hv' : v = 2 ∨ v = 3 ∨ v = 4 := by omega
  rcases hv' with rfl | rfl | rfl
  · obtain ⟨s3, r3, k3, f3⟩ := keep3 hb hfull
    have b3 := runAst_bareEq (id := 2) (by omega) hb r3
    obtain ⟨s4, r4, k4⟩ := keep4 b3 f3 (by
      intro q hq t' ht' r' hr'
      have hn' : ∃ u, d.content.tables.get? q.1 = some u := by
        have hc := retyped_cols 2 (Or.inl rfl) q hq
        rw [← hb, bareSchema] at hc
        simp only [get?_bare] at hc
        cases hu : Dict.get? d.content.tables q.1 with
        | none => rw [hu] at hc; cases hc
        | some u => exact ⟨u, rfl⟩
      obtain ⟨t, ht⟩ := hn'
      obtain ⟨t2, e2, ⟨g, eg, kg⟩, _⟩ := k3 q.1 t ht
      rw [ht'] at e2
      cases e2
      rw [eg] at hr'
      obtain ⟨r, hr, rfl⟩ := List.mem_map.mp hr'
      have hc := retyped_cols 2 (Or.inl rfl) q hq
      rw [← hb, bareSchema] at hc
      simp only [get?_bare, ht, Option.map_some, decide_eq_true_eq] at hc
      rw [((kg r hr).2 q.2 hc).1 (by simp)]
      exact hnum q hq t ht r hr)
    have b4 := runAst_bareEq (id := 3) (by omega) b3 r4
    obtain ⟨s5, r5, e5⟩ := keep5 b4
    refine ⟨s5, fin s5 ?_, ?_⟩
    · rw [show idsFrom 2 = [3, 4, 5] from rfl]
      simp only [runScripts, shippedAst, r3, r4, r5, bind_ok_run]
    · refine keptData_mono (keptData_trans k3 (keptData_tables k4 e5) (by simp)) (fun n c => by simp)
  · obtain ⟨s4, r4, k4⟩ := keep4 hb hfull hnum
    have b4 := runAst_bareEq (id := 3) (by omega) hb r4
    obtain ⟨s5, r5, e5⟩ := keep5 b4
    refine ⟨s5, fin s5 ?_, ?_⟩
    · rw [show idsFrom 3 = [4, 5] from rfl]
      simp only [runScripts, shippedAst, r4, r5, bind_ok_run]
    · exact keptData_mono (keptData_tables k4 e5) (fun n c => by simp)
  · obtain ⟨s5, r5, e5⟩ := keep5 hb
    refine ⟨s5, fin s5 ?_, ?_⟩
    · rw [show idsFrom 4 = [5] from rfl]
      simp only [runScripts, shippedAst, r5, bind_ok_run]
    · intro n t ht
      exact ⟨t, by rw [e5]; exact ht, keptTable_mono (keptTable_refl (hfull n t ht)) (by simp), fun _ h => h⟩

/-- statements of script 2 up to the first `DROP TABLE` -/
def before2 : List SqlStmt := ast2.takeWhile fun st => match st with | .dropTable _ => false | _ => true

theorem ast2_split : ast2 = before2 ++ .dropTable (py! "ULOG") :: (ast2.drop (before2.length + 1)) := by
  decide +kernel

/-- the tables that script 2 fills -/
def newTables : List Str := (freshSchema 1).tables.keys.map (· ++ py! "_TMP")

theorem before2_writes : ∀ st ∈ before2, writesOnly newTables st = true := by decide +kernel

theorem newTables_new : ∀ n ∈ (freshSchema 1).tables.keys, n ∉ newTables := by decide +kernel

theorem before2_shape : (match runAst before2 (freshSchema 1) with
    | .ok b => b.tables.all fun p => !((freshSchema 1).tables.keys.contains p.1) || p.2.fks.all (!·.cascade)
    | .error _ => false) = true := by decide +kernel

theorem refers_iff {a b : SqlVal} : fkMatch a b = true ↔ Refers a b := by
  constructor
  · intro h
    cases a <;> cases b <;> simp only [fkMatch, decide_eq_true_eq, Bool.false_eq_true] at h
    · subst h; exact .int _
    · subst h; exact .digits _
    · subst h; exact .text _
  · intro h
    cases h <;> simp [fkMatch]

/-- **C68**, what fails: a database of version 1 that holds a log to which any row of another table
belongs cannot be migrated. `PRAGMA foreign_keys=off` is inside the transaction of script 2, where it has
no effect, so `DROP TABLE ULog` violates the foreign key of that row. The run ends with an error and
leaves the database as it was. -/
theorem C68_version1_refused (d : SDb Schema) (hv : d.version = 1) (hm : MadeByScripts (some d) 1)
    (ulog t : Table) (hu : d.content.tables.get? (py! "ULOG") = some ulog)
    (n : Str) (hn : n ≠ py! "ULOG") (ht : d.content.tables.get? n = some t)
    (fk : Fk) (hfk : fk ∈ t.fks) (hfp : fk.parent = py! "ULOG")
    (r g : List SqlVal) (hr : r ∈ t.rows) (hg : g ∈ ulog.rows)
    (href : Refers (colVal ulog g fk.parentCol) (colVal t r fk.col)) (force : Bool) :
    ∃ e, migrateDb sqlite (some shipped) false force (some d) = (some d, .error e) := by
  have hb : bareSchema d.content = freshSchema 1 := made_fresh (by omega) hm
  have hs : Start (some d) force 1 := Or.inr ⟨d, rfl, hv, Or.inl (by omega)⟩
  have herr : ∃ e, runAst ast2 d.content = .error e := by
    rw [ast2_split, runAst_append]
    cases hpre : runAst before2 d.content with
    | error e => exact ⟨e, rfl⟩
    | ok s1 =>
      have hkeys : ∀ m u, d.content.tables.get? m = some u → m ∈ (freshSchema 1).tables.keys := by
        intro m u h
        rw [← hb, ← bare_rows]
        exact (get?_isSome_keys _ _).mp ⟨u, h⟩
      have hsame : ∀ m u, d.content.tables.get? m = some u → s1.tables.get? m = some u := by
        intro m u h
        rw [run_writes_other before2_writes hpre (newTables_new m (hkeys m u h))]
        exact h
      have hshape := before2_shape
      have hb1 := runAst_bare before2 d.content s1 (fun a b hmem => shippedAst_empty 2 a b (by
        rw [show shippedAst 2 = ast2 from rfl, ast2_split]
        exact List.mem_append.mpr (Or.inl hmem))) hpre
      rw [hb] at hb1
      rw [hb1] at hshape
      have hno : NoCascade s1.tables n := by
        intro p hp hpn fk' hfk'
        have := List.all_eq_true.mp hshape p hp
        have hk := hkeys n t ht
        rw [Bool.or_eq_true] at this
        rcases this with h | h
        · rw [hpn] at h
          simp [hk] at h
        · simpa using List.all_eq_true.mp h fk' hfk'
      have := drop_fails (hsame _ _ hu) (hsame _ _ ht) hn hno hfk hfp hr hg (refers_iff.mpr href)
      refine ⟨.integrityError, ?_⟩
      rw [bind_ok_run, runAst, this]
      rfl
  obtain ⟨e, he⟩ := herr
  obtain ⟨done, d', h1, _, h3⟩ := C43_in_order sqlite shipped shippedBody force (some d) 1 hs (shipped_ok 1)
  have hids : idsFrom 1 = [2, 3, 4, 5] := rfl
  have hbody : applyBody sqlite (shippedBody 2) d = .error e := by
    rw [applyBody_shipped, show shippedAst 2 = ast2 from rfl, he]
    rfl
  have hd0 : done = [] := by
    cases done with
    | nil => rfl
    | cons x xs =>
      have hx : x = 2 := by
        rcases h3 with ⟨h, _⟩ | ⟨_, _, _, h, _⟩
        · rw [hids] at h; injection h
        · rw [hids] at h; injection h with h _; exact h.symm
      subst hx
      simp only [applied] at h1
      have : contents sqlite (some d) = d := rfl
      rw [this, hbody] at h1
      cases h1
  subst hd0
  cases h1
  rcases h3 with ⟨h, _⟩ | ⟨_, _, e', _, h, _⟩
  · rw [hids] at h; cases h
  · exact ⟨e', h⟩

/-! ### non-vacuity -/

/-- a version 1 database with one log and one message format -/
def Sample.populated1 : SDb Schema :=
  ⟨fill (fill (freshSchema 1) (py! "ULOG") [[.int 7, .int 1, .real 0, .real 0, .text [], .text [], .int 0, .int 0]])
    (py! "ULOGMESSAGEFORMAT") [[.int 1, .text (py! "m"), .int 7]], 1⟩

example : MadeByScripts (some Sample.populated1) 1 ∧
    ∃ ulog t fk r g, Sample.populated1.content.tables.get? (py! "ULOG") = some ulog ∧
      Sample.populated1.content.tables.get? (py! "ULOGMESSAGEFORMAT") = some t ∧ fk ∈ t.fks ∧
      fk.parent = py! "ULOG" ∧ r ∈ t.rows ∧ g ∈ ulog.rows ∧
      Refers (colVal ulog g fk.parentCol) (colVal t r fk.col) := by
  refine ⟨fresh_made _ _ (by omega) (by decide +kernel), ?_⟩
  have h : (match Sample.populated1.content.tables.get? (py! "ULOG"),
      Sample.populated1.content.tables.get? (py! "ULOGMESSAGEFORMAT") with
      | some u, some t => t.fks.any fun fk => decide (fk.parent = py! "ULOG") && t.rows.any fun r =>
          u.rows.any fun g => fkMatch (colVal u g fk.parentCol) (colVal t r fk.col)
      | _, _ => false) = true := by decide +kernel
  cases hu : Sample.populated1.content.tables.get? (py! "ULOG") with
  | none => rw [hu] at h; cases h
  | some u =>
    cases ht : Sample.populated1.content.tables.get? (py! "ULOGMESSAGEFORMAT") with
    | none => rw [hu, ht] at h; cases h
    | some t =>
      rw [hu, ht] at h
      obtain ⟨fk, hfk, h⟩ := List.any_eq_true.mp h
      rw [Bool.and_eq_true, decide_eq_true_eq] at h
      obtain ⟨r, hr, h2⟩ := List.any_eq_true.mp h.2
      obtain ⟨g, hg, h3⟩ := List.any_eq_true.mp h2
      exact ⟨u, t, fk, r, g, rfl, rfl, hfk, h.1, hr, hg, refers_iff.mp h3⟩

/-- a version 2 database with one log and a dropout; the timestamps are 2.5 and 3.0 -/
def Sample.populated2 : SDb Schema :=
  ⟨fill (fill (freshSchema 2) (py! "ULOG") [[.int 7, .text (py! "d"), .int 1, .real 4612811918334230528,
      .real 4613937818241073152, .text [], .text [], .int 0, .int 0]])
    (py! "ULOGMESSAGEDROPOUT") [[.real 4612811918334230528, .int 5, .int 7]], 2⟩

instance (v : SqlVal) : Decidable (Numeric v) := by
  cases v <;> simp only [Numeric] <;> infer_instance

theorem fullRows_of {s : Schema} (h : (s.tables.all fun p => p.2.rows.all fun r =>
    decide (r.length = p.2.cols.length)) = true) : FullRows s := by
  intro n t ht r hr
  have := List.all_eq_true.mp h _ (get?_mem_pair ht)
  simpa using List.all_eq_true.mp this r hr

theorem numeric_of {s : Schema} (h : (retyped.all fun q => s.tables.all fun p => decide (p.1 ≠ q.1) ||
    p.2.rows.all fun r => decide (Numeric (colVal p.2 r q.2))) = true) :
    ∀ q ∈ retyped, ∀ t, s.tables.get? q.1 = some t → ∀ r ∈ t.rows, Numeric (colVal t r q.2) := by
  intro q hq t ht r hr
  have := List.all_eq_true.mp (List.all_eq_true.mp h q hq) _ (get?_mem_pair ht)
  simp only [ne_eq, not_true_eq_false, decide_false, Bool.false_or, List.all_eq_true] at this
  simpa using this r hr

example : MadeByScripts (some Sample.populated2) 2 ∧ FullRows Sample.populated2.content ∧
    ∀ q ∈ retyped, ∀ t, Sample.populated2.content.tables.get? q.1 = some t →
      ∀ r ∈ t.rows, Numeric (colVal t r q.2) :=
  ⟨fresh_made _ _ (by omega) (by decide +kernel), fullRows_of (by decide +kernel),
    numeric_of (by decide +kernel)⟩

/-- the dropout of this database after the migration: the timestamp 2.5 has become 2 -/
example : (match runScripts [3, 4, 5] Sample.populated2.content with
    | .ok s => (s.tables.get? (py! "ULOGMESSAGEDROPOUT")).map fun t => t.rows.map fun r =>
        (colVal t r (py! "TIMESTAMP"), colVal t r (py! "DURATION"), colVal t r (py! "ULOGID"))
    | .error _ => none) = some [(.int 2, .int 5, .int 7)] := by decide +kernel

end PyULog
