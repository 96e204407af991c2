import Verif.Props.MigrateRows
import Verif.Lemmas.SqlOnly
/-
Property theorems about databases of version 1 in a migration with the shipped scripts (C68).
-/
namespace PyULog
open Spec

attribute [local irreducible] freshSchema ast1 ast2 ast4 ast5

/-- scripts 3, 4 and 5 on a database with the schema of version 2 -/
theorem keep345 {s : Schema} (hb : bareSchema s = freshSchema 2) (hfull : FullRows s)
    (hnum : ∀ q ∈ retyped, ∀ t, s.tables.get? q.1 = some t → ∀ r ∈ t.rows, Numeric (colVal t r q.2)) :
    ∃ s', runScripts [3, 4, 5] s = .ok s' ∧ KeptData (fun n c => (n, c) ∈ retyped) s s' := by
  have hm : MadeByScripts (some ⟨s, 2⟩) 2 := fresh_made _ _ (by omega) hb
  obtain ⟨s', h1, h2⟩ := C68_kept ⟨s, 2⟩ 2 rfl (by omega) (by omega) false hm hfull hnum
  have hs : Start (some (⟨s, 2⟩ : SDb Schema)) false 2 := Or.inr ⟨_, rfl, rfl, Or.inl (by omega)⟩
  obtain ⟨s2, h3, h4⟩ := (migrate_shipped hs (by omega)).2 _ h1
  have e : s' = s2 := by
    have := Option.some.inj h4
    exact congrArg SDb.content this
  subst e
  exact ⟨s', h3, keptData_mono h2 (fun n c => by simp)⟩

/-! ### script 2 in pieces -/

def logCols : List Str := [py! "ID", py! "FILEVERSION", py! "STARTTIMESTAMP", py! "LASTTIMESTAMP",
  py! "COMPATFLAGS", py! "INCOMPATFLAGS", py! "SYNCCOUNT", py! "HASSYNC"]

def part1 : List SqlStmt := ast2.take 2
def part2 : List SqlStmt := before2.drop 3
def part3 : List SqlStmt := ((ast2.drop (before2.length + 1)).takeWhile fun st =>
  match st with | .renameTable _ _ => false | _ => true)
def part4 : List SqlStmt := ast2.drop (before2.length + 1 + part3.length + 1)

theorem ast2_parts : ast2 = part1 ++ (.insertSelect (py! "ULOG_TMP") (some logCols) (py! "ULOG") (some logCols) ::
    (part2 ++ .dropTable (py! "ULOG") :: (part3 ++ .renameTable (py! "ULOG_TMP") (py! "ULOG") :: part4))) := by
  decide +kernel

theorem before2_parts : before2 = part1 ++ (.insertSelect (py! "ULOG_TMP") (some logCols) (py! "ULOG") (some logCols) ::
    part2) := by decide +kernel

theorem part1_quiet : ∀ st ∈ part1, quiet [py! "ULOG"] st = true := by decide +kernel
theorem part2_quiet : ∀ st ∈ part2, quiet [py! "ULOG", py! "ULOG_TMP"] st = true := by decide +kernel
theorem part3_quiet : ∀ st ∈ part3, quiet [py! "ULOG_TMP"] st = true := by decide +kernel
theorem part4_quiet : ∀ st ∈ part4, quiet [py! "ULOG"] st = true := by decide +kernel

theorem noRows {sts : List SqlStmt} (h : ∀ st ∈ sts, st ∈ ast2) : ∀ n t, .createTable n t ∈ sts → t.rows = [] :=
  fun n t hm => shippedAst_empty 2 n t (h _ hm)

/-- the schema before the copy of the logs -/
theorem schema_copy : (match runAst part1 (freshSchema 1) with
    | .ok b => match b.tables.get? (py! "ULOG_TMP"), b.tables.get? (py! "ULOG") with
      | some t, some f => decide (b.tables.keys.Nodup) && decide (t.fks = []) && decide (t.uniques = [[py! "ID"], [py! "SHA256SUM"]]) &&
          decide (t.cols.map (·.1) = py! "ID" :: py! "SHA256SUM" :: logCols.drop 1) &&
          decide (f.cols.map (·.1) = logCols)
      | _, _ => false
    | .error _ => false) = true := by decide +kernel

/-- the schema before the old logs are dropped -/
theorem schema_drop : (match runAst before2 (freshSchema 1) with
    | .ok b => b.tables.all fun p => decide (p.1 ∉ [py! "ULOG", py! "ULOG_TMP"]) || decide (p.2.fks = [])
    | .error _ => false) = true := by decide +kernel

/-- version 2 has all columns of version 1 -/
theorem schema_more : ((freshSchema 1).tables.all fun p =>
    match (freshSchema 2).tables.get? p.1 with
    | some t => p.2.cols.all fun c => t.cols.any fun c' => decide (c'.1 = c.1)
    | none => false) = true := by decide +kernel

theorem schema_logs : (match (freshSchema 1).tables.get? (py! "ULOG"), (freshSchema 2).tables.get? (py! "ULOG") with
    | some f, some t => decide (t.cols.map (·.1) = py! "ID" :: py! "SHA256SUM" :: logCols.drop 1) &&
          decide (f.cols.map (·.1) = logCols)
    | _, _ => false) = true := by decide +kernel

theorem schema_same : (freshSchema 1).tables.keys.Nodup ∧
    ∀ n ∈ (freshSchema 2).tables.keys, n ∈ (freshSchema 1).tables.keys := by decide +kernel

theorem part1_writes : ∀ st ∈ part1, writesOnly newTables st = true := by decide +kernel

theorem mem_get?_nodup {α : Type} {d : Dict Str α} (h : d.keys.Nodup) {p : Str × α} (hp : p ∈ d) :
    d.get? p.1 = some p.2 := by
  induction d with
  | nil => cases hp
  | cons q d ih =>
    obtain ⟨a, u⟩ := q
    have h' := List.nodup_cons.mp h
    rcases List.mem_cons.mp hp with rfl | hp
    · simp [Dict.get?]
    · have : a ≠ p.1 := by
        intro e
        apply h'.1
        rw [e]
        exact List.mem_map.mpr ⟨p, hp, rfl⟩
      simp only [Dict.get?, if_neg this]
      exact ih h'.2 hp

theorem mem_set_nodup {α : Type} {d : Dict Str α} (h : d.keys.Nodup) {k : Str} {v : α} {p : Str × α}
    (hp : p ∈ Dict.set d k v) : (p ∈ d ∧ p.1 ≠ k) ∨ p = (k, v) := by
  induction d with
  | nil => simp [Dict.set] at hp; exact Or.inr hp
  | cons q d ih =>
    obtain ⟨a, u⟩ := q
    have h' := List.nodup_cons.mp h
    simp only [Dict.set] at hp
    split at hp
    · rename_i e
      rcases List.mem_cons.mp hp with hp | hp
      · right; rw [hp, e]
      · left
        refine ⟨List.mem_cons.mpr (Or.inr hp), fun e2 => h'.1 ?_⟩
        rw [e, ← e2]
        exact List.mem_map.mpr ⟨p, hp, rfl⟩
    · rename_i e
      rcases List.mem_cons.mp hp with hp | hp
      · left; rw [hp]; exact ⟨List.mem_cons_self, e⟩
      · rcases ih h'.2 hp with ⟨h1, h2⟩ | h1
        · left; exact ⟨List.mem_cons.mpr (Or.inr h1), h2⟩
        · exact Or.inr h1

theorem colIdx_names (t : Table) (c : Str) : colIdx t c = (t.cols.map (·.1)).findIdx? (· = c) := by
  rw [List.findIdx?_map]
  rfl

theorem colVal_names {t t' : Table} (h : t.cols.map (·.1) = t'.cols.map (·.1)) (r : List SqlVal) (c : Str) :
    colVal t r c = colVal t' r c := by
  unfold colVal
  rw [colIdx_names t, colIdx_names t', h]

theorem bare_keys (s : Schema) : (bareSchema s).tables.keys = s.tables.keys := by
  simp [bareSchema, bareTables, Dict.keys, Function.comp_def]

/-- script 2 on a database in which only the table of the logs has rows -/
theorem script2_run {s : Schema} (hb : bareSchema s = freshSchema 1) {u : Table}
    (hu : s.tables.get? (py! "ULOG") = some u)
    (hids : u.rows.Pairwise fun a b => colVal u a (py! "ID") ≠ colVal u b (py! "ID"))
    (hempty : ∀ n t, n ≠ py! "ULOG" → s.tables.get? n = some t → t.rows = []) :
    ∃ s', runAst ast2 s = .ok s' ∧ ∃ tmp : Table,
      tmp.cols.map (·.1) = py! "ID" :: py! "SHA256SUM" :: logCols.drop 1 ∧
      RowsAre (fun n => if n = py! "ULOG" then u.rows.map (targetRow tmp u logCols logCols) else []) s' := by
  have hok : isOk (runAst ast2 (bareSchema s)) = true := by
    rw [hb]
    show isOk (runAst (shippedAst 2) (freshSchema 1)) = true
    rw [fresh_run 1 (by omega)]
    rfl
  have hmem : ∀ st, st ∈ part1 ∨ st ∈ part2 ∨ st ∈ part3 ∨ st ∈ part4 → st ∈ ast2 := by
    intro st h
    rw [ast2_parts]
    simp only [List.mem_append, List.mem_cons]
    rcases h with h | h | h | h
    · exact Or.inl h
    · exact Or.inr (Or.inr (Or.inl h))
    · exact Or.inr (Or.inr (Or.inr (Or.inr (Or.inl h))))
    · exact Or.inr (Or.inr (Or.inr (Or.inr (Or.inr (Or.inr h)))))
  rw [ast2_parts, runAst_append] at hok
  obtain ⟨b1, hb1, hok1⟩ := isOk_bind hok
  -- up to the copy of the logs
  let F0 : Str → List (List SqlVal) := fun n => if n = py! "ULOG" then u.rows else []
  have hkeys : s.tables.keys.Nodup := by rw [← bare_keys, hb]; exact schema_same.1
  have hs0 : RowsAre F0 s := by
    intro p hp
    have hg := mem_get?_nodup hkeys hp
    by_cases e : p.1 = py! "ULOG"
    · rw [e, hu] at hg
      rw [← Option.some.inj hg]
      exact (if_pos e).symm
    · rw [hempty _ _ e hg]
      exact (if_neg e).symm
  obtain ⟨s1, r1, rows1⟩ := quiet_runs (F := F0) (S := [py! "ULOG"]) (fun n hn => if_neg (by simpa using hn))
    part1 s hs0 part1_quiet (by rw [hb1]; rfl)
  have e1 := runAst_bare part1 s s1 (noRows fun st h => hmem st (Or.inl h)) r1
  have hb1' : b1 = bareSchema s1 := by rw [hb1] at e1; exact Except.ok.inj e1
  subst hb1'
  have hc := schema_copy
  rw [← hb, hb1] at hc
  simp only [bareSchema, get?_bare] at hc
  cases ht : s1.tables.get? (py! "ULOG_TMP") with
  | none => rw [ht] at hc; cases hc
  | some tmp =>
  have hf : s1.tables.get? (py! "ULOG") = some u := by
    rw [run_writes_other part1_writes r1 (newTables_new _ (by
      rw [← hb, bare_keys]; exact (get?_isSome_keys _ _).mp ⟨u, hu⟩))]
    exact hu
  rw [ht, hf] at hc
  simp only [Option.map_some, Bool.and_eq_true, decide_eq_true_eq] at hc
  obtain ⟨⟨⟨⟨hnd, hfk⟩, huq⟩, htc⟩, hfc⟩ := hc
  replace hnd : s1.tables.keys.Nodup := by rw [← bare_keys]; exact of_decide_eq_true hnd
  replace hfk : tmp.fks = [] := hfk
  replace huq : tmp.uniques = [[py! "ID"], [py! "SHA256SUM"]] := huq
  replace htc : tmp.cols.map (·.1) = py! "ID" :: py! "SHA256SUM" :: logCols.drop 1 := htc
  replace hfc : u.cols.map (·.1) = logCols := hfc
  have htr : tmp.rows = [] := (rows1 _ (get?_mem_pair ht)).trans (if_neg (by simp))
  -- the copy
  let rows' := u.rows.map (targetRow tmp u logCols logCols)
  have hin : insertRows s1 (py! "ULOG_TMP") tmp rows' = .ok { tmp with rows := rows' } := by
    have := insertRows_all s1 (py! "ULOG_TMP") rows' tmp hfk (by rw [htr]; intro _ _ o ho; cases ho) (by
      rw [List.pairwise_map]
      refine hids.imp ?_
      intro a b hab
      unfold conflicts
      rw [huq]
      have hidt : py! "ID" ∈ tmp.cols.map (·.1) := by rw [htc]; simp
      have h1 : ∀ r, colVal tmp (targetRow tmp u logCols logCols r) (py! "ID") = colVal u r (py! "ID") :=
        fun r => targetRow_val (by decide) hidt
      have h2 : ∀ r, colVal tmp (targetRow tmp u logCols logCols r) (py! "SHA256SUM") = .null :=
        fun r => targetRow_null (by decide)
      simp only [List.any_cons, List.any_nil, List.all_cons, List.all_nil, h1, h2]
      simp only [ne_eq, decide_not, Bool.and_true, Bool.or_false, decide_true, Bool.not_true,
        Bool.and_eq_false_imp, Bool.not_eq_true', decide_eq_false_iff_not]
      exact fun _ h => hab h.symm)
    rw [htr, List.nil_append] at this
    exact this
  let s2 : Schema := { s1 with tables := s1.tables.set (py! "ULOG_TMP") { tmp with rows := rows' } }
  have hex : execStmt s1 (.insertSelect (py! "ULOG_TMP") (some logCols) (py! "ULOG") (some logCols)) = .ok s2 := by
    simp only [execStmt, ht, hf, Option.getD_some]
    refine (if_neg ?_).trans ?_
    · simp only [ne_eq, not_true_eq_false, false_or, not_or, Decidable.not_not, List.all_eq_true]
      constructor
      · intro c hc
        rw [colIdx_isSome]
        have : c ∈ tmp.cols.map (·.1) := by
          rw [htc]
          exact (by decide : ∀ c ∈ logCols, c ∈ py! "ID" :: py! "SHA256SUM" :: logCols.drop 1) c hc
        simpa using this
      · intro c hc
        rw [colIdx_isSome]
        rw [← hfc] at hc
        simpa using hc
    · show (insertRows s1 (py! "ULOG_TMP") tmp rows').map _ = _
      rw [hin]
      rfl
  let F1 : Str → List (List SqlVal) := fun n => if n = py! "ULOG" then u.rows else
    if n = py! "ULOG_TMP" then rows' else []
  have rows2 : RowsAre F1 s2 := by
    intro p hp
    rcases mem_set_nodup hnd hp with ⟨h1, h2⟩ | rfl
    · rw [rows1 p h1]
      show (if p.1 = py! "ULOG" then u.rows else []) = if p.1 = py! "ULOG" then u.rows else
        if p.1 = py! "ULOG_TMP" then rows' else []
      rw [if_neg h2]
    · rfl
  obtain ⟨b2, hb2, hok2⟩ := isOk_bind (show isOk ((execStmt (bareSchema s1) _).bind _) = true from hok1)
  have e2 := execStmt_bare s1 s2 _ (by intro n t h; cases h) hex
  have hb2' : b2 = bareSchema s2 := by rw [hb2] at e2; exact Except.ok.inj e2
  subst hb2'
  -- up to the drop of the old logs
  rw [runAst_append] at hok2
  obtain ⟨b3, hb3, hok3⟩ := isOk_bind hok2
  obtain ⟨s3, r3, rows3⟩ := quiet_runs (F := F1) (S := [py! "ULOG", py! "ULOG_TMP"]) (fun n hn => by
      simp only [List.mem_cons, List.not_mem_nil, or_false, not_or] at hn
      show (if _ then _ else _) = _
      rw [if_neg hn.1, if_neg hn.2])
    part2 s2 rows2 part2_quiet (by rw [hb3]; rfl)
  have e3 := runAst_bare part2 s2 s3 (noRows fun st h => hmem st (Or.inr (Or.inl h))) r3
  have hb3' : b3 = bareSchema s3 := by rw [hb3] at e3; exact Except.ok.inj e3
  subst hb3'
  have hd := schema_drop
  rw [before2_parts, ← hb, runAst_append, hb1, bind_ok_run, runAst, hb2, bind_ok_run, hb3] at hd
  -- the drop
  obtain ⟨s4, r4, rows4, hno4⟩ := drop_run (F := F1) (S := [py! "ULOG", py! "ULOG_TMP"]) (fun n hn => by
      simp only [List.mem_cons, List.not_mem_nil, or_false, not_or] at hn
      show (if _ then _ else _) = _
      rw [if_neg hn.1, if_neg hn.2]) rows3 (by
      intro p hp hpS
      have := List.all_eq_true.mp hd (p.1, bareTable p.2) (List.mem_map.mpr ⟨p, hp, rfl⟩)
      simp only [Bool.or_eq_true, decide_eq_true_eq] at this
      rcases this with h | h
      · exact absurd hpS h
      · exact h) (py! "ULOG")
  obtain ⟨b4, hb4, hok4⟩ := isOk_bind (show isOk ((execStmt (bareSchema s3) _).bind _) = true from hok3)
  have e4 := execStmt_bare s3 s4 _ (by intro n t h; cases h) r4
  have hb4' : b4 = bareSchema s4 := by rw [hb4] at e4; exact Except.ok.inj e4
  subst hb4'
  let F2 : Str → List (List SqlVal) := fun n => if n = py! "ULOG_TMP" then rows' else []
  have rows4' : RowsAre F2 s4 := by
    intro p hp
    rw [rows4 p hp]
    exact if_neg (hno4 p hp)
  -- the other drops
  rw [runAst_append] at hok4
  obtain ⟨b5, hb5, hok5⟩ := isOk_bind hok4
  obtain ⟨s5, r5, rows5⟩ := quiet_runs (F := F2) (S := [py! "ULOG_TMP"]) (fun n hn => if_neg (by simpa using hn))
    part3 s4 rows4' part3_quiet (by rw [hb5]; rfl)
  have e5 := runAst_bare part3 s4 s5 (noRows fun st h => hmem st (Or.inr (Or.inr (Or.inl h)))) r5
  have hb5' : b5 = bareSchema s5 := by rw [hb5] at e5; exact Except.ok.inj e5
  subst hb5'
  -- the new name
  obtain ⟨b6, hb6, hok6⟩ := isOk_bind (show isOk ((execStmt (bareSchema s5) _).bind _) = true from hok5)
  obtain ⟨s6, r6, rows6⟩ := rename_run rows5 (py! "ULOG_TMP") (py! "ULOG") (by rw [hb6]; rfl)
  have e6 := execStmt_bare s5 s6 _ (by intro n t h; cases h) r6
  have hb6' : b6 = bareSchema s6 := by rw [hb6] at e6; exact Except.ok.inj e6
  subst hb6'
  let F3 : Str → List (List SqlVal) := fun n => if n = py! "ULOG" then rows' else []
  have rows6' : RowsAre F3 s6 := by
    intro p hp
    rw [rows6 p hp]
    by_cases h1 : p.1 = py! "ULOG"
    · exact (if_pos h1).trans ((if_pos rfl).trans (if_pos h1).symm)
    · refine (if_neg h1).trans (Eq.trans ?_ (if_neg h1).symm)
      by_cases h2 : p.1 = py! "ULOG_TMP"
      · exact if_pos h2
      · exact (if_neg h2).trans (if_neg h2)
  obtain ⟨s7, r7, rows7⟩ := quiet_runs (F := F3) (S := [py! "ULOG"]) (fun n hn => if_neg (by simpa using hn))
    part4 s6 rows6' part4_quiet hok6
  refine ⟨s7, ?_, tmp, htc, rows7⟩
  rw [ast2_parts, runAst_append, r1, bind_ok_run, runAst, hex, bind_ok_run, runAst_append, r3, bind_ok_run, runAst,
    r4, bind_ok_run, runAst_append, r5, bind_ok_run, runAst, r6, bind_ok_run, r7]

theorem keys_get? {s : Schema} {b : Schema} (hb : bareSchema s = b) {n : Str} (h : n ∈ b.tables.keys) :
    ∃ t, s.tables.get? n = some t := (get?_isSome_keys _ _).mpr (by rw [← bare_keys, hb]; exact h)

/-- script 2 keeps the logs of a database in which only the table of the logs has rows -/
theorem script2_kept {s : Schema} (hb : bareSchema s = freshSchema 1) {u : Table}
    (hu : s.tables.get? (py! "ULOG") = some u)
    (hids : u.rows.Pairwise fun a b => colVal u a (py! "ID") ≠ colVal u b (py! "ID"))
    (hempty : ∀ n t, n ≠ py! "ULOG" → s.tables.get? n = some t → t.rows = []) :
    ∃ s', runAst ast2 s = .ok s' ∧ KeptData (fun _ _ => False) s s' ∧ FullRows s' := by
  obtain ⟨s', hr, tmp, htc, hrows⟩ := script2_run hb hu hids hempty
  have hb' : bareSchema s' = freshSchema 2 := runAst_bareEq (id := 1) (by omega) hb hr
  have hk : KeptData (fun _ _ => False) s s' := by
    intro n t ht
    have hbt : (freshSchema 1).tables.get? n = some (bareTable t) := by
      rw [← hb]
      show Dict.get? (bareTables s.tables) n = _
      rw [get?_bare, ht]
      rfl
    have hm := List.all_eq_true.mp schema_more _ (get?_mem_pair hbt)
    dsimp only at hm
    cases h2 : (freshSchema 2).tables.get? n with
    | none => rw [h2] at hm; cases hm
    | some t2 =>
      rw [h2] at hm
      obtain ⟨t', ht', he⟩ := get?_of_bare (s := s') (n := n) (u := t2) (by rw [hb']; exact h2)
      refine ⟨t', ht', ?_, ?_⟩
      · have hrow := hrows _ (get?_mem_pair ht')
        by_cases e : n = py! "ULOG"
        · subst e
          rw [hu] at ht
          cases ht
          have hl := schema_logs
          rw [hbt, h2] at hl
          simp only [Bool.and_eq_true, decide_eq_true_eq] at hl
          have hn : t'.cols.map (·.1) = tmp.cols.map (·.1) := by
            rw [htc, ← hl.1, ← he]
            rfl
          refine ⟨targetRow tmp u logCols logCols, hrow.trans (if_pos rfl), fun r hr => ⟨?_, fun c hc => ⟨fun _ => ?_, fun h => h.elim⟩⟩⟩
          · have := congrArg List.length hn
            simp only [List.length_map] at this
            rw [this]
            simp [targetRow]
          · rw [colVal_names hn]
            have hc' : c ∈ logCols := by
              rw [← hl.2]
              exact hc
            refine targetRow_val hc' ?_
            rw [htc]
            exact (by decide : ∀ c ∈ logCols, c ∈ py! "ID" :: py! "SHA256SUM" :: logCols.drop 1) c hc'
        · have h0 := hempty n t e ht
          refine ⟨id, ?_, ?_⟩
          · rw [h0]
            exact hrow.trans (if_neg e)
          · rw [h0]
            intro r hr
            cases hr
      · intro c hc
        obtain ⟨p, hp, rfl⟩ := List.mem_map.mp hc
        have := List.all_eq_true.mp hm p hp
        obtain ⟨p', hp', e⟩ := List.any_eq_true.mp this
        rw [decide_eq_true_eq] at e
        rw [← he] at hp'
        exact List.mem_map.mpr ⟨p', hp', e⟩
  refine ⟨s', hr, hk, keptData_full hk (fun n t' h => ?_)⟩
  refine keys_get? hb (schema_same.2 n ?_)
  rw [← hb', bare_keys]
  exact (get?_isSome_keys _ _).mp ⟨t', h⟩

theorem retyped_cols1 : ∀ q ∈ retyped,
    (match (freshSchema 1).tables.get? q.1 with
     | some t => decide (q.2 ∈ t.cols.map (·.1))
     | none => false) = true := by decide +kernel

/-- **C68.** A database of version 1 with logs to which no row of another table belongs: the migration
succeeds and keeps the logs. -/
theorem C68_version1_logs (d : SDb Schema) (hv : d.version = 1) (force : Bool) (hm : MadeByScripts (some d) 1)
    {u : Table} (hu : d.content.tables.get? (py! "ULOG") = some u)
    (hids : u.rows.Pairwise fun a b => colVal u a (py! "ID") ≠ colVal u b (py! "ID"))
    (hempty : ∀ n t, n ≠ py! "ULOG" → d.content.tables.get? n = some t → t.rows = [])
    (hnum : ∀ r ∈ u.rows, Numeric (colVal u r (py! "STARTTIMESTAMP")) ∧ Numeric (colVal u r (py! "LASTTIMESTAMP"))) :
    ∃ s', migrateDb sqlite (some shipped) false force (some d) = (some ⟨s', 5⟩, .ok ()) ∧
      KeptData (fun n c => (n, c) ∈ retyped) d.content s' := by
  have hb : bareSchema d.content = freshSchema 1 := made_fresh (by omega) hm
  have hs : Start (some d) force 1 := Or.inr ⟨d, rfl, hv, Or.inl (by omega)⟩
  obtain ⟨s2, r2, k2, f2⟩ := script2_kept hb hu hids hempty
  have b2 : bareSchema s2 = freshSchema 2 := runAst_bareEq (id := 1) (by omega) hb r2
  have hnum0 : ∀ q ∈ retyped, ∀ t, d.content.tables.get? q.1 = some t → ∀ r ∈ t.rows, Numeric (colVal t r q.2) := by
    intro q hq t ht r hr
    by_cases e : q.1 = py! "ULOG"
    · rw [e, hu] at ht
      cases ht
      rcases (by decide : ∀ q ∈ retyped, q.1 = py! "ULOG" → q.2 = py! "STARTTIMESTAMP" ∨ q.2 = py! "LASTTIMESTAMP")
        q hq e with h | h <;> rw [h]
      · exact (hnum r hr).1
      · exact (hnum r hr).2
    · rw [hempty _ t e ht] at hr
      cases hr
  obtain ⟨s5, r5, k5⟩ := keep345 b2 f2 (by
    intro q hq t' ht' r' hr'
    have hc := retyped_cols1 q hq
    rw [← hb, bareSchema] at hc
    simp only [get?_bare] at hc
    cases ht : Dict.get? d.content.tables q.1 with
    | none => rw [ht] at hc; cases hc
    | some t =>
      rw [ht] at hc
      obtain ⟨t2, e2, ⟨g, eg, kg⟩, _⟩ := k2 q.1 t ht
      rw [ht'] at e2
      cases e2
      rw [eg] at hr'
      obtain ⟨r, hr, rfl⟩ := List.mem_map.mp hr'
      rw [((kg r hr).2 q.2 (by exact of_decide_eq_true hc)).1 (by simp)]
      exact hnum0 q hq t ht r hr)
  refine ⟨s5, (migrate_shipped hs (by omega)).1 s5 ?_, ?_⟩
  · rw [show idsFrom 1 = [2, 3, 4, 5] from rfl]
    show (runAst (shippedAst 2) d.content).bind _ = _
    rw [show shippedAst 2 = ast2 from rfl, r2, bind_ok_run]
    exact r5
  · exact keptData_mono (keptData_trans k2 k5 (by simp)) (fun n c => by simp)

/-! ### exactly these databases can be migrated -/

/-- every row belongs to a row of another table by each of its foreign keys -/
def Spec.Referred (s : Schema) : Prop :=
  ∀ n t, s.tables.get? n = some t → ∀ r ∈ t.rows, ∀ fk ∈ t.fks, ∃ p, s.tables.get? fk.parent = some p ∧
    ∃ g ∈ p.rows, Refers (colVal p g fk.parentCol) (colVal t r fk.col)

/-- following foreign keys, `k` steps lead to a table that refers to the logs -/
def climbs (s : Schema) : Nat → Str → Bool
  | k, n =>
    match s.tables.get? n with
    | none => false
    | some t => (t.fks.any fun fk => decide (fk.parent = py! "ULOG")) ||
      match k with
      | 0 => false
      | k + 1 => t.fks.any fun fk => decide (fk.parent ≠ py! "ULOG") && climbs s k fk.parent

theorem schema_climbs : ∀ n ∈ (freshSchema 1).tables.keys, n = py! "ULOG" ∨ climbs (freshSchema 1) 3 n = true := by
  decide +kernel

/-- a row leads to a row that belongs to a log -/
theorem climb_row {s : Schema} (href : Referred s) : ∀ (k : Nat) (n : Str) (t : Table),
    climbs (bareSchema s) k n = true → n ≠ py! "ULOG" → s.tables.get? n = some t → t.rows ≠ [] →
    ∃ m v fk, m ≠ py! "ULOG" ∧ s.tables.get? m = some v ∧ fk ∈ v.fks ∧ fk.parent = py! "ULOG" ∧ v.rows ≠ [] := by
  intro k
  induction k with
  | zero =>
    intro n t hc hn ht hr
    have hb : (bareSchema s).tables.get? n = some (bareTable t) := by
      show Dict.get? (bareTables s.tables) n = _
      rw [get?_bare, ht]; rfl
    unfold climbs at hc
    rw [hb] at hc
    simp only [Bool.or_false] at hc
    obtain ⟨fk, hfk, e⟩ := List.any_eq_true.mp hc
    exact ⟨n, t, fk, hn, ht, hfk, by simpa using e, hr⟩
  | succ k ih =>
    intro n t hc hn ht hr
    have hb : (bareSchema s).tables.get? n = some (bareTable t) := by
      show Dict.get? (bareTables s.tables) n = _
      rw [get?_bare, ht]; rfl
    unfold climbs at hc
    rw [hb] at hc
    simp only [Bool.or_eq_true] at hc
    rcases hc with hc | hc
    · obtain ⟨fk, hfk, e⟩ := List.any_eq_true.mp hc
      exact ⟨n, t, fk, hn, ht, hfk, by simpa using e, hr⟩
    · obtain ⟨fk, hfk, e⟩ := List.any_eq_true.mp hc
      simp only [Bool.and_eq_true, decide_eq_true_eq] at e
      obtain ⟨r, hr'⟩ := List.exists_mem_of_ne_nil _ hr
      obtain ⟨p, hp, g, hg, _⟩ := href n t ht r hr' fk hfk
      exact ih fk.parent p e.2 e.1 hp (List.ne_nil_of_mem hg)

/-- **C68**, exactly: a version 1 database whose rows all refer to existing rows is migrated if and only if
no table except that of the logs has rows. -/
theorem C68_version1_iff (d : SDb Schema) (hv : d.version = 1) (force : Bool) (hm : MadeByScripts (some d) 1)
    (href : Referred d.content) {u : Table}
    (hu : d.content.tables.get? (py! "ULOG") = some u)
    (hids : u.rows.Pairwise fun a b => colVal u a (py! "ID") ≠ colVal u b (py! "ID"))
    (hnum : ∀ r ∈ u.rows, Numeric (colVal u r (py! "STARTTIMESTAMP")) ∧ Numeric (colVal u r (py! "LASTTIMESTAMP"))) :
    (∃ d', migrateDb sqlite (some shipped) false force (some d) = (d', .ok ())) ↔
      ∀ n t, n ≠ py! "ULOG" → d.content.tables.get? n = some t → t.rows = [] := by
  constructor
  · rintro ⟨d', hd⟩ n t hn ht
    refine Classical.byContradiction fun hr => ?_
    have hb : bareSchema d.content = freshSchema 1 := made_fresh (by omega) hm
    have hk : n ∈ (freshSchema 1).tables.keys := by
      rw [← hb, bare_keys]
      exact (get?_isSome_keys _ _).mp ⟨t, ht⟩
    have hc := (schema_climbs n hk).resolve_left hn
    rw [← hb] at hc
    obtain ⟨m, v, fk, hm', hv', hfk, hp, hne⟩ := climb_row href 3 n t hc hn ht hr
    obtain ⟨r, hr'⟩ := List.exists_mem_of_ne_nil _ hne
    obtain ⟨p, hpp, g, hg, hmt⟩ := href m v hv' r hr' fk hfk
    rw [hp, hu] at hpp
    cases hpp
    obtain ⟨e, he⟩ := C68_version1_refused d hv hm u v hu m hm' hv' fk hfk hp r g hr' hg hmt force
    rw [he] at hd
    injection hd with _ h
    cases h
  · intro hempty
    obtain ⟨s', h, _⟩ := C68_version1_logs d hv force hm hu hids hempty hnum
    exact ⟨_, h⟩

/-! ### non-vacuity -/

/-- a version 1 database with two logs -/
def Sample.logs1 : SDb Schema :=
  ⟨fill (freshSchema 1) (py! "ULOG") [
    [.int 7, .int 1, .real 4612811918334230528, .real 4613937818241073152, .text [], .text [], .int 0, .int 0],
    [.int 8, .int 1, .real 0, .real 0, .text [], .text [], .int 0, .int 0]], 1⟩

theorem Sample.logs1_facts : ((match Sample.logs1.content.tables.get? (py! "ULOG") with
    | some u => decide (u.rows.length = 2) &&
        decide (u.rows.Pairwise fun a b => colVal u a (py! "ID") ≠ colVal u b (py! "ID")) &&
        u.rows.all fun r => decide (Numeric (colVal u r (py! "STARTTIMESTAMP"))) &&
          decide (Numeric (colVal u r (py! "LASTTIMESTAMP")))
    | none => false) &&
    Sample.logs1.content.tables.all fun p => (decide (p.1 = py! "ULOG") && decide (p.2.fks = [])) ||
      p.2.rows.isEmpty) = true := by
  decide +kernel

example : MadeByScripts (some Sample.logs1) 1 ∧ Referred Sample.logs1.content ∧
    ∃ u, Sample.logs1.content.tables.get? (py! "ULOG") = some u ∧ u.rows.length = 2 ∧
      (u.rows.Pairwise fun a b => colVal u a (py! "ID") ≠ colVal u b (py! "ID")) ∧
      (∀ r ∈ u.rows, Numeric (colVal u r (py! "STARTTIMESTAMP")) ∧ Numeric (colVal u r (py! "LASTTIMESTAMP"))) ∧
      ∀ n t, n ≠ py! "ULOG" → Sample.logs1.content.tables.get? n = some t → t.rows = [] := by
  have h := Sample.logs1_facts
  rw [Bool.and_eq_true] at h
  refine ⟨fresh_made _ _ (by omega) (by decide +kernel), ?_, ?_⟩
  · intro n t ht r hr fk hfk
    have := List.all_eq_true.mp h.2 _ (get?_mem_pair ht)
    simp only [Bool.or_eq_true, Bool.and_eq_true, decide_eq_true_eq, List.isEmpty_iff] at this
    rcases this with h | h
    · rw [h.2] at hfk; cases hfk
    · rw [h] at hr; cases hr
  · cases hu : Sample.logs1.content.tables.get? (py! "ULOG") with
    | none => rw [hu] at h; cases h.1
    | some u =>
      rw [hu] at h
      have h1 := h.1
      simp only [Bool.and_eq_true, decide_eq_true_eq, List.all_eq_true] at h1
      refine ⟨u, rfl, h1.1.1, h1.1.2, h1.2, fun n t hn ht => ?_⟩
      have := List.all_eq_true.mp h.2 _ (get?_mem_pair ht)
      simp only [Bool.or_eq_true, Bool.and_eq_true, decide_eq_true_eq, List.isEmpty_iff] at this
      exact this.resolve_left fun h => hn h.1

/-- a version 1 database with one multi info row that belongs to no log, and one list that refers to it by a
text -/
def Sample.textRef : SDb Schema :=
  ⟨fill (fill (freshSchema 1) (py! "ULOGMESSAGEINFOMULTIPLE") [[.int 12, .text (py! "k"), .text (py! "t"), .null]])
    (py! "ULOGMESSAGEINFOMULTIPLELIST") [[.int 1, .int 0, .text (py! "12")]], 1⟩

/-- **C68**: references of list rows are stored as texts and count as references to the integer ids: such a
database is refused as well. -/
theorem C68_text_reference : (migrateDb sqlite (some shipped) false false (some Sample.textRef)).1 = some Sample.textRef ∧
    (match (migrateDb sqlite (some shipped) false false (some Sample.textRef)).2 with
      | .error e => decide (e = .integrityError)
      | .ok _ => false) = true := by
  decide +kernel

end PyULog
