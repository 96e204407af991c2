import Verif.Lemmas.SqlShape
/-
Running a script a second time on its own result.
-/
namespace PyULog
open Spec

/-! ### scripts that only create -/

/-- a `CREATE ... IF NOT EXISTS` that finds its object -/
def objectExists (s : Schema) : SqlStmt → Prop
  | .createTable n _ => s.tables.has n = true
  | .createIndex n _ _ => s.indexes.has n = true
  | _ => False

/-- a `CREATE` statement -/
def isCreate : SqlStmt → Bool
  | .createTable _ _ => true
  | .createIndex _ _ _ => true
  | _ => false

theorem has_set {κ α : Type} [DecidableEq κ] (d : Dict κ α) (k k' : κ) (v : α) :
    Dict.has (Dict.set d k v) k' = (decide (k = k') || Dict.has d k') := by
  unfold Dict.has
  rw [Dict.get?_set]
  split <;> simp [*]

theorem exec_exists {s : Schema} {st : SqlStmt} (h : objectExists s st) : execStmt s st = .ok s := by
  cases st <;> simp_all [objectExists, execStmt]

theorem exec_creates {s s' : Schema} {st : SqlStmt} (hc : isCreate st = true) (h : execStmt s st = .ok s') :
    objectExists s' st ∧ ∀ x, objectExists s x → objectExists s' x := by
  cases st <;> simp only [isCreate, Bool.false_eq_true] at hc
  case createTable n t =>
    simp only [execStmt] at h
    split at h
    · cases h; exact ⟨by assumption, fun _ hx => hx⟩
    · cases h
      refine ⟨by simp [objectExists, has_set], fun x hx => ?_⟩
      cases x <;> simp_all [objectExists, has_set]
  case createIndex n t c =>
    simp only [execStmt] at h
    split at h
    · cases h; exact ⟨by assumption, fun _ hx => hx⟩
    · split at h
      · cases h
      · split at h
        · cases h
          refine ⟨by simp [objectExists, has_set], fun x hx => ?_⟩
          cases x <;> simp_all [objectExists, has_set]
        · cases h

theorem run_creates {sts : List SqlStmt} {s s' : Schema} (hc : ∀ st ∈ sts, isCreate st = true)
    (h : runAst sts s = .ok s') :
    (∀ st ∈ sts, objectExists s' st) ∧ ∀ x, objectExists s x → objectExists s' x := by
  induction sts generalizing s with
  | nil => cases h; exact ⟨by simp, fun _ hx => hx⟩
  | cons st sts ih =>
    simp only [runAst] at h
    obtain ⟨s1, h1, h2⟩ := except_bind_ok.mp h
    obtain ⟨a, b⟩ := exec_creates (hc st (by simp)) h1
    obtain ⟨c, d⟩ := ih (fun x hx => hc x (by simp [hx])) h2
    refine ⟨fun x hx => ?_, fun x hx => d x (b x hx)⟩
    rcases List.mem_cons.mp hx with rfl | hx
    · exact d _ a
    · exact c x hx

theorem run_exist {sts : List SqlStmt} {s : Schema} (h : ∀ st ∈ sts, objectExists s st) :
    runAst sts s = .ok s := by
  induction sts with
  | nil => rfl
  | cons st sts ih =>
    simp only [runAst, exec_exists (h st (by simp))]
    exact ih (fun x hx => h x (by simp [hx]))

/-- a script that only creates changes nothing the second time -/
theorem rerun_creates {sts : List SqlStmt} {s s' : Schema} (hc : ∀ st ∈ sts, isCreate st = true)
    (h : runAst sts s = .ok s') : runAst sts s' = .ok s' := run_exist (run_creates hc h).1

/-! ### scripts that add columns -/

/-- the table exists and has the column -/
def HasCol (s : Schema) (table col : Str) : Prop :=
  ∃ t, s.tables.get? table = some t ∧ (colIdx t col).isSome = true

theorem colIdx_isSome (t : Table) (c : Str) : (colIdx t c).isSome = true ↔ ∃ p ∈ t.cols, p.1 = c := by
  simp [colIdx, List.findIdx?_isSome]

/-- statements of scripts 3 and 4 -/
def isAlter : SqlStmt → Bool
  | .foreignKeys => true
  | .renameColumn _ _ _ => true
  | .addColumn _ _ _ => true
  | .updateCast _ _ _ => true
  | _ => false

theorem get?_mapKey {α : Type} (d : Dict Str α) (f : Str × α → α) (k : Str) :
    Dict.get? (d.map fun p => (p.1, f p)) k = (Dict.get? d k).map fun v => f (k, v) := by
  induction d with
  | nil => rfl
  | cons p d ih =>
    obtain ⟨a, t⟩ := p
    simp only [List.map_cons, Dict.get?]
    split
    · rename_i e; subst e; rfl
    · exact ih

/-- a table of the schema after a column of `tb` was renamed -/
def renCol (tb name to : Str) (p : Str × Table) : Table :=
  if p.1 = tb then
    { p.2 with
      cols := p.2.cols.map fun c => (if c.1 = name then to else c.1, c.2)
      uniques := p.2.uniques.map fun u => u.map fun c => if c = name then to else c
      fks := p.2.fks.map fun fk => { fk with col := if fk.col = name then to else fk.col } }
  else
    { p.2 with
      fks := p.2.fks.map fun fk =>
        if fk.parent = tb then { fk with parentCol := if fk.parentCol = name then to else fk.parentCol }
        else fk }

theorem exec_renameColumn {s s' : Schema} {tb name to : Str}
    (h : execStmt s (.renameColumn tb name to) = .ok s') :
    ∃ t, s.tables.get? tb = some t ∧ (colIdx t name).isSome = true ∧ (colIdx t to).isSome = false ∧
      s' = { tables := s.tables.map fun p => (p.1, renCol tb name to p)
             indexes := s.indexes.map fun p =>
               if p.2.1 = tb then (p.1, tb, if p.2.2 = name then to else p.2.2) else p } := by
  simp only [execStmt] at h
  split at h
  · cases h
  · rename_i t ht
    split at h
    · cases h
    · rename_i e
      cases h
      refine ⟨t, ht, ?_, ?_, ?_⟩
      · cases hn : colIdx t name <;> simp_all
      · cases hn : colIdx t to <;> simp_all
      · simp only [Schema.mk.injEq, and_true]
        apply List.map_congr_left
        intro p _
        unfold renCol
        split <;> rfl

/-- a column survives unless it is renamed -/
theorem hasCol_alter {s s' : Schema} {st : SqlStmt} {table col : Str} (ha : isAlter st = true)
    (hr : ∀ to, st ≠ .renameColumn table col to) (h : execStmt s st = .ok s') (hc : HasCol s table col) :
    HasCol s' table col := by
  obtain ⟨t, h1, h2⟩ := hc
  cases st <;> simp only [isAlter, Bool.false_eq_true] at ha
  case foreignKeys => cases h; exact ⟨t, h1, h2⟩
  case renameColumn tb name to =>
    obtain ⟨t0, ht0, _, _, rfl⟩ := exec_renameColumn h
    refine ⟨_, by rw [get?_mapKey, h1]; rfl, ?_⟩
    rw [colIdx_isSome] at h2 ⊢
    obtain ⟨p, hp, hpc⟩ := h2
    simp only [renCol]
    by_cases e : table = tb
    · subst e
      have : name ≠ col := fun e => hr to (by rw [e])
      rw [if_pos rfl]
      refine ⟨(if p.1 = name then to else p.1, p.2), List.mem_map.mpr ⟨p, hp, rfl⟩, ?_⟩
      simp only
      rw [if_neg (by rw [hpc]; exact fun e => this e.symm), hpc]
    · rw [if_neg e]
      exact ⟨p, hp, hpc⟩
  case addColumn tb name ty =>
    simp only [execStmt] at h
    split at h
    · cases h
    · split at h
      · cases h
      · cases h
        rename_i t0 ht0 _
        by_cases e : tb = table
        · subst e
          rw [h1] at ht0
          cases ht0
          refine ⟨_, Dict.get?_set_self _ _ _, ?_⟩
          rw [colIdx_isSome] at h2 ⊢
          obtain ⟨p, hp, hpc⟩ := h2
          exact ⟨p, by simp [hp], hpc⟩
        · exact ⟨t, by simp only; rw [Dict.get?_set_ne _ _ e]; exact h1, h2⟩
  case updateCast tb a b =>
    simp only [execStmt] at h
    split at h
    · cases h
    · split at h
      · obtain ⟨rows, _, e⟩ := except_map_ok.mp h
        subst e
        rename_i t0 ht0 _ _ _ _ _ _ _
        by_cases e : tb = table
        · subst e
          rw [h1] at ht0
          cases ht0
          exact ⟨_, Dict.get?_set_self _ _ _, h2⟩
        · exact ⟨t, by simp only; rw [Dict.get?_set_ne _ _ e]; exact h1, h2⟩
      · cases h

theorem hasCol_run {sts : List SqlStmt} {s s' : Schema} {table col : Str}
    (ha : ∀ st ∈ sts, isAlter st = true) (hr : ∀ to, .renameColumn table col to ∉ sts)
    (h : runAst sts s = .ok s') (hc : HasCol s table col) : HasCol s' table col := by
  induction sts generalizing s with
  | nil => cases h; exact hc
  | cons st sts ih =>
    simp only [runAst] at h
    obtain ⟨s1, h1, h2⟩ := except_bind_ok.mp h
    exact ih (fun x hx => ha x (by simp [hx])) (fun to hm => hr to (by simp [hm])) h2
      (hasCol_alter (ha st (by simp)) (fun to e => hr to (by simp [e])) h1 hc)

end PyULog
