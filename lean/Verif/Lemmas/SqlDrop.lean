import Verif.Lemmas.SqlServes
/-
`DROP TABLE` with foreign keys: a row that refers to a row of the dropped table without a cascading
delete stops it.
-/
namespace PyULog
open Spec

/-- tables called `n` have no cascading foreign key -/
def NoCascade (ts : Dict Str Table) (n : Str) : Prop :=
  ∀ p ∈ bareTables ts, p.1 = n → ∀ fk ∈ p.2.fks, fk.cascade = false

theorem noCascade_mem {ts : Dict Str Table} {n : Str} (h : NoCascade ts n) :
    ∀ p ∈ ts, p.1 = n → ∀ fk ∈ p.2.fks, fk.cascade = false :=
  fun p hp e fk hfk => h (p.1, bareTable p.2) (List.mem_map.mpr ⟨p, hp, rfl⟩) e fk hfk

theorem get?_map_other {α : Type} (d : Dict Str α) (f : Str × α → Str × α) (n : Str)
    (h : ∀ p ∈ d, (f p).1 = p.1 ∧ (p.1 = n → f p = p)) : Dict.get? (d.map f) n = Dict.get? d n := by
  induction d with
  | nil => rfl
  | cons p d ih =>
    have hp := h p (by simp)
    rw [List.map_cons]
    obtain ⟨a, v⟩ := p
    have ih' := ih (fun q hq => h q (by simp [hq]))
    by_cases e : a = n
    · rw [hp.2 e]
      simp only [Dict.get?]
      rw [if_pos e, if_pos e]
    · rcases hf : f (a, v) with ⟨b, w⟩
      have hb : b = a := by have := hp.1; rw [hf] at this; exact this
      simp only [Dict.get?]
      rw [if_neg (by rw [hb]; exact e), if_neg e]
      exact ih'

/-- a table without cascading foreign keys is not touched when rows of another table are deleted -/
theorem cascade_keeps (fuel : Nat) (ts : Dict Str Table) (name : Str) (gone : List (List SqlVal)) (n : Str)
    (hn : n ≠ name) (hc : NoCascade ts n) :
    Dict.get? (cascade fuel ts name gone).2 n = Dict.get? ts n := by
  induction fuel generalizing ts name gone with
  | zero => rfl
  | succ fuel ih =>
    simp only [cascade]
    split
    · rfl
    · refine (foldl_inv' (fun acc : List (Str × List SqlVal) × Dict Str Table =>
          Dict.get? acc.2 n = Dict.get? ts n ∧ bareTables acc.2 = bareTables ts) _ _ _ ⟨?_, ?_⟩ ?_).1
      · apply get?_map_other
        intro p _
        refine ⟨?_, fun e => ?_⟩
        · split <;> rfl
        · rw [if_neg (by rw [e]; exact hn)]
      · simp only [bareTables, List.map_map]
        apply List.map_congr_left
        intro p _
        simp only [Function.comp]
        split <;> rfl
      · intro acc p hp hacc
        refine foldl_inv' (fun acc : List (Str × List SqlVal) × Dict Str Table =>
          Dict.get? acc.2 n = Dict.get? ts n ∧ bareTables acc.2 = bareTables ts) _ _ _ hacc ?_
        intro acc fk hfk hacc
        split
        · rename_i hcond
          split
          · exact hacc
          · have hpn : n ≠ p.1 := by
              intro e
              have := noCascade_mem hc p hp e.symm fk hfk
              rw [hcond.1] at this
              cases this
            refine ⟨(ih _ _ _ hpn ?_).trans hacc.1, (cascade_bare _ _ _ _).trans hacc.2⟩
            unfold NoCascade
            rw [hacc.2]
            exact hc
        · exact hacc

/-- the deleted rows of the table itself are listed -/
theorem cascade_gone (fuel : Nat) (ts : Dict Str Table) (name : Str) (gone : List (List SqlVal)) (t : Table)
    (ht : Dict.get? ts name = some t) : ∀ g ∈ gone, (name, g) ∈ (cascade (fuel + 1) ts name gone).1 := by
  intro g hg
  simp only [cascade, ht]
  refine foldl_inv' (fun acc : List (Str × List SqlVal) × Dict Str Table => (name, g) ∈ acc.1) _ _ _ ?_ ?_
  · exact List.mem_map.mpr ⟨g, hg, rfl⟩
  · intro acc p _ hacc
    refine foldl_inv' (fun acc : List (Str × List SqlVal) × Dict Str Table => (name, g) ∈ acc.1) _ _ _ hacc ?_
    intro acc fk _ hacc
    split
    · split
      · exact hacc
      · exact List.mem_append.mpr (Or.inl hacc)
    · exact hacc

theorem get?_mem_pair {α : Type} {d : Dict Str α} {k : Str} {v : α} (h : d.get? k = some v) : (k, v) ∈ d := by
  induction d with
  | nil => cases h
  | cons p d ih =>
    obtain ⟨a, w⟩ := p
    simp only [Dict.get?] at h
    split at h
    · rename_i e; cases h; subst e; simp
    · exact List.mem_cons_of_mem _ (ih h)

/-- a remaining reference stops `DROP TABLE` -/
theorem drop_fails {s : Schema} {name n : Str} {parent t : Table} (hp : s.tables.get? name = some parent)
    (ht : s.tables.get? n = some t) (hn : n ≠ name) (hc : NoCascade s.tables n) {fk : Fk} (hfk : fk ∈ t.fks)
    (hfp : fk.parent = name) {r g : List SqlVal} (hr : r ∈ t.rows) (hg : g ∈ parent.rows)
    (hm : fkMatch (colVal parent g fk.parentCol) (colVal t r fk.col) = true) :
    execStmt s (.dropTable name) = .error .integrityError := by
  have hd : dangling s.tables (cascade (s.tables.length + 1) s.tables name parent.rows).2 name
      (cascade (s.tables.length + 1) s.tables name parent.rows).1 = true := by
    unfold dangling
    have hin := get?_mem_pair ((cascade_keeps (s.tables.length + 1) s.tables name parent.rows n hn hc).trans ht)
    have hgo := cascade_gone s.tables.length s.tables name parent.rows parent hp g hg
    refine List.any_eq_true.mpr ⟨_, hin, ?_⟩
    simp only [Bool.and_eq_true, decide_eq_true_eq]
    refine ⟨hn, List.any_eq_true.mpr ⟨fk, hfk, List.any_eq_true.mpr ⟨r, hr, List.any_eq_true.mpr ⟨_, hgo, ?_⟩⟩⟩⟩
    simp only [Bool.and_eq_true, decide_eq_true_eq, hp]
    exact ⟨hfp.symm, hm⟩
  simp only [execStmt, hp]
  rw [if_pos hd]

/-- statements of script 2 before the first `DROP TABLE` write only to the new tables -/
def writesOnly (names : List Str) : SqlStmt → Bool
  | .foreignKeys => true
  | .createTable n _ => names.contains n
  | .createIndex _ _ _ => true
  | .insertSelect n _ _ _ => names.contains n
  | _ => false

theorem writes_other {names : List Str} {s s' : Schema} {st : SqlStmt} (hw : writesOnly names st = true)
    (h : execStmt s st = .ok s') {n : Str} (hn : n ∉ names) : s'.tables.get? n = s.tables.get? n := by
  cases st <;> simp only [writesOnly, Bool.false_eq_true] at hw
  case foreignKeys => cases h; rfl
  case createTable m t =>
    simp only [execStmt] at h
    have hne : m ≠ n := by rintro rfl; exact hn (by simpa using hw)
    split at h
    · cases h; rfl
    · cases h; exact Dict.get?_set_ne _ _ hne
  case createIndex a b c =>
    simp only [execStmt] at h
    split at h
    · cases h; rfl
    · split at h
      · cases h
      · split at h
        · cases h; rfl
        · cases h
  case insertSelect m a f b =>
    simp only [execStmt] at h
    have hne : m ≠ n := by rintro rfl; exact hn (by simpa using hw)
    split at h
    · split at h
      · cases h
      · obtain ⟨t', _, rfl⟩ := except_map_ok.mp h
        exact Dict.get?_set_ne _ _ hne
    · cases h

theorem run_writes_other {names : List Str} {sts : List SqlStmt} {s s' : Schema}
    (hw : ∀ st ∈ sts, writesOnly names st = true) (h : runAst sts s = .ok s') {n : Str} (hn : n ∉ names) :
    s'.tables.get? n = s.tables.get? n := by
  induction sts generalizing s with
  | nil => cases h; rfl
  | cons st sts ih =>
    simp only [runAst] at h
    obtain ⟨s1, h1, h2⟩ := except_bind_ok.mp h
    rw [ih (fun x hx => hw x (by simp [hx])) h2, writes_other (hw st (by simp)) h1 hn]

end PyULog
