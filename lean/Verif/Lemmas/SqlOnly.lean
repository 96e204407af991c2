import Verif.Lemmas.SqlKeep
import Verif.Lemmas.SqlDrop
/-
Statements on a database in which only some tables have rows.
-/
namespace PyULog
open Spec

/-- the rows of every table -/
def RowsAre (F : Str → List (List SqlVal)) (s : Schema) : Prop := ∀ p ∈ s.tables, p.2.rows = F p.1

/-- statements that leave alone the tables in `S`, which are the ones with rows -/
def quiet (S : List Str) : SqlStmt → Bool
  | .foreignKeys => true
  | .createIndex _ _ _ => true
  | .createTable n t => decide (n ∉ S) && t.rows.isEmpty
  | .insertSelect into _ from_ _ => decide (into ∉ S) && decide (from_ ∉ S)
  | .renameTable a b => decide (a ∉ S) && decide (b ∉ S)
  | .dropTable n => decide (n ∉ S)
  | _ => false

theorem mem_set_cases {α : Type} {d : Dict Str α} {k : Str} {v : α} {p : Str × α} (h : p ∈ Dict.set d k v) :
    p ∈ d ∨ p = (k, v) := by
  induction d with
  | nil => simp [Dict.set] at h; exact Or.inr h
  | cons q d ih =>
    obtain ⟨a, u⟩ := q
    simp only [Dict.set] at h
    split at h
    · rename_i e
      rcases List.mem_cons.mp h with h | h
      · right; rw [h, e]
      · left; exact List.mem_cons.mpr (Or.inr h)
    · rcases List.mem_cons.mp h with h | h
      · left; rw [h]; exact List.mem_cons_self
      · rcases ih h with h | h
        · left; exact List.mem_cons.mpr (Or.inr h)
        · exact Or.inr h

theorem quiet_run {F : Str → List (List SqlVal)} {S : List Str} (hF : ∀ n, n ∉ S → F n = []) {s : Schema}
    (hs : RowsAre F s) {st : SqlStmt} (hq : quiet S st = true)
    (hok : isOk (execStmt (bareSchema s) st) = true) : ∃ s', execStmt s st = .ok s' ∧ RowsAre F s' := by
  cases st with
  | foreignKeys => exact ⟨s, rfl, hs⟩
  | createTable n t =>
    simp only [quiet, Bool.and_eq_true, decide_eq_true_eq, List.isEmpty_iff] at hq
    simp only [execStmt]
    by_cases h : s.tables.has n = true
    · exact ⟨s, if_pos h, hs⟩
    · refine ⟨_, if_neg h, fun p hp => ?_⟩
      rcases mem_set_cases hp with hp | rfl
      · exact hs p hp
      · rw [hq.2, hF _ hq.1]
  | createIndex n T c =>
    obtain ⟨b, hb⟩ := isOk_ok hok
    simp only [execStmt, bareSchema, get?_bare] at hb ⊢
    split at hb
    · rename_i e
      exact ⟨s, by rw [if_pos e], hs⟩
    · rename_i e
      rw [if_neg e]
      cases ht : s.tables.get? T with
      | none => rw [ht] at hb; cases hb
      | some t =>
        rw [ht] at hb
        simp only [Option.map_some, colIdx_bare] at hb ⊢
        by_cases e2 : (colIdx t c).isSome = true
        · exact ⟨_, if_pos e2, hs⟩
        · have := (if_neg (by exact e2)).symm.trans hb
          cases this
  | insertSelect into cols from_ src =>
    simp only [quiet, Bool.and_eq_true, decide_eq_true_eq] at hq
    obtain ⟨b, hb⟩ := isOk_ok hok
    simp only [execStmt, bareSchema, get?_bare] at hb ⊢
    cases ht : s.tables.get? into with
    | none => rw [ht] at hb; cases hb
    | some t =>
      cases hf : s.tables.get? from_ with
      | none => rw [ht, hf] at hb; cases hb
      | some f =>
        rw [ht, hf] at hb
        simp only [Option.map_some, colIdx_bare] at hb ⊢
        have hr : f.rows = [] := (hs _ (get?_mem_pair hf)).trans (hF _ hq.2)
        by_cases e : (cols.getD (t.cols.map (·.1))).length ≠ (src.getD (f.cols.map (·.1))).length ∨
            ¬ ((cols.getD (t.cols.map (·.1))).all fun c => (colIdx t c).isSome) ∨
            ¬ ((src.getD (f.cols.map (·.1))).all fun c => (colIdx f c).isSome)
        · have := (if_pos (by exact e)).symm.trans hb
          cases this
        · refine ⟨s, ?_, hs⟩
          refine (if_neg (by exact e)).trans ?_
          rw [hr]
          simp only [List.map_nil, insertRows, Except.map]
          rw [set_same _ _ _ ht]
  | dropTable n =>
    simp only [quiet, decide_eq_true_eq] at hq
    simp only [execStmt]
    cases ht : s.tables.get? n with
    | none => exact ⟨s, rfl, hs⟩
    | some t =>
      have hr : t.rows = [] := (hs _ (get?_mem_pair ht)).trans (hF _ hq)
      simp only [hr, cascade_nil, dangling_nil]
      exact ⟨_, rfl, fun p hp => hs p (List.mem_filter.mp hp).1⟩
  | renameTable a b =>
    simp only [quiet, Bool.and_eq_true, decide_eq_true_eq] at hq
    obtain ⟨c, hb⟩ := isOk_ok hok
    simp only [execStmt, bareSchema, has_bare] at hb ⊢
    split at hb
    · cases hb
    · rename_i e
      refine ⟨_, if_neg e, fun p hp => ?_⟩
      obtain ⟨q, hq1, rfl⟩ := List.mem_map.mp hp
      obtain ⟨u, hu, rfl⟩ := List.mem_map.mp hq1
      have hu' := hs u hu
      by_cases e2 : u.1 = a
      · simp only [e2, if_true]
        rw [hu', e2, hF _ hq.1, hF _ hq.2]
      · simp only [e2, if_false]
        exact hu'
  | renameColumn _ _ _ => cases hq
  | addColumn _ _ _ => cases hq
  | updateCast _ _ _ => cases hq

theorem quiet_runs {F : Str → List (List SqlVal)} {S : List Str} (hF : ∀ n, n ∉ S → F n = []) :
    ∀ (sts : List SqlStmt) (s : Schema), RowsAre F s → (∀ st ∈ sts, quiet S st = true) →
      isOk (runAst sts (bareSchema s)) = true → ∃ s', runAst sts s = .ok s' ∧ RowsAre F s'
  | [], s, hs, _, _ => ⟨s, rfl, hs⟩
  | st :: sts, s, hs, hq, hok => by
    simp only [runAst] at hok
    obtain ⟨b, hb, hok2⟩ := isOk_bind hok
    obtain ⟨s1, h1, r1⟩ := quiet_run hF hs (hq st (by simp)) (by rw [hb]; rfl)
    have hb1 := execStmt_bare s s1 st (fun n t e => by
      have := hq st (by simp)
      rw [e] at this
      simp only [quiet, Bool.and_eq_true, List.isEmpty_iff] at this
      exact this.2) h1
    rw [hb] at hb1
    rw [Except.ok.inj hb1] at hok2
    obtain ⟨s', h2, r2⟩ := quiet_runs hF sts s1 r1 (fun x hx => hq x (by simp [hx])) hok2
    refine ⟨s', ?_, r2⟩
    simp only [runAst, h1]
    exact h2

/-- rows that do not conflict are all inserted, if the table has no foreign key -/
theorem insertRows_all (s : Schema) (name : Str) : ∀ (rows : List (List SqlVal)) (t : Table), t.fks = [] →
    (∀ r ∈ rows, ∀ o ∈ t.rows, conflicts t r o = false) →
    rows.Pairwise (fun a b => conflicts t b a = false) →
    insertRows s name t rows = .ok { t with rows := t.rows ++ rows }
  | [], t, _, _, _ => by simp [insertRows]
  | r :: rows, t, hf, hc, hp => by
    have h0 : t.rows.any (conflicts t r) = false := by
      rw [List.any_eq_false]
      intro o ho
      simp [hc r (by simp) o ho]
    have hp' := List.pairwise_cons.mp hp
    simp only [insertRows, h0, fksHold, hf, List.foldr_nil]
    have := insertRows_all s name rows { t with rows := t.rows ++ [r] } hf (by
      intro x hx o ho
      rcases List.mem_append.mp ho with ho | ho
      · exact hc x (by simp [hx]) o ho
      · rw [List.mem_singleton.mp ho]
        exact hp'.1 x hx) hp'.2
    rw [hf] at this
    simpa using this

/-- dropping a table that no row of another table refers to, since the tables with rows have no foreign
keys -/
theorem drop_run {F : Str → List (List SqlVal)} {S : List Str} (hF : ∀ n, n ∉ S → F n = []) {s : Schema}
    (hs : RowsAre F s) (hfk : ∀ p ∈ s.tables, p.1 ∈ S → p.2.fks = []) (n : Str) :
    ∃ s', execStmt s (.dropTable n) = .ok s' ∧ RowsAre F s' ∧ ∀ p ∈ s'.tables, p.1 ≠ n := by
  simp only [execStmt]
  cases ht : s.tables.get? n with
  | none =>
    refine ⟨s, rfl, hs, fun p hp e => ?_⟩
    obtain ⟨v, hv⟩ := (get?_isSome_keys s.tables n).mpr (by rw [← e]; exact List.mem_map.mpr ⟨p, hp, rfl⟩)
    rw [ht] at hv
    cases hv
  | some t =>
    let start : Dict Str Table := s.tables.map fun p =>
      if p.1 = n then (p.1, { p.2 with rows := p.2.rows.filter fun r => ¬ t.rows.contains r }) else p
    have hstart : ∀ p ∈ start, (p.1 ∈ S → p.2.fks = []) ∧ (p.1 ∉ S → p.2.rows = []) ∧ (p.1 ≠ n → p.2.rows = F p.1) := by
      intro p hp
      obtain ⟨q, hq, rfl⟩ := List.mem_map.mp hp
      by_cases e : q.1 = n
      · simp only [if_pos e]
        refine ⟨hfk q hq, fun h => ?_, fun h => absurd e h⟩
        rw [hs q hq, hF _ h]
        rfl
      · simp only [if_neg e]
        exact ⟨hfk q hq, fun h => (hs q hq).trans (hF _ h), fun _ => hs q hq⟩
    have hc : cascade (s.tables.length + 1) s.tables n t.rows = (t.rows.map fun r => (n, r), start) := by
      simp only [cascade, ht]
      have : ∀ l : List (Str × Table), (∀ p ∈ l, p ∈ s.tables) → l.foldl (fun acc (p : Str × Table) =>
        p.2.fks.foldl (fun acc fk =>
          if fk.cascade ∧ fk.parent = n then
            let child := (Dict.get? acc.2 p.1).getD {}
            let del := child.rows.filter fun r => t.rows.any fun g =>
              fkMatch (colVal t g fk.parentCol) (colVal child r fk.col)
            if del = [] then acc
            else
              let r := cascade s.tables.length acc.2 p.1 del
              (acc.1 ++ r.1, r.2)
          else acc) acc) (t.rows.map fun r => (n, r), start) = (t.rows.map fun r => (n, r), start) := by
        intro l
        induction l with
        | nil => intro _; rfl
        | cons p l ih =>
          intro hl
          rw [List.foldl_cons]
          have hp := hl p (by simp)
          have hone : p.2.fks.foldl (fun acc fk =>
              if fk.cascade ∧ fk.parent = n then
                let child := (Dict.get? acc.2 p.1).getD {}
                let del := child.rows.filter fun r => t.rows.any fun g =>
                  fkMatch (colVal t g fk.parentCol) (colVal child r fk.col)
                if del = [] then acc
                else
                  let r := cascade s.tables.length acc.2 p.1 del
                  (acc.1 ++ r.1, r.2)
              else acc) (t.rows.map fun r => (n, r), start) = (t.rows.map fun r => (n, r), start) := by
            by_cases e : p.1 ∈ S
            · rw [hfk p hp e]; rfl
            · apply foldl_inv' (fun acc => acc = (t.rows.map fun r => (n, r), start)) _ _ _ rfl
              intro acc fk _ hacc
              subst hacc
              split
              · have hrow : ((Dict.get? start p.1).getD {}).rows = [] := by
                  cases hg : Dict.get? start p.1 with
                  | none => rfl
                  | some u => exact (hstart _ (get?_mem_pair hg)).2.1 e
                simp only [hrow, List.filter_nil, if_true]
              · rfl
          rw [hone]
          exact ih (fun q hq => hl q (by simp [hq]))
      exact this s.tables (fun _ h => h)
    simp only [hc]
    have hd : dangling s.tables start n (t.rows.map fun r => (n, r)) = false := by
      unfold dangling
      rw [List.any_eq_false]
      intro p hp
      simp only [Bool.and_eq_true, not_and, Bool.not_eq_true]
      intro _
      by_cases e : p.1 ∈ S
      · rw [(hstart p hp).1 e]; rfl
      · rw [(hstart p hp).2.1 e]
        rw [List.any_eq_false]
        intro fk _
        simp
    simp only [hd]
    refine ⟨_, rfl, fun p hp => ?_, fun p hp => ?_⟩
    · obtain ⟨h1, h2⟩ := List.mem_filter.mp hp
      exact (hstart p h1).2.2 (by simpa using h2)
    · simpa using (List.mem_filter.mp hp).2

/-- renaming one of the tables with rows -/
theorem rename_run {F : Str → List (List SqlVal)} {s : Schema} (hs : RowsAre F s) (a b : Str)
    (hok : isOk (execStmt (bareSchema s) (.renameTable a b)) = true) :
    ∃ s', execStmt s (.renameTable a b) = .ok s' ∧
      RowsAre (fun n => if n = b then F a else if n = a then [] else F n) s' := by
  obtain ⟨c, hb⟩ := isOk_ok hok
  simp only [execStmt, bareSchema, has_bare] at hb ⊢
  split at hb
  · cases hb
  · rename_i e
    refine ⟨_, if_neg e, fun p hp => ?_⟩
    have hnb : ∀ q ∈ s.tables, q.1 ≠ b := by
      intro q hq h
      apply e
      right
      rw [Dict.has]
      obtain ⟨v, hv⟩ := (get?_isSome_keys s.tables b).mpr (by
        rw [← h]; exact List.mem_map.mpr ⟨q, hq, rfl⟩)
      rw [hv]
      rfl
    obtain ⟨q, hq1, rfl⟩ := List.mem_map.mp hp
    obtain ⟨u, hu, rfl⟩ := List.mem_map.mp hq1
    have hu' := hs u hu
    by_cases e2 : u.1 = a
    · simp only [e2, if_true]
      rw [hu', e2]
    · simp only [e2, if_false]
      rw [if_neg (hnb u hu)]
      exact hu'

/-- a copied row has the values of the source -/
theorem targetRow_val {t f : Table} {cols : List Str} {row : List SqlVal} {c : Str} (hc : c ∈ cols)
    (ht : c ∈ t.cols.map (·.1)) : colVal t (targetRow t f cols cols row) c = colVal f row c := by
  obtain ⟨i, hi⟩ := (colIdx_some_iff t c).mpr ht
  have hlt := colIdx_lt hi
  have hic : (t.cols[i]).1 = c := by
    unfold colIdx at hi
    have := (List.findIdx?_eq_some_iff_getElem.mp hi).2.1
    simpa using this
  unfold colVal
  rw [hi]
  simp only [targetRow]
  rw [List.getD_eq_getElem?_getD, List.getElem?_map, List.getElem?_eq_getElem hlt]
  simp only [Option.map_some, Option.getD_some, hic]
  have : (cols.zip cols).find? (fun q => decide (q.1 = c)) = some (c, c) := by
    clear hi hic ht
    induction cols with
    | nil => cases hc
    | cons x xs ih =>
      simp only [List.zip_cons_cons, List.find?_cons]
      by_cases e : x = c
      · simp [e]
      · simp only [e, decide_false]
        exact ih (by rcases List.mem_cons.mp hc with h | h; exact absurd h.symm e; exact h)
  rw [this]
  rfl

/-- a column that is not copied is NULL -/
theorem targetRow_null {t f : Table} {cols src : List Str} {row : List SqlVal} {c : Str} (hc : c ∉ cols) :
    colVal t (targetRow t f cols src row) c = .null := by
  unfold colVal
  cases hi : colIdx t c with
  | none => rfl
  | some i =>
    have hlt := colIdx_lt hi
    have hic : (t.cols[i]).1 = c := by
      unfold colIdx at hi
      have := (List.findIdx?_eq_some_iff_getElem.mp hi).2.1
      simpa using this
    simp only [targetRow]
    rw [List.getD_eq_getElem?_getD, List.getElem?_map, List.getElem?_eq_getElem hlt]
    simp only [Option.map_some, Option.getD_some, hic]
    have : (cols.zip src).find? (fun q => decide (q.1 = c)) = none := by
      rw [List.find?_eq_none]
      intro q hq
      have := (List.of_mem_zip (a := q.1) (b := q.2) hq).1
      simp only [decide_eq_true_eq]
      intro e
      exact hc (e ▸ this)
    rw [this]

end PyULog
