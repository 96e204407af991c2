import Verif.Lemmas.Shipped
import Verif.Lemmas.DbEqual
import Verif.Spec.SqlShape
/-
What the scripts do to the schema does not depend on the rows.
-/
namespace PyULog
open Spec

theorem foldl_inv' {α β : Type} (P : β → Prop) (f : β → α → β) (l : List α) (b : β) (hb : P b)
    (hf : ∀ b a, a ∈ l → P b → P (f b a)) : P (l.foldl f b) := by
  induction l generalizing b with
  | nil => exact hb
  | cons a l ih =>
    exact ih _ (hf b a (by simp) hb) (fun b x hx => hf b x (by simp [hx]))

theorem foldl_id {α β : Type} (f : β → α → β) (l : List α) (b : β) (hf : ∀ b a, a ∈ l → f b a = b) :
    l.foldl f b = b := foldl_inv' (· = b) f l b rfl fun b' a ha hb => by rw [hf b' a ha, hb]

theorem get?_bare (ts : Dict Str Table) (k : Str) :
    Dict.get? (bareTables ts) k = (Dict.get? ts k).map bareTable := by
  induction ts with
  | nil => rfl
  | cons p ts ih =>
    obtain ⟨a, t⟩ := p
    simp only [bareTables, List.map_cons, Dict.get?] at ih ⊢
    split
    · rfl
    · exact ih

theorem has_bare (ts : Dict Str Table) (k : Str) : Dict.has (bareTables ts) k = Dict.has ts k := by
  unfold Dict.has
  rw [get?_bare]
  cases Dict.get? ts k <;> rfl

theorem set_bare (ts : Dict Str Table) (k : Str) (t : Table) :
    bareTables (Dict.set ts k t) = Dict.set (bareTables ts) k (bareTable t) := by
  induction ts with
  | nil => rfl
  | cons p ts ih =>
    obtain ⟨a, t'⟩ := p
    simp only [bareTables, List.map_cons, Dict.set] at ih ⊢
    split
    · rfl
    · simp only [List.map_cons]; rw [ih]

theorem set_same {κ α : Type} [DecidableEq κ] (d : Dict κ α) (k : κ) (v : α) (h : Dict.get? d k = some v) :
    Dict.set d k v = d := by
  induction d with
  | nil => cases h
  | cons p d ih =>
    obtain ⟨a, t⟩ := p
    simp only [Dict.get?, Dict.set] at h ⊢
    split at h
    · rename_i e; cases h; simp [e]
    · rename_i e; simp [e, ih h]

theorem colIdx_bare (t : Table) (c : Str) : colIdx (bareTable t) c = colIdx t c := rfl

theorem map_rows_bare (ts : Dict Str Table) (f : Str × Table → Table) (hf : ∀ p, bareTable (f p) = bareTable p.2) :
    bareTables (ts.map fun p => (p.1, f p)) = bareTables ts := by
  simp only [bareTables, List.map_map]
  apply List.map_congr_left
  intro p _
  simp [hf]

/-- deleting with cascades touches only rows -/
theorem cascade_bare (fuel : Nat) (ts : Dict Str Table) (name : Str) (gone : List (List SqlVal)) :
    bareTables (cascade fuel ts name gone).2 = bareTables ts := by
  induction fuel generalizing ts name gone with
  | zero => rfl
  | succ fuel ih =>
    simp only [cascade]
    split
    · rfl
    · apply foldl_inv' (fun acc : List (Str × List SqlVal) × Dict Str Table => bareTables acc.2 = bareTables ts)
      · show bareTables (ts.map _) = _
        simp only [bareTables, List.map_map]
        apply List.map_congr_left
        intro p _
        simp only [Function.comp]
        split <;> rfl
      · intro acc p _ hacc
        apply foldl_inv' (fun acc : List (Str × List SqlVal) × Dict Str Table => bareTables acc.2 = bareTables ts)
        · exact hacc
        · intro acc fk _ hacc
          split
          · split
            · exact hacc
            · exact (ih _ _ _).trans hacc
          · exact hacc

/-- deleting nothing -/
theorem cascade_nil (fuel : Nat) (ts : Dict Str Table) (name : Str) :
    cascade fuel ts name [] = ([], ts) := by
  cases fuel with
  | zero => rfl
  | succ fuel =>
    simp only [cascade]
    split
    · rfl
    · have hs : (ts.map fun p => if p.1 = name then
          (p.1, { p.2 with rows := p.2.rows.filter fun r => ¬ (([] : List (List SqlVal)).contains r = true) })
          else p) = ts := by
        conv => rhs; rw [← List.map_id ts]
        apply List.map_congr_left
        intro p _
        split
        · have : p.2.rows.filter (fun r => decide ¬ (([] : List (List SqlVal)).contains r = true)) = p.2.rows :=
            List.filter_eq_self.mpr (by simp)
          rw [this]; rfl
        · rfl
      rw [foldl_id]
      · rw [hs]; rfl
      · intro acc p _
        apply foldl_id
        intro acc fk _
        simp

theorem dangling_nil (a b : Dict Str Table) (n : Str) : dangling a b n [] = false := by
  simp [dangling]

theorem insertRows_bare (s : Schema) (name : Str) (t t' : Table) (rows : List (List SqlVal))
    (h : insertRows s name t rows = .ok t') : bareTable t' = bareTable t := by
  induction rows generalizing t with
  | nil => cases h; rfl
  | cons r rows ih =>
    simp only [insertRows] at h
    split at h
    · exact ih _ h
    · split at h
      · cases h
      · cases h
      · exact (ih _ h).trans rfl

/-- **the schema after a statement does not depend on the rows** -/
theorem execStmt_bare (s s' : Schema) (st : SqlStmt) (hst : ∀ n t, st = .createTable n t → t.rows = [])
    (h : execStmt s st = .ok s') :
    execStmt (bareSchema s) st = .ok (bareSchema s') := by
  cases st with
  | foreignKeys => cases h; rfl
  | createTable name t =>
    simp only [execStmt, bareSchema, has_bare] at h ⊢
    split at h
    · cases h; rename_i e; simp [e]
    · cases h
      rename_i e
      have : bareTable t = t := by simp only [bareTable]; rw [← hst name t rfl]
      simp only [e, set_bare, this]
      rfl
  | createIndex name table col =>
    simp only [execStmt, bareSchema, get?_bare] at h ⊢
    split at h
    · cases h; rename_i e; simp [e]
    · rename_i e
      simp only [e, Bool.false_eq_true, if_false]
      cases ht : Dict.get? s.tables table with
      | none => rw [ht] at h; cases h
      | some t =>
        rw [ht] at h
        simp only at h
        simp only [Option.map_some, colIdx_bare]
        split at h
        · cases h; rename_i e2; simp [e2]
        · cases h
  | insertSelect into cols from_ src =>
    simp only [execStmt, bareSchema, get?_bare] at h ⊢
    cases hi : Dict.get? s.tables into with
    | none => rw [hi] at h; cases h
    | some t =>
      cases hf : Dict.get? s.tables from_ with
      | none => rw [hi, hf] at h; cases h
      | some f =>
        rw [hi, hf] at h
        simp only [Option.map_some] at h ⊢
        split at h
        · cases h
        · rename_i e
          refine (if_neg (by exact e)).trans ?_
          obtain ⟨t', h1, h2⟩ := except_map_ok.mp h
          subst h2
          have hb := insertRows_bare _ _ _ _ _ h1
          simp only [set_bare, hb]
          rw [set_same _ _ _ (by rw [get?_bare, hi]; rfl)]
          show (insertRows _ into (bareTable t) []).map _ = _
          simp only [insertRows, Except.map]
          rw [set_same _ _ _ (by rw [get?_bare, hi]; rfl)]
  | dropTable name =>
    simp only [execStmt, bareSchema, get?_bare] at h ⊢
    cases ht : Dict.get? s.tables name with
    | none => rw [ht] at h; cases h; rfl
    | some t =>
      rw [ht] at h
      simp only [Option.map_some] at h ⊢
      split at h
      · cases h
      · cases h
        have e : (bareTable t).rows = [] := rfl
        have hc := cascade_nil (List.length (bareTables s.tables) + 1) (bareTables s.tables) name
        simp only [e, hc, dangling_nil, Bool.false_eq_true, if_false, Except.ok.injEq, Schema.mk.injEq, and_true]
        rw [← cascade_bare (s.tables.length + 1) s.tables name t.rows]
        generalize (cascade (s.tables.length + 1) s.tables name t.rows).2 = l
        induction l with
        | nil => rfl
        | cons p l ih =>
          simp only [bareTables, List.map_cons, List.filter_cons] at ih ⊢
          split
          · rw [List.map_cons, ih]
          · exact ih
  | renameTable name to =>
    simp only [execStmt, bareSchema, has_bare] at h ⊢
    split at h
    · cases h
    · rename_i e
      rw [if_neg e]
      cases h
      simp only [Except.ok.injEq, Schema.mk.injEq, and_true, bareTables, renameKey, List.map_map]
      apply List.map_congr_left
      intro p _
      simp only [Function.comp]
      split <;> rfl
  | renameColumn table name to =>
    simp only [execStmt, bareSchema, get?_bare] at h ⊢
    cases ht : Dict.get? s.tables table with
    | none => rw [ht] at h; cases h
    | some t =>
      rw [ht] at h
      simp only [Option.map_some, colIdx_bare] at h ⊢
      split at h
      · cases h
      · rename_i e
        refine (if_neg (by exact e)).trans ?_
        cases h
        simp only [Except.ok.injEq, Schema.mk.injEq, and_true, bareTables, List.map_map]
        apply List.map_congr_left
        intro p _
        simp only [Function.comp]
        split <;> rfl
  | addColumn table name type =>
    simp only [execStmt, bareSchema, get?_bare] at h ⊢
    cases ht : Dict.get? s.tables table with
    | none => rw [ht] at h; cases h
    | some t =>
      rw [ht] at h
      simp only [Option.map_some, colIdx_bare] at h ⊢
      split at h
      · cases h
      · rename_i e
        refine (if_neg (by exact e)).trans ?_
        cases h
        simp only [Except.ok.injEq, Schema.mk.injEq, and_true, set_bare]
        rfl
  | updateCast table col from_ =>
    simp only [execStmt, bareSchema, get?_bare] at h ⊢
    cases ht : Dict.get? s.tables table with
    | none => rw [ht] at h; cases h
    | some t =>
      rw [ht] at h
      simp only [Option.map_some, colIdx_bare] at h ⊢
      cases hi : colIdx t col with
      | none => rw [hi] at h; cases h
      | some i =>
        cases hj : colIdx t from_ with
        | none => rw [hi, hj] at h; cases h
        | some j =>
          rw [hi, hj] at h
          simp only at h ⊢
          obtain ⟨rows, h1, h2⟩ := except_map_ok.mp h
          subst h2
          simp only [set_bare]
          rfl

theorem runAst_bare (sts : List SqlStmt) (s s' : Schema)
    (hst : ∀ n t, .createTable n t ∈ sts → t.rows = []) (h : runAst sts s = .ok s') :
    runAst sts (bareSchema s) = .ok (bareSchema s') := by
  induction sts generalizing s with
  | nil => cases h; rfl
  | cons st sts ih =>
    simp only [runAst] at h ⊢
    obtain ⟨s1, h1, h2⟩ := except_bind_ok.mp h
    rw [execStmt_bare s s1 st (fun n t e => hst n t (by simp [e])) h1]
    exact ih s1 (fun n t hm => hst n t (by simp [hm])) h2

/-- a statement of the scripts creates tables without rows -/
def createsEmpty : SqlStmt → Bool
  | .createTable _ t => t.rows.isEmpty
  | _ => true

theorem creates_empty : ∀ sts ∈ [ast1, ast2, ast3, ast4, ast5], ∀ st ∈ sts, createsEmpty st = true := by
  decide +kernel

theorem shippedAst_empty (id : Nat) (n : Str) (t : Table) (h : .createTable n t ∈ shippedAst id) :
    t.rows = [] := by
  have : shippedAst id ∈ [ast1, ast2, ast3, ast4, ast5] ∨ shippedAst id = [] := by
    unfold shippedAst
    split <;> simp
  rcases this with hm | he
  · simpa [createsEmpty] using creates_empty _ hm _ h
  · rw [he] at h; cases h

theorem runScripts_bare (ids : List Nat) (s s' : Schema) (h : runScripts ids s = .ok s') :
    runScripts ids (bareSchema s) = .ok (bareSchema s') := by
  induction ids generalizing s with
  | nil => cases h; rfl
  | cons id ids ih =>
    simp only [runScripts] at h ⊢
    obtain ⟨s1, h1, h2⟩ := except_bind_ok.mp h
    rw [runAst_bare _ s s1 (shippedAst_empty id) h1]
    exact ih s1 h2

end PyULog
