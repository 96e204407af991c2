import Verif.Lemmas.SqlRerun
/-
The schema that the scripts make, and what db.py needs.
-/
namespace PyULog
open Spec

theorem bare_rows (s : Schema) : s.tables.keys = (bareSchema s).tables.keys := by
  simp [bareSchema, bareTables, Dict.keys, Function.comp_def]

theorem hasCols_bare {s : Schema} {n : Str} {cols : List Str} (h : HasCols (bareSchema s) n cols) :
    HasCols s n cols := by
  obtain ⟨t, h1, h2⟩ := h
  have h1' : (Dict.get? s.tables (upName n)).map bareTable = some t := by rw [← get?_bare]; exact h1
  obtain ⟨t', h3, rfl⟩ := Option.map_eq_some_iff.mp h1'
  exact ⟨t', h3, h2⟩

theorem isUnique_bare {s : Schema} {n : Str} {cols : List Str} (h : IsUnique (bareSchema s) n cols) :
    IsUnique s n cols := by
  obtain ⟨t, h1, h2⟩ := h
  have h1' : (Dict.get? s.tables (upName n)).map bareTable = some t := by rw [← get?_bare]; exact h1
  obtain ⟨t', h3, rfl⟩ := Option.map_eq_some_iff.mp h1'
  exact ⟨t', h3, h2⟩

theorem owned_bare {s : Schema} {n : Str} (h : Owned (bareSchema s) n) : Owned s n := by
  induction h with
  | ulog => exact .ulog
  | child h1 h2 h3 h4 _ ih =>
    rename_i n t fk _
    have h1' : (Dict.get? s.tables n).map bareTable = some t := by rw [← get?_bare]; exact h1
    obtain ⟨t', h5, rfl⟩ := Option.map_eq_some_iff.mp h1'
    exact .child h5 h2 h3 h4 ih

theorem serves_bare {s : Schema} (h : Serves (bareSchema s)) : Serves s where
  columns u hu := hasCols_bare (h.columns u hu)
  digest := isUnique_bare h.digest
  dataset := isUnique_bare h.dataset
  keys n hn := isUnique_bare (h.keys n hn)
  owned n hn := owned_bare (h.owned n (bare_rows s ▸ hn))
  free p hp fk hfk := h.free (p.1, bareTable p.2) (List.mem_map.mpr ⟨p, hp, rfl⟩) fk hfk

/-! ### checks -/

def hasColsB (s : Schema) (n : Str) (cols : List Str) : Bool :=
  match s.tables.get? (upName n) with
  | some t => cols.all fun c => (t.cols.map (·.1)).contains (upName c)
  | none => false

theorem hasColsB_sound {s : Schema} {n : Str} {cols : List Str} (h : hasColsB s n cols = true) :
    HasCols s n cols := by
  unfold hasColsB at h
  split at h
  · rename_i t ht
    exact ⟨t, ht, fun c hc => by simpa using List.all_eq_true.mp h c hc⟩
  · cases h

def isUniqueB (s : Schema) (n : Str) (cols : List Str) : Bool :=
  match s.tables.get? (upName n) with
  | some t => t.uniques.contains (cols.map upName)
  | none => false

theorem isUniqueB_sound {s : Schema} {n : Str} {cols : List Str} (h : isUniqueB s n cols = true) :
    IsUnique s n cols := by
  unfold isUniqueB at h
  split at h
  · rename_i t ht
    exact ⟨t, ht, by simpa using h⟩
  · cases h

def ownedB (s : Schema) : Nat → Str → Bool
  | 0, n => n = py! "ULOG"
  | k + 1, n => n = py! "ULOG" ||
    match s.tables.get? n with
    | some t => t.fks.any fun fk => fk.cascade && decide (fk.parentCol = py! "ID") && ownedB s k fk.parent
    | none => false

theorem ownedB_sound {s : Schema} {k : Nat} {n : Str} (h : ownedB s k n = true) : Owned s n := by
  induction k generalizing n with
  | zero => rw [show n = py! "ULOG" by simpa [ownedB] using h]; exact .ulog
  | succ k ih =>
    simp only [ownedB, Bool.or_eq_true, decide_eq_true_eq] at h
    rcases h with rfl | h
    · exact .ulog
    · split at h
      · rename_i t ht
        obtain ⟨fk, hfk, h1⟩ := List.any_eq_true.mp h
        simp only [Bool.and_eq_true, decide_eq_true_eq] at h1
        exact .child ht hfk h1.1.1 h1.1.2 (ih h1.2)
      · cases h

def servesB (s : Schema) : Bool :=
  dbUses.all (fun u => hasColsB s u.1 u.2) && isUniqueB s (py! "ULog") [py! "SHA256Sum"] &&
  isUniqueB s (py! "ULogDataset") [py! "ULogId", py! "DatasetName", py! "MultiId"] &&
  [py! "ULog", py! "ULogDataset", py! "ULogField", py! "ULogMessageFormat",
    py! "ULogMessageInfoMultiple", py! "ULogMessageInfoMultipleList"].all (isUniqueB s · [py! "Id"]) &&
  s.tables.keys.all (ownedB s 3) && s.tables.all fun p => p.2.fks.all (·.cascade)

theorem servesB_sound {s : Schema} (h : servesB s = true) : Serves s := by
  simp only [servesB, Bool.and_eq_true, List.all_eq_true] at h
  obtain ⟨⟨⟨⟨⟨h1, h2⟩, h3⟩, h4⟩, h5⟩, h6⟩ := h
  exact ⟨fun u hu => hasColsB_sound (h1 u hu), isUniqueB_sound h2, isUniqueB_sound h3,
    fun n hn => isUniqueB_sound (h4 n hn), fun n hn => ownedB_sound (h5 n hn), h6⟩

theorem fresh_serves : Serves (freshSchema 5) := servesB_sound (by decide +kernel)

theorem fresh_from (v : Nat) (hv : v ≤ 5) : runScripts (idsFrom v) (freshSchema v) = .ok (freshSchema 5) := by
  have step : ∀ n, n < 5 → idsFrom n = (n + 1) :: idsFrom (n + 1) := by
    intro n hn
    unfold idsFrom
    rw [show 5 - n = (5 - (n + 1)) + 1 by omega]
    rfl
  have h5 : idsFrom 5 = [] := rfl
  have go : ∀ k, k ≤ 5 → runScripts (idsFrom (5 - k)) (freshSchema (5 - k)) = .ok (freshSchema 5) := by
    intro k
    induction k with
    | zero => intro _; rfl
    | succ k ih =>
      intro hk
      have e : 5 - (k + 1) + 1 = 5 - k := by omega
      rw [step _ (by omega), runScripts, fresh_run _ (by omega), e]
      exact ih (by omega)
  have := go (5 - v) (by omega)
  rwa [show 5 - (5 - v) = v by omega] at this

/-- the first `v` scripts on an empty database -/
theorem fresh_upto (v : Nat) (hv : v ≤ 5) : runScripts (List.range' 1 v) {} = .ok (freshSchema v) := by
  have key : ∀ a b s, runScripts (a ++ b) s = (runScripts a s).bind (runScripts b) := by
    intro a
    induction a with
    | nil => intro b s; rfl
    | cons x a ih =>
      intro b s
      simp only [List.cons_append, runScripts]
      cases runAst (shippedAst x) s with
      | error e => rfl
      | ok s1 => exact ih b s1
  induction v with
  | zero => rfl
  | succ v ih =>
    rw [List.range'_concat, key, ih (by omega)]
    show runScripts [1 + 1 * v] (freshSchema v) = _
    rw [show 1 + 1 * v = v + 1 by omega, runScripts, fresh_run v (by omega)]
    rfl

end PyULog
