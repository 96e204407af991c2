import Verif.Model.Events
import Verif.Lemmas.Basic
import Verif.Lemmas.Datasets
import Verif.Lemmas.Decimal
import Verif.Lemmas.Errors
import Verif.Lemmas.Decode
/-
Events of PX4 logs: C34 and C56.
-/
namespace PyULog
open Spec

/-! ### C34 -/

/-- names of the levels that are shown, from the most severe -/
def Spec.severities : List Str := [
  py! "EMERGENCY", py! "ALERT", py! "CRITICAL", py! "ERROR", py! "WARNING", py! "NOTICE", py! "INFO",
  py! "DEBUG"]

/-- contents of an event dataset with `n` rows and `nargs` argument bytes: the external level is the
upper half of the level byte -/
structure Spec.EventRows where
  n : Nat
  nargs : Nat
  ts : Nat → Nat
  id : Nat → Nat
  internal : Nat → Nat
  external : Nat → Nat
  arg : Nat → Nat → UInt8

/-- the dataset has these contents -/
structure Spec.EventRows.Of (r : EventRows) (d : Dataset) : Prop where
  ts : d.data.get? (py! "timestamp") = some ((List.range r.n).map fun i => .int (r.ts i))
  id : d.data.get? (py! "id") = some ((List.range r.n).map fun i => .int (r.id i))
  nibble : ∀ i, r.internal i < 16 ∧ r.external i < 16
  levels : d.data.get? (py! "log_levels") =
    some ((List.range r.n).map fun i => .int ((16 * r.external i + r.internal i : Nat)))
  args : ∀ k < r.nargs, d.data.get? (py! "arguments[" ++ natDec k ++ py! "]") =
    some ((List.range r.n).map fun i => .int ((r.arg k i).toNat))
  last : d.data.get? (py! "arguments[" ++ natDec r.nargs ++ py! "]") = none

/-- the argument bytes of a row -/
def Spec.EventRows.bytes (r : EventRows) (i : Nat) : Bytes := (List.range r.nargs).map fun k => r.arg k i

/-- what is listed for row `i`, given the definitions -/
def Spec.EventRows.shown (r : EventRows) (defs : Int → Bytes → Option Event) (i : Nat) :
    Option (NpVal × Str × Str) :=
  match severities[r.external i]? with
  | none => none
  | some level =>
    match defs (r.id i) (r.bytes i) with
    | none => some (.int (r.ts i), level, py! "[Unknown event with ID " ++ natDec (r.id i) ++ py! "]")
    | some e => if e.group = py! "default" then some (.int (r.ts i), level, e.message) else none

theorem pyIndex_map_range {α : Type} (f : Nat → α) {n i : Nat} (h : i < n) :
    pyIndex ((List.range n).map f) i = .ok (f i) := by
  unfold pyIndex
  rw [List.getElem?_map, List.getElem?_range h]
  rfl

theorem argName_inj {a b : Nat} (h : argName a = argName b) : a = b := by
  unfold argName at h
  rw [List.append_assoc, List.append_assoc] at h
  exact natDec_inj (List.append_cancel_right (List.append_cancel_left h))

theorem args_bound {r : EventRows} {d : Dataset} (h : r.Of d) : r.nargs ≤ d.data.length := by
  have hnd : ((List.range r.nargs).map argName).Nodup := by
    rw [List.nodup_iff_pairwise_ne, List.pairwise_map]
    exact List.nodup_range.imp fun hne he => hne (argName_inj he)
  have hsub : (List.range r.nargs).map argName ⊆ d.data.map (·.1) := by
    intro k hk
    obtain ⟨i, hi, rfl⟩ := List.mem_map.mp hk
    have := h.args i (List.mem_range.mp hi)
    exact List.mem_map.mpr ⟨_, Dict.mem_of_get? _ _ _ this, rfl⟩
  have := hnd.length_le_of_subset hsub
  simpa using this

theorem eventArgs_spec {r : EventRows} {d : Dataset} (h : r.Of d) {row : Nat} (hrow : row < r.n) :
    ∀ m k fuel, k + m = r.nargs → m ≤ fuel →
      eventArgs d row fuel k = .ok ((List.range' k m).map fun j => NpVal.int ((r.arg j row).toNat)) := by
  intro m
  induction m with
  | zero =>
    intro k fuel hk hf
    cases fuel with
    | zero => rfl
    | succ f =>
      have hl : d.data.get? (argName k) = none := by
        rw [show k = r.nargs by omega]; exact h.last
      unfold eventArgs
      rw [hl]
      rfl
  | succ m ih =>
    intro k fuel hk hf
    obtain ⟨f, rfl⟩ : ∃ f, fuel = f + 1 := ⟨fuel - 1, by omega⟩
    have hg : d.data.get? (argName k) = some ((List.range r.n).map fun i => .int ((r.arg k i).toNat)) :=
      h.args k (by omega)
    unfold eventArgs
    rw [hg]
    show Except.bind (pyIndex _ row) _ = _
    rw [pyIndex_map_range _ hrow]
    show Except.bind (eventArgs d row f (k + 1)) _ = _
    rw [ih (k + 1) f (by omega) (by omega), List.range'_succ]
    rfl

theorem toByte_mapM (l : List UInt8) :
    (l.map fun b => NpVal.int (b.toNat)).mapM toByte = .ok l := by
  induction l with
  | nil => rfl
  | cons b bs ih =>
    rw [List.map_cons, List.mapM_cons, ih]
    have hb : toByte (NpVal.int (b.toNat)) = .ok b := by
      have hb := b.toNat_lt
      generalize hn : b.toNat = n at hb
      have hi : toByte (NpVal.int (n : Nat)) = if 0 ≤ (n : Int) ∧ (n : Int) < 256 then
          .ok (UInt8.ofNat (n : Int).toNat) else .error .valueError := rfl
      rw [hi, if_pos (by omega), Int.toNat_natCast, ← hn, UInt8.ofNat_toNat]
    rw [hb]
    rfl

theorem intDec_nat (n : Nat) : intDec (n : Int) = natDec n := by
  unfold intDec
  first
    | rfl
    | (rw [if_neg (by omega)]; simp)

theorem eventLevelStr_spec {x : Nat} {s : Str} (h : severities[x]? = some s) : eventLevelStr (x : Nat) = s := by
  have hx : x < 8 := by
    rcases Nat.lt_or_ge x 8 with h8 | h8
    · exact h8
    · rw [List.getElem?_eq_none (by exact h8)] at h; cases h
  rcases (show x = 0 ∨ x = 1 ∨ x = 2 ∨ x = 3 ∨ x = 4 ∨ x = 5 ∨ x = 6 ∨ x = 7 by omega) with
    rfl | rfl | rfl | rfl | rfl | rfl | rfl | rfl <;> exact Option.some.inj h

/-- the result of the parser, as a partial function -/
def Spec.Parses (parser : Option EventParser) (defs : Int → Bytes → Option Event) : Prop :=
  match parser with
  | none => ∀ id args, defs id args = none
  | some p => ∀ id args, p (.int id) args = .ok (defs id args)

/-- what the parser gives for an event -/
def Spec.ParsedAs (parser : Option EventParser) (id : Int) (args : Bytes) (x : Option Event) : Prop :=
  match parser with
  | none => x = none
  | some p => p (.int id) args = .ok x

theorem Spec.Parses.at {parser : Option EventParser} {defs : Int → Bytes → Option Event} (h : Parses parser defs)
    (id : Int) (args : Bytes) : ParsedAs parser id args (defs id args) := by
  unfold Parses at h
  unfold ParsedAs
  cases parser <;> exact h id args

theorem toByte_row {r : EventRows} (row : Nat) (p : EventParser) :
    parseEvent (some p) (.int (r.id row)) ((List.range' 0 r.nargs).map (fun j => NpVal.int ((r.arg j row).toNat)))
      = p (.int (r.id row)) (r.bytes row) := by
  have hbytes : (List.range' 0 r.nargs).map (fun j => NpVal.int ((r.arg j row).toNat))
      = (r.bytes row).map fun b => NpVal.int (b.toNat) := by
    unfold EventRows.bytes
    rw [List.map_map, ← List.range_eq_range']
    rfl
  unfold parseEvent
  dsimp only
  rw [hbytes, toByte_mapM]
  rfl

/-- a row of a shown level calls the parser -/
theorem eventStep_parser {r : EventRows} {d : Dataset} (h : r.Of d) {p : EventParser} {row : Nat} (hrow : row < r.n)
    (h8 : r.external row < 8) {e : PyErr} (he : p (.int (r.id row)) (r.bytes row) = .error e) :
    eventStep (some p) d row (.int (r.id row)) = .error e := by
  have hlev : externalLevel (.int ((16 * r.external row + r.internal row : Nat))) = .ok (r.external row : Int) := by
    have := h.nibble row
    show Except.ok (((16 * r.external row + r.internal row : Nat) : Int) / 16 % 16) = _
    congr 1
    omega
  have hget : ∀ {k : Str} {c : List NpVal}, d.data.get? k = some c → dictGet d.data k = .ok c := by
    intro k c hk
    unfold dictGet
    rw [hk]
  have hg1 := hget h.levels
  have hg2 := hget h.ts
  unfold eventStep
  rw [hg1, ok_bind, pyIndex_map_range _ hrow, ok_bind, hlev, ok_bind, if_neg (by omega),
    eventArgs_spec h hrow r.nargs 0 _ (by omega) (args_bound h), ok_bind, hg2, ok_bind,
    pyIndex_map_range _ hrow, ok_bind,
    toByte_row, he]
  rfl

theorem eventStep_spec {r : EventRows} {d : Dataset} (h : r.Of d) {parser : Option EventParser}
    {defs : Int → Bytes → Option Event} {row : Nat} (hrow : row < r.n)
    (hp : ParsedAs parser (r.id row) (r.bytes row) (defs (r.id row) (r.bytes row))) :
    eventStep parser d row (.int (r.id row)) = .ok (r.shown defs row).toList := by
  have hlev : externalLevel (.int ((16 * r.external row + r.internal row : Nat))) = .ok (r.external row : Int) := by
    have := h.nibble row
    show Except.ok (((16 * r.external row + r.internal row : Nat) : Int) / 16 % 16) = _
    congr 1
    omega
  have hget : ∀ {k : Str} {c : List NpVal}, d.data.get? k = some c → dictGet d.data k = .ok c := by
    intro k c hk
    unfold dictGet
    rw [hk]
  have hg1 := hget h.levels
  have hg2 := hget h.ts
  unfold eventStep
  rw [hg1, ok_bind, pyIndex_map_range _ hrow, ok_bind, hlev, ok_bind]
  unfold EventRows.shown
  by_cases h8 : r.external row < 8
  · rw [if_neg (by omega)]
    obtain ⟨s, hs⟩ : ∃ s, severities[r.external row]? = some s :=
      ⟨_, List.getElem?_eq_getElem (by exact h8)⟩
    have hparse : parseEvent parser (.int (r.id row)) ((List.range' 0 r.nargs).map (fun j => NpVal.int ((r.arg j row).toNat)))
        = .ok (defs (r.id row) (r.bytes row)) := by
      cases parser with
      | none => dsimp only [parseEvent, ParsedAs] at hp ⊢; rw [hp]
      | some p => rw [toByte_row]; exact hp
    rw [eventArgs_spec h hrow r.nargs 0 _ (by omega) (args_bound h), ok_bind, hg2, ok_bind,
      pyIndex_map_range _ hrow, ok_bind,
      hparse, ok_bind, hs]
    show Except.ok (eventMessage _ _ _ _) = _
    unfold eventMessage
    rw [eventLevelStr_spec hs]
    cases hd : defs (r.id row) (r.bytes row) with
    | none => dsimp only; unfold idText; dsimp only; rw [intDec_nat]; rfl
    | some e =>
      dsimp only
      split <;> rfl
  · rw [if_pos (by omega), List.getElem?_eq_none (by show 8 ≤ _; omega)]
    rfl

theorem eventLoop_spec {r : EventRows} {d : Dataset} (h : r.Of d) {parser : Option EventParser}
    {defs : Int → Bytes → Option Event} (hp : Parses parser defs) :
    ∀ m row, row + m = r.n →
      eventLoop parser d row ((List.range' row m).map fun i => .int (r.id i))
        = .ok ((List.range' row m).filterMap (r.shown defs)) := by
  intro m
  induction m with
  | zero => intro row _; rfl
  | succ m ih =>
    intro row hrow
    rw [List.range'_succ, List.map_cons, List.filterMap_cons]
    unfold eventLoop
    rw [eventStep_spec (defs := defs) h (by omega) (hp.at _ _)]
    dsimp only
    rw [ih (row + 1) (by omega)]
    cases r.shown defs row <;> rfl

theorem eventLoop_stops {r : EventRows} {d : Dataset} (h : r.Of d) {p : EventParser}
    {defs : Int → Bytes → Option Event} {k : Nat} (hk : k < r.n) (h8 : r.external k < 8)
    (hp : ∀ i, i < k → p (.int (r.id i)) (r.bytes i) = .ok (defs (r.id i) (r.bytes i)))
    {e : PyErr} (he : p (.int (r.id k)) (r.bytes k) = .error e) (rest : List NpVal) :
    ∀ m row, row + m = k →
      eventLoop (some p) d row ((List.range' row m).map (fun i => .int (r.id i)) ++ .int (r.id k) :: rest)
        = if swallowed e then .ok ((List.range' row m).filterMap (r.shown defs)) else .error e := by
  intro m
  induction m with
  | zero =>
    intro row hrow
    have : row = k := by omega
    subst this
    show eventLoop (some p) d row (.int (r.id row) :: rest) = _
    unfold eventLoop
    rw [eventStep_parser h hk h8 he]
    rfl
  | succ m ih =>
    intro row hrow
    rw [List.range'_succ, List.map_cons, List.filterMap_cons, List.cons_append]
    unfold eventLoop
    rw [eventStep_spec (parser := some p) (defs := defs) (row := row) h (by omega) (show ParsedAs (some p) _ _ _ from hp row (by omega))]
    dsimp only
    rw [ih (row + 1) (by omega)]
    cases swallowed e <;> cases r.shown defs row <;> rfl

/-- **C34**: the events are listed in the order of the dataset; exactly those with an external level of
8 or more and those of a group other than `default` are left out, and an event without definition is
reported with its id. -/
theorem C34_events {r : EventRows} {d : Dataset} (u : ULog) (h : r.Of d)
    (hd : u.dataList.find? (fun d => d.name = py! "event" ∧ d.multiId = 0) = some d)
    {parser : Option EventParser} {defs : Int → Bytes → Option Event} (hp : Parses parser defs) :
    getLoggedEvents (.ok parser) u = .ok ((List.range r.n).filterMap (r.shown defs)) := by
  have hg : getDataset u (py! "event") = .ok d := by
    unfold getDataset pyIndex
    rw [← List.head?_eq_getElem?, List.head?_filter]
    have : (fun d : Dataset => decide (d.name = py! "event" ∧ (d.multiId : Int) = 0))
        = fun d => decide (d.name = py! "event" ∧ d.multiId = 0) := by
      funext x
      rw [decide_eq_decide]
      exact and_congr_right fun _ => by omega
    rw [this, hd]
  unfold getLoggedEvents
  rw [hg]
  dsimp only
  rw [h.id]
  have hl := eventLoop_spec h hp r.n 0 (by omega)
  rw [← List.range_eq_range'] at hl
  cases hn : r.n with
  | zero => rfl
  | succ n =>
    rw [hn] at hl
    cases hm : (List.range (n + 1)).map (fun i => NpVal.int (r.id i)) with
    | nil => exact absurd (congrArg List.length hm) (by simp)
    | cons x xs => rw [← hm]; exact (by rw [hm]; rw [hm] at hl; exact hl)

/-- **C34**: without definitions every event that is not filtered by its level is reported as unknown. -/
theorem C34_no_definitions {r : EventRows} {d : Dataset} (u : ULog) (h : r.Of d)
    (hd : u.dataList.find? (fun d => d.name = py! "event" ∧ d.multiId = 0) = some d) :
    getLoggedEvents (.ok none) u = .ok ((List.range r.n).filterMap fun i =>
      (severities[r.external i]?).map fun level =>
        (.int (r.ts i), level, py! "[Unknown event with ID " ++ natDec (r.id i) ++ py! "]")) := by
  rw [C34_events u h hd (parser := none) (defs := fun _ _ => none) (fun _ _ => rfl)]
  congr 1
  congr 1
  funext i
  unfold EventRows.shown
  cases severities[r.external i]? <;> rfl

/-- **C34**: when the definitions raise an exception for an event, KeyError, IndexError and ValueError end the
list: the events before it are shown. Another exception is passed on. -/
theorem C34_stops {r : EventRows} {d : Dataset} (u : ULog) (h : r.Of d)
    (hd : u.dataList.find? (fun d => d.name = py! "event" ∧ d.multiId = 0) = some d)
    {p : EventParser} {defs : Int → Bytes → Option Event} {k : Nat} (hk : k < r.n) (h8 : r.external k < 8)
    (hp : ∀ i, i < k → p (.int (r.id i)) (r.bytes i) = .ok (defs (r.id i) (r.bytes i)))
    {e : PyErr} (he : p (.int (r.id k)) (r.bytes k) = .error e) :
    (e = .keyError ∨ e = .indexError ∨ e = .valueError ∨ e = .unicodeError →
      getLoggedEvents (.ok (some p)) u = .ok ((List.range k).filterMap (r.shown defs))) ∧
    (¬ (e = .keyError ∨ e = .indexError ∨ e = .valueError ∨ e = .unicodeError) →
      getLoggedEvents (.ok (some p)) u = .error e) := by
  have hg : getDataset u (py! "event") = .ok d := by
    unfold getDataset pyIndex
    rw [← List.head?_eq_getElem?, List.head?_filter]
    have : (fun d : Dataset => decide (d.name = py! "event" ∧ (d.multiId : Int) = 0))
        = fun d => decide (d.name = py! "event" ∧ d.multiId = 0) := by
      funext x
      rw [decide_eq_decide]
      exact and_congr_right fun _ => by omega
    rw [this, hd]
  have hsplit : ((List.range r.n).map fun i => NpVal.int (r.id i)) = (List.range' 0 k).map (fun i => NpVal.int (r.id i)) ++
      .int (r.id k) :: (List.range' (k + 1) (r.n - k - 1)).map (fun i => NpVal.int (r.id i)) := by
    rw [List.range_eq_range', ← List.map_cons (f := fun i => NpVal.int (r.id i)), ← List.map_append, ← List.range'_succ]
    congr 1
    rw [show r.n - k - 1 + 1 = r.n - k by omega]
    have := List.range'_append (s := 0) (m := k) (n := r.n - k) (step := 1)
    simp only [Nat.one_mul, Nat.zero_add] at this
    rw [this]
    congr 1
    omega
  have hall : getLoggedEvents (.ok (some p)) u =
      if swallowed e then .ok ((List.range' 0 k).filterMap (r.shown defs)) else .error e := by
    rw [← eventLoop_stops h hk h8 hp he ((List.range' (k + 1) (r.n - k - 1)).map (fun i => NpVal.int (r.id i))) k 0 (by omega),
      ← hsplit]
    unfold getLoggedEvents
    rw [hg]
    dsimp only
    rw [h.id]
    cases hm : (List.range r.n).map (fun i => NpVal.int (r.id i)) with
    | nil =>
      have := congrArg List.length hm
      simp at this
      omega
    | cons x xs => rfl
  rw [hall, ← List.range_eq_range']
  refine ⟨fun he => ?_, fun he => ?_⟩
  · rw [if_pos]
    rcases he with rfl | rfl | rfl | rfl <;> rfl
  · rw [if_neg]
    intro hs
    unfold swallowed at hs
    simp only [Bool.or_eq_true, decide_eq_true_eq] at hs
    exact he (by rcases hs with ((h | h) | h) | h <;> simp [h])

/-- **C34**: a level that is no integer is a TypeError, which is passed on. -/
theorem C34_float_level {d : Dataset} (u : ULog) {parser : Option EventParser}
    (hd : u.dataList.find? (fun d => d.name = py! "event" ∧ d.multiId = 0) = some d)
    {ids levels : List NpVal} (hi : d.data.get? (py! "id") = some ids) (hne : ids ≠ [])
    (hl : d.data.get? (py! "log_levels") = some levels) {v : NpVal} (hv : levels.head? = some v)
    (hf : ∀ n, v ≠ .int n) :
    getLoggedEvents (.ok parser) u = .error .typeError := by
  have hg : getDataset u (py! "event") = .ok d := by
    unfold getDataset pyIndex
    rw [← List.head?_eq_getElem?, List.head?_filter]
    have : (fun d : Dataset => decide (d.name = py! "event" ∧ (d.multiId : Int) = 0))
        = fun d => decide (d.name = py! "event" ∧ d.multiId = 0) := by
      funext x
      rw [decide_eq_decide]
      exact and_congr_right fun _ => by omega
    rw [this, hd]
  obtain ⟨i, is, rfl⟩ := List.exists_cons_of_ne_nil hne
  have hlev : externalLevel v = .error .typeError := by
    cases v with
    | int n => exact absurd rfl (hf n)
    | _ => rfl
  have hget : ∀ {k : Str} {c : List NpVal}, d.data.get? k = some c → dictGet d.data k = .ok c := by
    intro k c hk
    unfold dictGet
    rw [hk]
  have hs : eventStep parser d 0 i = .error .typeError := by
    unfold eventStep
    rw [hget hl, ok_bind, show pyIndex levels 0 = .ok v by
      unfold pyIndex
      rw [← List.head?_eq_getElem?, hv], ok_bind, hlev]
    rfl
  unfold getLoggedEvents
  rw [hg]
  dsimp only
  rw [hi]
  show eventLoop parser d 0 (i :: is) = _
  unfold eventLoop
  rw [hs]
  rfl

/-- a log with such a level -/
example : ∃ (u : ULog) (d : Dataset) (ids levels : List NpVal) (v : NpVal),
    u.dataList.find? (fun d => d.name = py! "event" ∧ d.multiId = 0) = some d ∧
    d.data.get? (py! "id") = some ids ∧ ids ≠ [] ∧ d.data.get? (py! "log_levels") = some levels ∧
    levels.head? = some v ∧ ∀ n, v ≠ .int n :=
  ⟨{ dataList := [⟨0, 0, py! "event", [], 0, [(py! "id", [.int 1]), (py! "log_levels", [.f32 0])]⟩] }, _, _, _, _,
    rfl, rfl, by simp, rfl, rfl, by simp⟩

/-- a reason why row `i` with the id `id` raises `e` -/
inductive Spec.EventObstacle (parser : Option EventParser) (d : Dataset) (i : Nat) (id : NpVal) : PyErr → Prop
  /-- the level is a float -/
  | level {col v} : d.data.get? (py! "log_levels") = some col → col[i]? = some v → (∀ n, v ≠ .int n) →
      EventObstacle parser d i id .typeError
  /-- an argument is a float -/
  | argument {k col v} : parser.isSome → d.data.get? (py! "arguments[" ++ natDec k ++ py! "]") = some col →
      col[i]? = some v → (∀ n, v ≠ .int n) → EventObstacle parser d i id .typeError
  /-- the definitions raise it -/
  | definition {p args e} : parser = some p → p id args = .error e → EventObstacle parser d i id e

theorem pyIndex_getElem {α : Type} {l : List α} {i : Nat} {x : α} (h : pyIndex l i = .ok x) : l[i]? = some x := by
  unfold pyIndex at h
  cases hl : l[i]? with
  | none => rw [hl] at h; cases h
  | some y => rw [hl] at h; injection h with h; rw [h]

theorem dictGet_get? {κ α : Type} [DecidableEq κ] {d : Dict κ α} {k : κ} {x : α} (h : dictGet d k = .ok x) :
    d.get? k = some x := by
  unfold dictGet at h
  cases hl : d.get? k with
  | none => rw [hl] at h; cases h
  | some y => rw [hl] at h; injection h with h; rw [h]

theorem eventArgs_mem {d : Dataset} {row : Nat} : ∀ {fuel i : Nat} {l : List NpVal}, eventArgs d row fuel i = .ok l →
    ∀ v ∈ l, ∃ k col, d.data.get? (argName k) = some col ∧ col[row]? = some v := by
  intro fuel
  induction fuel with
  | zero =>
    intro i l h v hv
    unfold eventArgs at h
    cases h
    cases hv
  | succ fuel ih =>
    intro i l h v hv
    unfold eventArgs at h
    cases hc : d.data.get? (argName i) with
    | none => rw [hc] at h; cases h; cases hv
    | some col =>
      rw [hc] at h
      obtain ⟨x, hx, h⟩ := except_bind_ok.mp h
      obtain ⟨rest, hr, h⟩ := except_bind_ok.mp h
      cases h
      rcases List.mem_cons.mp hv with rfl | hv
      · exact ⟨i, col, hc, pyIndex_getElem hx⟩
      · exact ih hr v hv

theorem eventArgs_err {d : Dataset} {row : Nat} {e : PyErr} : ∀ {fuel i : Nat}, eventArgs d row fuel i = .error e →
    e = .indexError := by
  intro fuel
  induction fuel with
  | zero => intro i h; unfold eventArgs at h; cases h
  | succ fuel ih =>
    intro i h
    unfold eventArgs at h
    cases hc : d.data.get? (argName i) with
    | none => rw [hc] at h; cases h
    | some col =>
      rw [hc] at h
      rcases except_bind_error.mp h with h | ⟨x, _, h⟩
      · exact pyIndex_err h
      · rcases except_bind_error.mp h with h | ⟨_, _, h⟩
        · exact ih h
        · cases h

theorem toByte_err {v : NpVal} {e : PyErr} (h : toByte v = .error e) :
    e = .valueError ∨ (e = .typeError ∧ ∀ n, v ≠ .int n) := by
  cases v with
  | int n =>
    unfold toByte at h
    dsimp only at h
    split at h
    · cases h
    · cases h; exact .inl rfl
  | f32 b => cases h; exact .inr ⟨rfl, by simp⟩
  | f64 b => cases h; exact .inr ⟨rfl, by simp⟩

theorem toBytes_err {e : PyErr} : ∀ {l : List NpVal}, l.mapM toByte = .error e →
    e = .valueError ∨ (e = .typeError ∧ ∃ v ∈ l, ∀ n, v ≠ .int n) := by
  intro l
  induction l with
  | nil => intro h; cases h
  | cons v l ih =>
    intro h
    rw [List.mapM_cons] at h
    rcases except_bind_error.mp h with h | ⟨x, _, h⟩
    · rcases toByte_err h with h | ⟨h, hv⟩
      · exact .inl h
      · exact .inr ⟨h, v, by simp, hv⟩
    · rcases except_bind_error.mp h with h | ⟨_, _, h⟩
      · rcases ih h with h | ⟨h, w, hw, hn⟩
        · exact .inl h
        · exact .inr ⟨h, w, by simp [hw], hn⟩
      · cases h

theorem swallowed_iff (e : PyErr) :
    swallowed e = true ↔ e = .keyError ∨ e = .indexError ∨ e = .valueError ∨ e = .unicodeError := by
  unfold swallowed
  simp only [Bool.or_eq_true, decide_eq_true_eq, or_assoc]

theorem eventStep_err {parser : Option EventParser} {d : Dataset} {row : Nat} {id : NpVal} {e : PyErr}
    (h : eventStep parser d row id = .error e) (hs : ¬ swallowed e) : EventObstacle parser d row id e := by
  rw [swallowed_iff] at hs
  have hk : e ≠ .keyError := fun h => hs (.inl h)
  have hi : e ≠ .indexError := fun h => hs (.inr (.inl h))
  have hv : e ≠ .valueError := fun h => hs (.inr (.inr (.inl h)))
  have hdict : ∀ {k : Str}, dictGet d.data k = .error e → False := by
    intro k hd
    unfold dictGet at hd
    split at hd
    · cases hd
    · cases hd; exact hk rfl
  unfold eventStep at h
  rcases except_bind_error.mp h with h | ⟨col, hcol, h⟩
  · exact (hdict h).elim
  rcases except_bind_error.mp h with h | ⟨v, hv', h⟩
  · exact absurd (pyIndex_err h) hi
  rcases except_bind_error.mp h with h | ⟨lv, hlv, h⟩
  · cases v with
    | int n => cases h
    | f32 b => cases h; exact .level (dictGet_get? hcol) (pyIndex_getElem hv') (by simp)
    | f64 b => cases h; exact .level (dictGet_get? hcol) (pyIndex_getElem hv') (by simp)
  split at h
  · cases h
  rcases except_bind_error.mp h with h | ⟨args, hargs, h⟩
  · exact absurd (eventArgs_err h) hi
  rcases except_bind_error.mp h with h | ⟨ts, _, h⟩
  · exact (hdict h).elim
  rcases except_bind_error.mp h with h | ⟨t, _, h⟩
  · exact absurd (pyIndex_err h) hi
  rcases except_bind_error.mp h with h | ⟨_, _, h⟩
  · cases parser with
    | none => cases h
    | some p =>
      unfold parseEvent at h
      rcases except_bind_error.mp h with h | ⟨bytes, _, h⟩
      · rcases toBytes_err h with h | ⟨rfl, w, hw, hn⟩
        · exact absurd h hv
        · obtain ⟨k, c, h1, h2⟩ := eventArgs_mem hargs w hw
          exact .argument rfl h1 h2 hn
      · exact .definition rfl h
  · cases h

theorem eventLoop_err {parser : Option EventParser} {d : Dataset} {e : PyErr} : ∀ {ids : List NpVal} {row : Nat},
    eventLoop parser d row ids = .error e →
      ¬ swallowed e ∧ ∃ i id, ids[i]? = some id ∧ EventObstacle parser d (row + i) id e := by
  intro ids
  induction ids with
  | nil => intro row h; cases h
  | cons id ids ih =>
    intro row h
    unfold eventLoop at h
    cases hs : eventStep parser d row id with
    | ok ms =>
      rw [hs] at h
      obtain ⟨h1, i, x, h2, h3⟩ := ih (except_map_error.mp h)
      exact ⟨h1, i + 1, x, h2, by rw [show row + (i + 1) = row + 1 + i by omega]; exact h3⟩
    | error x =>
      rw [hs] at h
      dsimp only at h
      split at h
      · cases h
      · next hn =>
        cases h
        exact ⟨hn, 0, id, rfl, eventStep_err hs hn⟩

/-- **C34**: an exception is a TypeError for a float as level or argument, or comes from the definitions; it is none
of KeyError, IndexError and ValueError. -/
theorem C34_exception {parser : Except PyErr (Option EventParser)} {u : ULog} {e : PyErr}
    (h : getLoggedEvents parser u = .error e) :
    (e ≠ .keyError ∧ e ≠ .indexError ∧ e ≠ .valueError ∧ e ≠ .unicodeError) ∧
    ∃ p d ids i id, parser = .ok p ∧ d ∈ u.dataList ∧ d.name = py! "event" ∧ d.multiId = 0 ∧
      d.data.get? (py! "id") = some ids ∧ ids[i]? = some id ∧ EventObstacle p d i id e := by
  unfold getLoggedEvents at h
  cases hg : getDataset u (py! "event") with
  | error x =>
    rw [hg] at h
    have : x = .indexError := pyIndex_err hg
    subst this
    cases h
  | ok d =>
    rw [hg] at h
    dsimp only at h
    unfold getDataset at hg
    have hm := List.mem_filter.mp (List.mem_of_getElem? (pyIndex_getElem hg))
    have hm2 := of_decide_eq_true hm.2
    have hloop : ∃ p ids, parser = .ok p ∧ d.data.get? (py! "id") = some ids ∧ eventLoop p d 0 ids = .error e := by
      cases hid : d.data.get? (py! "id") with
      | none => rw [hid] at h; cases h
      | some ids =>
        rw [hid] at h
        cases ids with
        | nil => cases h
        | cons x xs =>
          cases parser with
          | error _ => cases h
          | ok p => exact ⟨p, _, rfl, rfl, h⟩
    obtain ⟨p, ids, h1, h2, h3⟩ := hloop
    obtain ⟨hs, i, id, h4, h5⟩ := eventLoop_err h3
    rw [swallowed_iff, not_or, not_or, not_or] at hs
    exact ⟨hs, p, d, ids, i, id, h1, hm.1, hm2.1, by omega, h2, h4, by simpa using h5⟩

/-- a float as argument -/
example : (match getLoggedEvents (.ok (some fun _ _ => .ok none)) { dataList := [⟨0, 0, py! "event", [], 0,
      [(py! "id", [.int 1]), (py! "timestamp", [.int 1]), (py! "log_levels", [.int 0]), (py! "arguments[0]", [.f32 0])]⟩] } with
    | .error e => some e | .ok _ => none) = some .typeError := by decide

/-- **C34**: the id of an event without definition is shown as `float` when the column is one. -/
theorem C34_float_id {d : Dataset} {row : Nat} {b : Nat} {level : Nat} {t : NpVal} {levels ts : List NpVal} {s : Str}
    (hl : d.data.get? (py! "log_levels") = some levels) (hv : levels[row]? = some (.int (16 * level)))
    (hs : severities[level]? = some s) (ha : d.data.get? (py! "arguments[0]") = none)
    (ht : d.data.get? (py! "timestamp") = some ts) (htr : ts[row]? = some t) :
    eventStep none d row (.f64 b) = .ok [(t, s, py! "[Unknown event with ID " ++ f64Text b ++ py! "]")] ∧
    eventStep none d row (.f32 b) = .ok [(t, s, py! "[Unknown event with ID " ++ f64Text (widen b) ++ py! "]")] := by
  have hx : level < 8 := by
    rcases Nat.lt_or_ge level 8 with h8 | h8
    · exact h8
    · rw [List.getElem?_eq_none (by exact h8)] at hs; cases hs
  have hlev : externalLevel (.int (16 * level)) = .ok (level : Int) := by
    show Except.ok ((16 * (level : Int)) / 16 % 16) = _
    congr 1
    omega
  have hargs : eventArgs d row d.data.length 0 = .ok [] := by
    cases d.data.length with
    | zero => rfl
    | succ n =>
      unfold eventArgs
      rw [show d.data.get? (argName 0) = none from ha]
  have hget : ∀ {k : Str} {c : List NpVal}, d.data.get? k = some c → dictGet d.data k = .ok c := by
    intro k c hk
    unfold dictGet
    rw [hk]
  have hpy : ∀ {l : List NpVal} {x}, l[row]? = some x → pyIndex l row = .ok x := by
    intro l x h
    unfold pyIndex
    rw [h]
  have key : ∀ id, eventStep none d row id = .ok [(t, s, py! "[Unknown event with ID " ++ idText id ++ py! "]")] := by
    intro id
    unfold eventStep
    rw [hget hl, ok_bind, hpy hv, ok_bind, hlev, ok_bind, if_neg (by omega), hargs, ok_bind, hget ht, ok_bind, hpy htr,
      ok_bind]
    show Except.ok (eventMessage t level id none) = _
    unfold eventMessage
    rw [eventLevelStr_spec hs]
  exact ⟨key _, key _⟩

/-- 0.1 as `float32` -/
example : idText (.f32 0x3dcccccd) = py! "0.10000000149011612" := by decide +kernel

/-- **C34**: logs without event dataset, and failures to get the definitions, give no events. -/
theorem C34_none (parser : Except PyErr (Option EventParser)) (u : ULog)
    (h : u.dataList.find? (fun d => d.name = py! "event" ∧ d.multiId = 0) = none ∨ ∃ e, parser = .error e) :
    getLoggedEvents parser u = .ok [] := by
  unfold getLoggedEvents
  rcases h with h | ⟨e, rfl⟩
  · have hg : getDataset u (py! "event") = .error .indexError := by
      unfold getDataset pyIndex
      rw [← List.head?_eq_getElem?, List.head?_filter]
      have : (fun d : Dataset => decide (d.name = py! "event" ∧ (d.multiId : Int) = 0))
          = fun d => decide (d.name = py! "event" ∧ d.multiId = 0) := by
        funext x
        rw [decide_eq_decide]
        exact and_congr_right fun _ => by omega
      rw [this, h]
    rw [hg]
    rfl
  · cases hg : getDataset u (py! "event") with
    | error e =>
      have : e = .indexError := pyIndex_err hg
      subst this
      rfl
    | ok d =>
      dsimp only
      cases hi : d.data.get? (py! "id") with
      | none => rfl
      | some ids => cases ids <;> rfl

/-- two events with one argument byte, the second of an unknown kind, and one that is filtered -/
def Sample.eventRows : EventRows where
  n := 3
  nargs := 1
  ts i := 100 + i
  id i := 7 + i
  internal _ := 2
  external i := if i = 2 then 8 else 6
  arg _ i := UInt8.ofNat i

def Sample.eventData : Dataset where
  multiId := 0
  msgId := 4
  name := py! "event"
  fields := []
  tsIdx := 0
  data := [(py! "timestamp", [.int 100, .int 101, .int 102]), (py! "id", [.int 7, .int 8, .int 9]),
    (py! "log_levels", [.int 98, .int 98, .int 130]), (py! "arguments[0]", [.int 0, .int 1, .int 2])]

example : Sample.eventRows.Of Sample.eventData where
  ts := by decide
  id := by decide
  nibble i := by unfold Sample.eventRows; dsimp only; split <;> omega
  levels := by decide
  args k hk := by
    have : k = 0 := by have : k < 1 := hk; omega
    subst this
    decide
  last := by decide

example : (getLoggedEvents (.ok (some fun id _ => .ok (if id = .int 7 then some ⟨py! "default", py! "Armed"⟩ else none)))
    { dataList := [Sample.eventData] }).toOption
    = some [(.int 100, py! "INFO", py! "Armed"), (.int 101, py! "INFO", py! "[Unknown event with ID 8]")] := by
  decide +kernel

-- the second event raises: the first one is shown
example : (getLoggedEvents (.ok (some fun id _ => if id = .int 7 then .ok (some ⟨py! "default", py! "Armed"⟩) else .error .keyError))
    { dataList := [Sample.eventData] }).toOption = some [(.int 100, py! "INFO", py! "Armed")] := by
  decide +kernel

/-! ### C56 -/

/-- letters and digits of ASCII -/
def Spec.asciiAlnum : Str := py! "0123456789ABCDEFGHIJKLMNOPQRSTUVWXYZabcdefghijklmnopqrstuvwxyz"

/-- between 1 and 64 alphanumeric characters, as text or as ASCII bytes -/
def Spec.UsableHash (alnum : Char → Bool) : Value → Prop
  | .str s => 0 < s.length ∧ s.length ≤ 64 ∧ ∀ c ∈ s, alnum c = true
  | .bytes b => 0 < b.length ∧ b.length ≤ 64 ∧ ∀ x ∈ b, Char.ofNat x.toNat ∈ asciiAlnum
  | _ => False

/-- the value has a length -/
def Spec.HasLength : Value → Prop
  | .str _ => True
  | .bytes _ => True
  | _ => False

/-- the log has event definitions that may be used: an `metadata_events` entry and a hash of at most
64 alphanumeric characters -/
def Spec.HasDefinitions (alnum : Char → Bool) (u : ULog) (lists : List (List Value)) : Prop :=
  u.infoMulti.get? (py! "metadata_events") = some lists ∧
  ∃ hash, u.info.get? (py! "metadata_events_sha256") = some hash ∧ UsableHash alnum hash

theorem byteAlnum_iff (b : UInt8) : byteAlnum b = true ↔ Char.ofNat b.toNat ∈ asciiAlnum := by
  have h : ∀ n : Fin 256, byteAlnum (UInt8.ofNat n.val) = decide (Char.ofNat n.val ∈ asciiAlnum) := by decide +kernel
  have := h ⟨b.toNat, b.toNat_lt⟩
  rw [UInt8.ofNat_toNat] at this
  rw [this, decide_eq_true_iff]

theorem hashUsable_spec (alnum : Char → Bool) (v : Value) :
    (UsableHash alnum v → hashUsable alnum v = .ok true) ∧
    (HasLength v → ¬UsableHash alnum v → hashUsable alnum v = .ok false) ∧
    (¬HasLength v → hashUsable alnum v = .error .typeError) := by
  have key : ∀ {α : Type} (l : List α) (p : α → Bool) (P : α → Prop), (∀ x, p x = true ↔ P x) →
      ((decide (l.length ≤ 64) && !l.isEmpty && l.all p) = true ↔ 0 < l.length ∧ l.length ≤ 64 ∧ ∀ x ∈ l, P x) := by
    intro α l p P h
    rw [Bool.and_eq_true, Bool.and_eq_true, decide_eq_true_iff, List.all_eq_true]
    have h1 : (!l.isEmpty) = true ↔ 0 < l.length := by cases l <;> simp
    rw [h1]
    exact ⟨fun ⟨⟨a, b⟩, c⟩ => ⟨b, a, fun x hx => (h x).mp (c x hx)⟩,
      fun ⟨a, b, c⟩ => ⟨⟨b, a⟩, fun x hx => (h x).mpr (c x hx)⟩⟩
  cases v with
  | str s =>
    have h := key s alnum (fun c => alnum c = true) (fun _ => Iff.rfl)
    refine ⟨fun hu => congrArg Except.ok (h.mpr hu), fun _ hu => ?_, fun hl => absurd trivial hl⟩
    exact congrArg Except.ok (Bool.eq_false_iff.mpr fun ht => hu (h.mp ht))
  | bytes b =>
    have h := key b byteAlnum (fun c => Char.ofNat c.toNat ∈ asciiAlnum) byteAlnum_iff
    refine ⟨fun hu => congrArg Except.ok (h.mpr hu), fun _ hu => ?_, fun hl => absurd trivial hl⟩
    exact congrArg Except.ok (Bool.eq_false_iff.mpr fun ht => hu (h.mp ht))
  | int n => exact ⟨fun h => h.elim, fun h => h.elim, fun _ => rfl⟩
  | float n => exact ⟨fun h => h.elim, fun h => h.elim, fun _ => rfl⟩
  | bool n => exact ⟨fun h => h.elim, fun h => h.elim, fun _ => rfl⟩

theorem joinBytes_wrong {l : List Value} (h : ∃ v ∈ l, ∀ b, v ≠ .bytes b) : joinBytes l = .error .typeError := by
  induction l with
  | nil => obtain ⟨v, hv, _⟩ := h; cases hv
  | cons x xs ih =>
    obtain ⟨v, hv, hb⟩ := h
    cases x with
    | bytes b =>
      rw [joinBytes, ih]
      · rfl
      · rcases List.mem_cons.mp hv with rfl | hv
        · exact absurd rfl (hb b)
        · exact ⟨v, hv, hb⟩
    | _ => rfl

theorem joinBytes_spec (l : List Bytes) : joinBytes (l.map Value.bytes) = .ok l.flatten := by
  induction l with
  | nil => rfl
  | cons b bs ih => rw [List.map_cons, joinBytes, ih]; rfl

/-- **C56**, embedded definitions: if the log has them, the parser is made from the concatenation of the
first list, the callback for default definitions is not used, and the default parser stays as it is. -/
theorem C56_embedded {P J : Type} (env : EventEnv P J) (default : Option P) (u : ULog) {first : List Bytes}
    {rest : List (List Value)} (h : HasDefinitions env.isAlnum u (first.map Value.bytes :: rest)) :
    getEventParser env default u = (default, (env.embedded first.flatten).map some) := by
  obtain ⟨h1, hash, h2, h3⟩ := h
  have hu := (hashUsable_spec env.isAlnum hash).1 h3
  have hemb : embeddedParser env u = (env.embedded first.flatten).map some := by
    unfold embeddedParser
    rw [h1, h2]
    dsimp only
    rw [hu, ok_bind, if_pos rfl]
    show (joinBytes (first.map Value.bytes) >>= _) = _
    rw [joinBytes_spec, ok_bind]
    cases env.embedded first.flatten <;> rfl
  unfold getEventParser
  rw [hemb]
  cases env.embedded first.flatten <;> rfl

/-- **C56**, default definitions: without embedded definitions the callback is asked, with the
information whether there is a default parser already. None keeps that parser; definitions replace it. -/
theorem C56_default {P J : Type} (env : EventEnv P J) (default : Option P) (u : ULog)
    (h : u.infoMulti.get? (py! "metadata_events") = none ∨ u.info.get? (py! "metadata_events_sha256") = none) :
    (env.callback default.isSome = .ok none → getEventParser env default u = (default, .ok default)) ∧
    (∀ json p, env.callback default.isSome = .ok (some json) → env.load json = (p, none) →
      getEventParser env default u = (some p, .ok (some p))) ∧
    (∀ e, env.callback default.isSome = .error e → getEventParser env default u = (default, .error e)) := by
  have hemb : embeddedParser env u = .ok none := by
    unfold embeddedParser
    rcases h with h | h
    · rw [h]
    · rw [h]
      cases u.infoMulti.get? (py! "metadata_events") <;> rfl
  unfold getEventParser defaultParser
  rw [hemb]
  dsimp only
  refine ⟨fun hc => ?_, fun json p hc hl => ?_, fun e hc => ?_⟩
  · rw [hc]
  · rw [hc]
    dsimp only
    rw [hl]
  · rw [hc]

/-- **C56**: an unusable hash means that the default definitions are used. -/
theorem C56_bad_hash {P J : Type} (env : EventEnv P J) (default : Option P) (u : ULog) {hash : Value}
    (h : u.info.get? (py! "metadata_events_sha256") = some hash) (hl : HasLength hash)
    (hb : ¬UsableHash env.isAlnum hash) :
    getEventParser env default u = defaultParser env default := by
  have hu := (hashUsable_spec env.isAlnum hash).2.1 hl hb
  have hemb : embeddedParser env u = .ok none := by
    unfold embeddedParser
    rw [h]
    cases u.infoMulti.get? (py! "metadata_events") with
    | none => rfl
    | some l =>
      dsimp only
      rw [hu]
      rfl
  unfold getEventParser
  rw [hemb]

/-- **C56**: a hash that is a number, and definitions that are not logged as bytes, raise a TypeError; the
default parser stays as it is and the callback is not asked. -/
theorem C56_wrong_kind {P J : Type} (env : EventEnv P J) (default : Option P) (u : ULog) {lists : List (List Value)}
    {hash : Value} (h1 : u.infoMulti.get? (py! "metadata_events") = some lists)
    (h2 : u.info.get? (py! "metadata_events_sha256") = some hash)
    (h : ¬HasLength hash ∨ UsableHash env.isAlnum hash ∧
      ∃ first rest, lists = first :: rest ∧ ∃ v ∈ first, ∀ b, v ≠ .bytes b) :
    getEventParser env default u = (default, .error .typeError) := by
  have hemb : embeddedParser env u = .error .typeError := by
    unfold embeddedParser
    rw [h1, h2]
    dsimp only
    rcases h with h | ⟨hu, first, rest, rfl, hv⟩
    · rw [(hashUsable_spec env.isAlnum hash).2.2 h]; rfl
    · rw [(hashUsable_spec env.isAlnum hash).1 hu, ok_bind, if_pos rfl]
      show (joinBytes first >>= _) = _
      rw [joinBytes_wrong hv]
      rfl
  unfold getEventParser
  rw [hemb]

/-- the failing part of **C56**: a failed loading is remembered. With a callback that provides the
definitions only once (as the default one does), an exception in `load_definitions` leaves the
unfinished parser behind, and the next log is read with it without any error. -/
theorem C56_failed_load {P J : Type} (env : EventEnv P J) (u : ULog) (json : J) (p : P) (e : PyErr)
    (h : u.infoMulti.get? (py! "metadata_events") = none) (h1 : env.callback false = .ok (some json))
    (h2 : env.callback true = .ok none) (hl : env.load json = (p, some e)) :
    getEventParser env none u = (some p, .error e) ∧
    getEventParser env (getEventParser env none u).1 u = (some p, .ok (some p)) := by
  have hemb : embeddedParser env u = .ok none := by
    unfold embeddedParser
    rw [h]
  have hfirst : getEventParser env none u = (some p, .error e) := by
    unfold getEventParser defaultParser
    rw [hemb]
    dsimp only [Option.isSome_none]
    rw [h1]
    dsimp only
    rw [hl]
  refine ⟨hfirst, ?_⟩
  rw [hfirst]
  exact (C56_default env (some p) u (Or.inl h)).1 h2

/-- an environment whose definitions cannot be loaded -/
def Sample.badEnv : EventEnv Nat Nat where
  isAlnum c := c.isAlphanum
  embedded _ := .ok 1
  callback has := .ok (if has then none else some 5)
  load _ := (2, some .keyError)

example : getEventParser Sample.badEnv none {} = (some 2, .error .keyError) :=
  (C56_failed_load Sample.badEnv {} 5 2 .keyError rfl rfl rfl rfl).1

example : HasDefinitions Char.isAlphanum
    { infoMulti := [(py! "metadata_events", [[.bytes [1]]])], info := [(py! "metadata_events_sha256", .str (py! "ab3"))] }
    [[Value.bytes [1]]] := by
  refine ⟨rfl, .str (py! "ab3"), rfl, by decide, by decide, by decide⟩

-- a hash as bytes, with and without a character that is not alphanumeric; a number; a text as definitions
example : UsableHash Char.isAlphanum (.bytes [48, 57, 65, 90, 97, 122]) := by
  refine ⟨by decide, by decide, by decide⟩

example : ¬UsableHash Char.isAlphanum (.bytes [48, 58]) := fun h => absurd (h.2.2 58 (by decide)) (by decide)

example : getEventParser Sample.badEnv none
    { infoMulti := [(py! "metadata_events", [[.bytes [1], .str (py! "x")]])], info := [(py! "metadata_events_sha256", .bytes [48])] } =
    (none, .error .typeError) :=
  C56_wrong_kind _ _ _ rfl rfl (Or.inr ⟨⟨by decide, by decide, by decide⟩, _, _, rfl, .str (py! "x"), by simp, by simp⟩)

example : getEventParser Sample.badEnv none
    { infoMulti := [(py! "metadata_events", [[.bytes [1]]])], info := [(py! "metadata_events_sha256", .int 4)] } =
    (none, .error .typeError) :=
  C56_wrong_kind _ _ _ rfl rfl (Or.inl id)

end PyULog
