import Verif.Model.Extract
import Verif.Lemmas.Loaded
import Verif.Lemmas.Decimal
import Verif.Lemmas.Window
import Verif.Props.Api
/-
Property theorems: C29 (time window of extract_message).
-/
namespace PyULog
open Spec

/-! ### the time window -/

/-- the timestamp lies in the window: a missing bound or 0 means no bound -/
def Spec.inWindow (timeS timeE : Option Int) (t : Nat) : Prop :=
  (∀ s, timeS = some s → s ≠ 0 → s * 1000000 ≤ (t : Int)) ∧
  (∀ e, timeE = some e → e ≠ 0 → (t : Int) < e * 1000000)

instance (timeS timeE : Option Int) (t : Nat) : Decidable (inWindow timeS timeE t) := by
  unfold inWindow
  cases timeS <;> cases timeE <;> simp only [reduceCtorEq, Option.some.injEq, forall_eq',
    false_implies, implies_true, true_and, and_true] <;> infer_instance

/-- the bound is missing, or some timestamp is at or after it -/
def Spec.BoundReached (ts : List Nat) (b : Option Int) : Prop :=
  ∀ s, b = some s → s ≠ 0 → ∃ t ∈ ts, s * 1000000 ≤ (t : Int)

/-- the bound in microseconds is an exact binary64 number -/
def Spec.ExactBound (b : Option Int) : Prop :=
  ∀ s, b = some s → -(2 ^ 53 : Int) < s * 1000000 ∧ s * 1000000 < 2 ^ 53

/-- integer timestamps are compared exactly -/
theorem reached_ints {s : Int} {ts : List Nat} (hr : ∀ t ∈ ts, t < 2 ^ 53)
    (h1 : -(2 ^ 53 : Int) < s * 1000000) (h2 : s * 1000000 < 2 ^ 53) :
    (ts.map fun (t : Nat) => NpVal.int t).map (reached (Fmt.b64.ofInt (s * 1000000)))
      = ts.map fun (t : Nat) => decide (s * 1000000 ≤ (t : Int)) := by
  rw [List.map_map]
  refine List.map_congr_left fun t ht => ?_
  have hv : ComparedExactly s (.int t) := by
    have := hr t ht
    unfold ComparedExactly
    omega
  have := reached_iff (s := s) (by omega) hv
  unfold AtOrAfter at this
  rw [Function.comp_apply, Bool.eq_iff_iff, decide_eq_true_eq]
  exact this

/-- first index with a property -/
theorem firstTrue {mask : List Bool} {s : Nat} :
    pyIndex (whereTrue mask) 0 = .ok s ↔
      mask[s]? = some true ∧ ∀ i, i < s → mask[i]? ≠ some true := by
  obtain ⟨h1, h2⟩ := whereTrue_spec mask
  unfold pyIndex
  cases hw : whereTrue mask with
  | nil =>
    simp only [List.getElem?_nil]
    constructor
    · intro h; cases h
    · rintro ⟨h, _⟩
      rw [← h2, hw] at h
      cases h
  | cons a as =>
    rw [hw] at h1 h2
    simp only [List.getElem?_cons_zero, Except.ok.injEq]
    have ha : ∀ i, mask[i]? = some true → a ≤ i := by
      intro i hi
      rcases List.mem_cons.mp ((h2 i).mpr hi) with rfl | hi
      · exact Nat.le_refl _
      · exact Nat.le_of_lt ((List.pairwise_cons.mp h1).1 i hi)
    constructor
    · rintro rfl
      refine ⟨(h2 a).mp (by simp), ?_⟩
      intro i hi hm
      have := ha i hm
      omega
    · rintro ⟨h3, h4⟩
      have h5 := ha s h3
      have h6 : mask[a]? = some true := (h2 a).mp (by simp)
      have := h4 a
      rcases Nat.lt_or_ge a s with h | h
      · exact absurd h6 (this h)
      · omega

theorem firstTrue_none {mask : List Bool} (h : ∀ i : Nat, mask[i]? ≠ some true) :
    pyIndex (whereTrue mask) 0 = .error .indexError := by
  have : whereTrue mask = [] := by
    apply List.eq_nil_iff_forall_not_mem.mpr
    intro i hi
    exact h i (((whereTrue_spec mask).2 i).mp hi)
  rw [this]
  rfl

/-- a bound that is reached splits ascending timestamps -/
theorem firstReached_spec {ts : List Nat} {s : Int} (hasc : ts.Pairwise (· ≤ ·))
    (hr : ∀ t ∈ ts, t < 2 ^ 53) (h1 : -(2 ^ 53 : Int) < s * 1000000) (h2 : s * 1000000 < 2 ^ 53)
    (hre : ∃ t ∈ ts, s * 1000000 ≤ (t : Int)) :
    ∃ k, firstReached (ts.map fun (t : Nat) => .int t) s = .ok k ∧
      ∀ i (h : i < ts.length), (s * 1000000 ≤ (ts[i] : Int) ↔ k ≤ i) := by
  have hm := reached_ints hr h1 h2
  have hex : ∃ k : Nat, k < ts.length ∧ s * 1000000 ≤ (ts.getD k 0 : Int) ∧
      ∀ i, i < k → ¬ s * 1000000 ≤ (ts.getD i 0 : Int) := by
    obtain ⟨t, ht, hst⟩ := hre
    clear hm hr hasc
    induction ts with
    | nil => cases ht
    | cons a as ih =>
      by_cases ha : s * 1000000 ≤ (a : Int)
      · exact ⟨0, by simp, by simpa using ha, by omega⟩
      · have : t ∈ as := by
          rcases List.mem_cons.mp ht with rfl | h
          · exact absurd hst ha
          · exact h
        obtain ⟨k, k1, k2, k3⟩ := ih this
        refine ⟨k + 1, by simp; omega, by simpa using k2, ?_⟩
        intro i hi
        cases i with
        | zero => simpa using ha
        | succ i => simpa using k3 i (by omega)
  obtain ⟨k, k1, k2, k3⟩ := hex
  have hget : ∀ i (h : i < ts.length), ts.getD i 0 = ts[i] := by
    intro i h
    simp [List.getD_eq_getElem?_getD, h]
  refine ⟨k, ?_, ?_⟩
  · unfold firstReached
    rw [micros_eq (by omega), ok_bind, hm, firstTrue]
    constructor
    · rw [List.getElem?_map, List.getElem?_eq_getElem k1]
      rw [hget k k1] at k2
      simp [k2]
    · intro i hi hc
      have hlt : i < ts.length := by omega
      rw [List.getElem?_map, List.getElem?_eq_getElem hlt] at hc
      have := k3 i hi
      rw [hget i hlt] at this
      simp at hc
      omega
  · intro i hi
    constructor
    · intro hs
      rcases Nat.lt_or_ge i k with h | h
      · have := k3 i h
        rw [hget i hi] at this
        exact absurd hs this
      · exact h
    · intro hki
      rw [hget k k1] at k2
      have hle : ts[k] ≤ ts[i] := by
        rcases Nat.eq_or_lt_of_le hki with h | h
        · subst h; exact Nat.le_refl _
        · exact List.pairwise_iff_getElem.mp hasc k i k1 hi h
      omega

theorem filter_range_between (n s e : Nat) (p : Nat → Bool) (he : e ≤ n)
    (hp : ∀ i, i < n → (p i = true ↔ s ≤ i ∧ i < e)) :
    (List.range n).filter p = pyRange s e := by
  have h1 : (pyRange s e).Pairwise (· < ·) := by unfold pyRange; exact List.pairwise_lt_range'
  have h2 : ((List.range n).filter p).Pairwise (· < ·) := List.pairwise_lt_range.filter _
  have hmem : ∀ i, i ∈ (List.range n).filter p ↔ i ∈ pyRange s e := by
    intro i
    unfold pyRange
    rw [List.mem_filter, List.mem_range, List.mem_range'_1]
    constructor
    · rintro ⟨a, b⟩
      have := (hp i a).mp b
      omega
    · intro h
      exact ⟨by omega, (hp i (by omega)).mpr (by omega)⟩
  have hperm : ((List.range n).filter p).Perm (pyRange s e) := by
    rw [List.perm_ext_iff_of_nodup (h2.imp (by omega)) (h1.imp (by omega))]
    exact hmem
  exact hperm.eq_of_pairwise (le := fun a b : Nat => a < b) (by intro a b _ _ h h'; omega) h2 h1

/-- `window` selects the rows inside the window -/
theorem window_spec {ts : List Nat} {timeS timeE : Option Int} (hasc : ts.Pairwise (· ≤ ·))
    (hr : ∀ t ∈ ts, t < 2 ^ 53) (xS : ExactBound timeS) (xE : ExactBound timeE)
    (rS : BoundReached ts timeS) (rE : BoundReached ts timeE) :
    ∃ s e, window (ts.map fun (t : Nat) => .int t) timeS timeE = .ok (s, e) ∧
      pyRange s e = (List.range ts.length).filter fun i => inWindow timeS timeE (ts.getD i 0) := by
  have hS : ∃ s, windowBound (ts.map fun (t : Nat) => NpVal.int t) 0 timeS = .ok s ∧ ∀ i (h : i < ts.length), (s ≤ i ↔
        ∀ b, timeS = some b → b ≠ 0 → b * 1000000 ≤ (ts[i] : Int)) := by
    cases timeS with
    | none => exact ⟨0, rfl, by simp⟩
    | some t =>
      by_cases ht : t = 0
      · exact ⟨0, by simp [windowBound, ht], by simp [ht]⟩
      · obtain ⟨a, b⟩ := xS t rfl
        obtain ⟨k, k1, k2⟩ := firstReached_spec hasc hr a b (rS t rfl ht)
        refine ⟨k, by simp only [windowBound, ne_eq, ht, not_false_eq_true, if_true]; exact k1, ?_⟩
        intro i hi
        rw [← k2 i hi]
        simp only [Option.some.injEq, forall_eq', ne_eq, ht, not_false_eq_true, forall_const]
  have hE : ∃ e, windowBound (ts.map fun (t : Nat) => NpVal.int t)
        (ts.map fun (t : Nat) => NpVal.int t).length timeE = .ok e ∧
        e ≤ ts.length ∧
        ∀ i (h : i < ts.length), (i < e ↔
          ∀ b, timeE = some b → b ≠ 0 → (ts[i] : Int) < b * 1000000) := by
    cases timeE with
    | none => exact ⟨_, rfl, by simp, fun i h => by simp [h]⟩
    | some t =>
      by_cases ht : t = 0
      · refine ⟨(ts.map fun (t : Nat) => NpVal.int t).length, by simp [windowBound, ht], by simp, ?_⟩
        intro i h
        simp [ht, h]
      · obtain ⟨a, b⟩ := xE t rfl
        obtain ⟨k, k1, k2⟩ := firstReached_spec hasc hr a b (rE t rfl ht)
        refine ⟨k, by simp only [windowBound, ne_eq, ht, not_false_eq_true, if_true]; exact k1, ?_, ?_⟩
        · rcases Nat.lt_or_ge ts.length k with h | h
          · exfalso
            obtain ⟨x, hx, hsx⟩ := rE t rfl ht
            obtain ⟨i, hi, rfl⟩ := List.mem_iff_getElem.mp hx
            have := (k2 i hi).mp hsx
            omega
          · exact h
        · intro i hi
          have := k2 i hi
          simp only [Option.some.injEq, forall_eq', ne_eq, ht, not_false_eq_true, forall_const]
          omega
  obtain ⟨s, s1, s2⟩ := hS
  obtain ⟨e, e1, e2, e3⟩ := hE
  refine ⟨s, e, ?_, ?_⟩
  · unfold window
    rw [s1, ok_bind, e1]
    rfl
  · symm
    apply filter_range_between
    · exact e2
    · intro i hi
      have hg : ts.getD i 0 = ts[i] := by simp [List.getD_eq_getElem?_getD, hi]
      rw [hg]
      rw [decide_eq_true_iff]
      unfold inWindow
      rw [← s2 i hi, ← e3 i hi]

/-! ### rows -/

theorem foldl_set_distinct (l : List (Str × NpVal)) (acc : Dict Str NpVal)
    (h : (acc.keys ++ l.map (·.1)).Nodup) :
    l.foldl (fun row c => Dict.set row c.1 c.2) acc = acc ++ l := by
  induction l generalizing acc with
  | nil => simp
  | cons c cs ih =>
    rw [List.foldl_cons]
    have hnot : c.1 ∉ acc.keys := by
      intro hc
      rw [List.nodup_append] at h
      exact h.2.2 _ hc _ (by simp) rfl
    rw [Dict.set_of_not_mem _ _ _ hnot, ih]
    · simp
    · simpa [Dict.keys] using h

theorem erase_filter [DecidableEq α] {l : List α} (hn : l.Nodup) {x : α} :
    l.erase x = l.filter fun k => k ≠ x := by
  rw [hn.erase_eq_filter]
  exact List.filter_congr fun k _ => by by_cases h : k = x <;> simp [bne, h]

theorem timestampFirst_spec {names : List Str} (hn : names.Nodup) (hm : py! "timestamp" ∈ names) :
    timestampFirst names = .ok (py! "timestamp" :: names.filter fun k => k ≠ py! "timestamp") := by
  unfold timestampFirst pyRemove
  rw [if_pos hm, ok_bind]
  refine congrArg (fun l => Except.ok (py! "timestamp" :: l)) ?_
  exact erase_filter hn

/-- the columns of `extract_message`: the timestamp, then the other fields in log order -/
def Spec.outputKeys (d : Dataset) : List Str :=
  py! "timestamp" :: (d.fields.map (·.name)).filter fun k => k ≠ py! "timestamp"

/-- entry of a column -/
def Spec.cellAt (d : Dataset) (k : Str) (i : Nat) : NpVal := ((d.data.get? k).getD []).getD i (.int 0)

/-- a dataset as the reader produces it: distinct fields, among them `timestamp`, each with a column
of `n` entries -/
structure Spec.Table (d : Dataset) (n : Nat) : Prop where
  names : (d.fields.map (·.name)).Nodup
  ts : py! "timestamp" ∈ d.fields.map (·.name)
  cols : ∀ f ∈ d.fields, ∃ col, d.data.get? f.name = some col ∧ col.length = n

theorem outputKeys_nodup {d : Dataset} {n : Nat} (h : Table d n) : (outputKeys d).Nodup := by
  unfold outputKeys
  refine List.nodup_cons.mpr ⟨?_, h.names.filter _⟩
  intro hm
  have := (List.mem_filter.mp hm).2
  simp at this

theorem mem_outputKeys {d : Dataset} {n : Nat} (h : Table d n) (k : Str) :
    k ∈ outputKeys d ↔ k ∈ d.fields.map (·.name) := by
  unfold outputKeys
  rw [List.mem_cons, List.mem_filter]
  constructor
  · rintro (rfl | ⟨h1, _⟩)
    · exact h.ts
    · exact h1
  · intro hk
    by_cases he : k = py! "timestamp"
    · exact Or.inl he
    · exact Or.inr ⟨hk, by simpa using he⟩

theorem table_col {d : Dataset} {n : Nat} (h : Table d n) {k : Str} (hk : k ∈ outputKeys d) :
    ∃ col, d.data.get? k = some col ∧ col.length = n := by
  obtain ⟨f, hf, rfl⟩ := List.mem_map.mp ((mem_outputKeys h k).mp hk)
  exact h.cols f hf

theorem extractRow_spec {d : Dataset} {n : Nat} (h : Table d n) {i : Nat} (hi : i < n) :
    extractRow d (outputKeys d) i = .ok ((outputKeys d).map fun k => (k, cellAt d k i)) := by
  unfold extractRow
  rw [mapM_ok (g := fun k => (k, cellAt d k i))]
  · rw [ok_bind, foldl_set_distinct]
    · rfl
    · simp only [Dict.keys, List.map_nil, List.nil_append, List.map_map, Function.comp_def,
        List.map_id']
      exact outputKeys_nodup h
  · intro k hk
    obtain ⟨col, c1, c2⟩ := table_col h hk
    have : col[i]? = some (cellAt d k i) := by
      unfold cellAt
      rw [c1]
      simp [List.getD_eq_getElem?_getD, List.getElem?_eq_getElem (by omega : i < col.length)]
    unfold dictGet pyIndex
    rw [c1]
    simp only [ok_bind, this]
    rfl

/-- **C29** for windows whose bounds are reached: with ascending timestamps, the rows are exactly
those inside the window, in order, each with the timestamp first and then the other fields in log
order. Missing from the full statement: a bound after the last timestamp (`C29_bound_not_reached`),
and timestamps or bounds of 2^53 microseconds and more, which are compared after rounding. -/
theorem C29_window_partial (u : ULog) (message : Str) (d : Dataset) (ts : List Nat)
    (timeS timeE : Option Int) (hd : getDataset u message = .ok d) (ht : Table d ts.length)
    (hts : d.data.get? (py! "timestamp") = some (ts.map fun (t : Nat) => .int t))
    (hasc : ts.Pairwise (· ≤ ·)) (hr : ∀ t ∈ ts, t < 2 ^ 53)
    (xS : ExactBound timeS) (xE : ExactBound timeE)
    (rS : BoundReached ts timeS) (rE : BoundReached ts timeE) :
    extractFrom u message timeS timeE = .ok
      (((List.range ts.length).filter fun i => inWindow timeS timeE (ts.getD i 0)).map fun i =>
        (outputKeys d).map fun k => (k, cellAt d k i)) := by
  obtain ⟨s, e, hw, hrng⟩ := window_spec hasc hr xS xE rS rE
  unfold extractFrom
  rw [hd]
  show (timestampFirst _).bind _ = _
  rw [timestampFirst_spec ht.names ht.ts]
  show (dictGet _ _).bind _ = _
  unfold dictGet
  rw [hts]
  show (window _ _ _).bind _ = _
  rw [hw]
  show (pyRange s e).mapM (extractRow d (outputKeys d)) = _
  rw [← hrng]
  apply mapM_ok
  intro i hi
  rw [hrng] at hi
  exact extractRow_spec ht (List.mem_range.mp (List.mem_filter.mp hi).1)

/-- the failing part of **C29**: when every timestamp is before the end (or before the start) of the
window, `extract_message` fails with IndexError instead of returning the rows up to the end of the
log (or none). -/
theorem C29_bound_not_reached (u : ULog) (message : Str) (d : Dataset) (ts : List Nat)
    (timeS timeE : Option Int) (b : Int) (hd : getDataset u message = .ok d) (ht : Table d ts.length)
    (hts : d.data.get? (py! "timestamp") = some (ts.map fun (t : Nat) => .int t))
    (hr : ∀ t ∈ ts, t < 2 ^ 53) (hb0 : b ≠ 0)
    (hx : -(2 ^ 53 : Int) < b * 1000000 ∧ b * 1000000 < 2 ^ 53)
    (hb : timeS = some b ∨ ((timeS = none ∨ timeS = some 0) ∧ timeE = some b))
    (hlate : ∀ t ∈ ts, (t : Int) < b * 1000000) :
    extractFrom u message timeS timeE = .error .indexError := by
  have hf : firstReached (ts.map fun (t : Nat) => NpVal.int t) b = .error .indexError := by
    unfold firstReached
    rw [micros_eq (by omega), ok_bind, reached_ints hr hx.1 hx.2, firstTrue_none]
    intro i hc
    rw [List.getElem?_map, Option.map_eq_some_iff] at hc
    obtain ⟨t, ht, hc⟩ := hc
    have := hlate t (List.mem_of_getElem? ht)
    have := of_decide_eq_true hc
    omega
  have hw : window (ts.map fun (t : Nat) => NpVal.int t) timeS timeE = .error .indexError := by
    unfold window windowBound
    rcases hb with rfl | ⟨hS, rfl⟩
    · simp only [ne_eq, hb0, not_false_eq_true, if_true]
      rw [hf]
      rfl
    · rcases hS with rfl | rfl
      · simp only [ne_eq, hb0, not_false_eq_true, if_true]
        rw [hf]
        rfl
      · simp only [ne_eq, hb0, not_false_eq_true, if_true]
        rw [hf]
        rfl
  unfold extractFrom
  rw [hd]
  show (timestampFirst _).bind _ = _
  rw [timestampFirst_spec ht.names ht.ts]
  show (dictGet _ _).bind _ = _
  unfold dictGet
  rw [hts]
  show (window _ _ _).bind _ = _
  rw [hw]
  rfl

/-- `np.where(...)[0][0]` is the first index -/
theorem pyIndex_find (column : List NpVal) (p : NpVal → Bool) :
    pyIndex (whereTrue (column.map p)) 0 =
      match column.findIdx? p with
      | some i => .ok i
      | none => .error .indexError := by
  cases hf : column.findIdx? p with
  | none =>
    apply firstTrue_none
    intro i hc
    rw [List.getElem?_map, Option.map_eq_some_iff] at hc
    obtain ⟨t, ht, hc⟩ := hc
    rw [List.findIdx?_eq_none_iff] at hf
    rw [hf t (List.mem_of_getElem? ht)] at hc
    cases hc
  | some i =>
    rw [List.findIdx?_eq_some_iff_getElem] at hf
    obtain ⟨hi, h1, h2⟩ := hf
    apply firstTrue.mpr
    refine ⟨?_, ?_⟩
    · rw [List.getElem?_map, List.getElem?_eq_getElem hi, Option.map_some, h1]
    · intro k hk
      rw [List.getElem?_map, List.getElem?_eq_getElem (by omega), Option.map_some]
      intro hc
      exact h2 k hk (Option.some.inj hc)

/-- index of the first element at or after a bound, for elements of any type -/
def Spec.boundRow (column : List NpVal) (dflt : Nat) : Option Int → Option Nat
  | none => some dflt
  | some b => if b = 0 then some dflt else column.findIdx? fun v => decide (AtOrAfter b v)

/-- the bound can be compared with all elements without rounding -/
def Spec.ExactColumn (column : List NpVal) (b : Option Int) : Prop :=
  ∀ s, b = some s → (s * 1000000).natAbs < 2 ^ 53 ∧ ∀ v ∈ column, ComparedExactly s v

theorem windowBound_row {column : List NpVal} (dflt : Nat) {b : Option Int} (x : ExactColumn column b) :
    windowBound column dflt b =
      match boundRow column dflt b with
      | some i => .ok i
      | none => .error .indexError := by
  cases b with
  | none => rfl
  | some b =>
    show (if b ≠ 0 then firstReached column b else .ok dflt) = match (if b = 0 then some dflt else
      column.findIdx? fun v => decide (AtOrAfter b v)) with
      | some i => .ok i
      | none => .error .indexError
    by_cases h0 : b = 0
    · rw [if_neg (not_not_intro h0), if_pos h0]
    · rw [if_pos h0, if_neg h0]
      obtain ⟨x1, x2⟩ := x b rfl
      have hm : column.map (reached (Fmt.b64.ofInt (b * 1000000))) = column.map fun v => decide (AtOrAfter b v) := by
        refine List.map_congr_left fun v hv => ?_
        rw [Bool.eq_iff_iff, decide_eq_true_eq]
        exact reached_iff x1 (x2 v hv)
      unfold firstReached
      rw [micros_eq (by omega), ok_bind, hm]
      exact pyIndex_find column _

theorem boundRow_le {column : List NpVal} {b : Option Int} {i : Nat} (h : boundRow column column.length b = some i) :
    i ≤ column.length := by
  unfold boundRow at h
  cases b with
  | none => injection h with h; omega
  | some b =>
    dsimp only at h
    split at h
    · injection h with h; omega
    · obtain ⟨hi, _⟩ := List.findIdx?_eq_some_iff_getElem.mp h
      omega

/-- **C29**, exactly, for timestamps of any type, also floats, in any order: the rows from the first one at or after the
start up to the first one at or after the end; IndexError when there is none. NaN is never at or after a bound. -/
theorem C29_column (u : ULog) (message : Str) (d : Dataset) (column : List NpVal)
    (timeS timeE : Option Int) (hd : getDataset u message = .ok d) (ht : Table d column.length)
    (hts : d.data.get? (py! "timestamp") = some column)
    (xS : ExactColumn column timeS) (xE : ExactColumn column timeE) :
    extractFrom u message timeS timeE =
      match boundRow column 0 timeS, boundRow column column.length timeE with
      | some s, some e => .ok ((List.range' s (e - s)).map fun i =>
          (outputKeys d).map fun k => (k, cellAt d k i))
      | _, _ => .error .indexError := by
  unfold extractFrom
  rw [hd]
  show (timestampFirst _).bind _ = _
  rw [timestampFirst_spec ht.names ht.ts]
  show (dictGet _ _).bind _ = _
  unfold dictGet
  rw [hts]
  show (window _ _ _).bind _ = _
  unfold window
  rw [windowBound_row 0 xS, windowBound_row column.length xE]
  cases hs : boundRow column 0 timeS with
  | none => rfl
  | some s =>
    cases he : boundRow column column.length timeE with
    | none => rfl
    | some e =>
      show (pyRange s e).mapM (extractRow d (outputKeys d)) = _
      unfold pyRange
      apply mapM_ok
      intro i hi
      have := List.mem_range'_1.mp hi
      have := boundRow_le he
      exact extractRow_spec ht (by omega)

/-- **C29**, bounds of 2^53 microseconds and more: the start of the window is found within 8.2 milliseconds. All rows
before the one that is found are before the bound, and this one is at most 8192 microseconds before it. -/
theorem C29_rounded {ts : List Nat} {s : Int} {i : Nat} (hs0 : s ≠ 0) (hs : s.natAbs < 2 ^ 53) (hr : ∀ t ∈ ts, t < 2 ^ 64)
    (h : windowBound (ts.map fun (t : Nat) => .int t) 0 (some s) = .ok i) :
    ∃ hi : i < ts.length, s * 1000000 ≤ (ts[i] : Int) + 8192 ∧ ∀ k (hk : k < i), ((ts[k]'(by omega)) : Int) < s * 1000000 := by
  unfold windowBound at h
  dsimp only at h
  rw [if_pos hs0] at h
  unfold firstReached at h
  rw [micros_eq hs, ok_bind, List.map_map] at h
  obtain ⟨h1, h2⟩ := firstTrue.mp h
  rw [List.getElem?_map, Option.map_eq_some_iff] at h1
  obtain ⟨t, ht, h1⟩ := h1
  obtain ⟨hi, rfl⟩ := List.getElem?_eq_some_iff.mp ht
  refine ⟨hi, ?_, ?_⟩
  · rw [Function.comp_apply] at h1
    exact (reached_near s (hr _ (List.getElem_mem hi))).2 h1
  · intro k hk
    have hkl : k < ts.length := by omega
    apply Int.not_le.mp
    intro hle
    apply h2 k hk
    rw [List.getElem?_map, List.getElem?_eq_getElem hkl, Option.map_some, Function.comp_apply,
      (reached_near s (hr _ (List.getElem_mem hkl))).1 hle]

/-- index of the first timestamp at or after a bound; a missing bound (or 0) is `dflt` -/
def Spec.boundIndex (ts : List Nat) (dflt : Nat) : Option Int → Option Nat
  | none => some dflt
  | some b => if b = 0 then some dflt else ts.findIdx? fun t : Nat => decide (b * 1000000 ≤ (t : Int))

theorem windowBound_index {ts : List Nat} (dflt : Nat) {b : Option Int} (hr : ∀ t ∈ ts, t < 2 ^ 53)
    (x : ExactBound b) :
    windowBound (ts.map fun (t : Nat) => .int t) dflt b =
      match boundIndex ts dflt b with
      | some i => .ok i
      | none => .error .indexError := by
  cases b with
  | none => rfl
  | some b =>
    show (if b ≠ 0 then firstReached _ b else .ok dflt) = match (if b = 0 then some dflt else
      ts.findIdx? fun t : Nat => decide (b * 1000000 ≤ (t : Int))) with
      | some i => .ok i
      | none => .error .indexError
    by_cases h0 : b = 0
    · rw [if_neg (not_not_intro h0), if_pos h0]
    · rw [if_pos h0, if_neg h0]
      obtain ⟨x1, x2⟩ := x b rfl
      unfold firstReached
      rw [micros_eq (by omega), ok_bind, reached_ints hr x1 x2]
      cases hf : ts.findIdx? fun t : Nat => decide (b * 1000000 ≤ (t : Int)) with
      | none =>
        apply firstTrue_none
        intro i hc
        rw [List.getElem?_map, Option.map_eq_some_iff] at hc
        obtain ⟨t, ht, hc⟩ := hc
        exact absurd hc (by
          rw [List.findIdx?_eq_none_iff] at hf
          rw [hf t (List.mem_of_getElem? ht)]
          decide)
      | some i =>
        rw [List.findIdx?_eq_some_iff_getElem] at hf
        obtain ⟨hi, h1, h2⟩ := hf
        apply firstTrue.mpr
        refine ⟨?_, ?_⟩
        · rw [List.getElem?_map, List.getElem?_eq_getElem hi, Option.map_some, h1]
        · intro k hk
          rw [List.getElem?_map, List.getElem?_eq_getElem (by omega), Option.map_some]
          intro hc
          exact h2 k hk (Option.some.inj hc)

/-- **C29**, exactly, for timestamps in any order: the rows from the first one at or after the start up to
the first one of the whole log at or after the end; IndexError when there is none. -/
theorem C29_exact (u : ULog) (message : Str) (d : Dataset) (ts : List Nat)
    (timeS timeE : Option Int) (hd : getDataset u message = .ok d) (ht : Table d ts.length)
    (hts : d.data.get? (py! "timestamp") = some (ts.map fun (t : Nat) => .int t))
    (hr : ∀ t ∈ ts, t < 2 ^ 53) (xS : ExactBound timeS) (xE : ExactBound timeE) :
    extractFrom u message timeS timeE =
      match boundIndex ts 0 timeS, boundIndex ts ts.length timeE with
      | some s, some e => .ok ((List.range' s (e - s)).map fun i =>
          (outputKeys d).map fun k => (k, cellAt d k i))
      | _, _ => .error .indexError := by
  unfold extractFrom
  rw [hd]
  show (timestampFirst _).bind _ = _
  rw [timestampFirst_spec ht.names ht.ts]
  show (dictGet _ _).bind _ = _
  unfold dictGet
  rw [hts]
  show (window _ _ _).bind _ = _
  unfold window
  rw [List.length_map, windowBound_index 0 hr xS, windowBound_index ts.length hr xE]
  have hle : ∀ {b : Option Int} {i : Nat}, boundIndex ts ts.length b = some i → i ≤ ts.length := by
    intro b i h
    unfold boundIndex at h
    cases b with
    | none => injection h with h; omega
    | some b =>
      dsimp only at h
      split at h
      · injection h with h; omega
      · obtain ⟨hi, _⟩ := List.findIdx?_eq_some_iff_getElem.mp h
        omega
  cases hs : boundIndex ts 0 timeS with
  | none => rfl
  | some s =>
    cases he : boundIndex ts ts.length timeE with
    | none => rfl
    | some e =>
      show (pyRange s e).mapM (extractRow d (outputKeys d)) = _
      unfold pyRange
      apply mapM_ok
      intro i hi
      have := List.mem_range'_1.mp hi
      have := hle he
      exact extractRow_spec ht (by omega)

/-- **C29**: with ascending or other timestamps, a window raises if and only if one of its bounds is not
reached. -/
theorem C29_raises_iff (u : ULog) (message : Str) (d : Dataset) (ts : List Nat)
    (timeS timeE : Option Int) (hd : getDataset u message = .ok d) (ht : Table d ts.length)
    (hts : d.data.get? (py! "timestamp") = some (ts.map fun (t : Nat) => .int t))
    (hr : ∀ t ∈ ts, t < 2 ^ 53) (xS : ExactBound timeS) (xE : ExactBound timeE) :
    extractFrom u message timeS timeE = .error .indexError ↔
      ¬ (BoundReached ts timeS ∧ BoundReached ts timeE) := by
  have key : ∀ (dflt : Nat) (b : Option Int), BoundReached ts b ↔ ∃ i, boundIndex ts dflt b = some i := by
    intro dflt b
    cases b with
    | none => exact ⟨fun _ => ⟨dflt, rfl⟩, fun _ s h => by cases h⟩
    | some b =>
      show (∀ s, some b = some s → s ≠ 0 → ∃ t ∈ ts, s * 1000000 ≤ (t : Int)) ↔
        ∃ i, (if b = 0 then some dflt else ts.findIdx? fun t : Nat => decide (b * 1000000 ≤ (t : Int))) = some i
      by_cases h0 : b = 0
      · simp [h0]
      · rw [if_neg h0, ← Option.isSome_iff_exists, List.findIdx?_isSome, List.any_eq_true]
        constructor
        · intro h
          obtain ⟨t, h1, h2⟩ := h b rfl h0
          exact ⟨t, h1, decide_eq_true h2⟩
        · rintro ⟨t, h1, h2⟩ s hs _
          injection hs with hs
          subst hs
          exact ⟨t, h1, of_decide_eq_true h2⟩
  rw [C29_exact u message d ts timeS timeE hd ht hts hr xS xE, key 0 timeS, key ts.length timeE]
  cases hs : boundIndex ts 0 timeS with
  | none => simp
  | some s =>
    cases he : boundIndex ts ts.length timeE with
    | none => simp
    | some e => simp

/-- **C29**: a message that the log does not contain is an AttributeError. -/
theorem C29_unknown_message (u : ULog) (message : Str) (timeS timeE : Option Int)
    (h : ∀ d ∈ u.dataList, ¬ (d.name = message ∧ d.multiId = 0)) :
    extractFrom u message timeS timeE = .error .attributeError := by
  unfold extractFrom
  have := (C25_not_found u message 0 .indexError).mpr ⟨rfl, by
    intro d hd hc
    exact h d hd ⟨hc.1, by omega⟩⟩
  rw [this]

/-- **C29**: a topic without the field `timestamp` cannot be extracted. -/
theorem C29_no_timestamp (u : ULog) (message : Str) (d : Dataset) (timeS timeE : Option Int)
    (hd : getDataset u message = .ok d) (hn : ∀ f ∈ d.fields, f.name ≠ py! "timestamp") :
    extractFrom u message timeS timeE = .error .valueError := by
  unfold extractFrom timestampFirst pyRemove
  rw [hd]
  simp only
  rw [if_neg (by
    intro h
    obtain ⟨f, hf, h⟩ := List.mem_map.mp h
    exact hn f hf h)]
  rfl

/-- a log with such a topic -/
example : ∃ (u : ULog) (d : Dataset), getDataset u (py! "a") = .ok d ∧ d.fields ≠ [] ∧
    ∀ f ∈ d.fields, f.name ≠ py! "timestamp" :=
  ⟨{ dataList := [⟨0, 0, py! "a", [⟨py! "x", .u8⟩], 0, [(py! "x", [.int 1])]⟩] }, _, rfl, by simp, by decide +kernel⟩

/-- the datasets of loaded logs are tables when their columns have names -/
theorem loaded_table {fuel : Nat} {cfg : Cfg} {bs : Bytes} {u : ULog}
    (h : load fuel cfg bs = .ok u) {d : Dataset} (hd : d ∈ u.dataList)
    (hnm : ∀ f ∈ d.fields, f.name ≠ []) (hts : py! "timestamp" ∈ d.fields.map (·.name)) :
    ∃ n, 0 < n ∧ Table d n := by
  obtain ⟨h1, _, h3, n, hn, h4⟩ := loaded_dataset h hd
  unfold FieldOrder at h1
  rw [columnNames_named hnm] at h1 h3
  refine ⟨n, hn, h3, hts, ?_⟩
  intro f hf
  have hk : f.name ∈ d.data.map (·.1) := by
    rw [h1]
    exact List.mem_map.mpr ⟨f, hf, rfl⟩
  obtain ⟨c, hc, hcn⟩ := List.mem_map.mp hk
  refine ⟨c.2, ?_, h4 c hc⟩
  apply Dict.get?_of_mem
  · show (d.data.map (·.1)).Nodup
    rw [h1]
    exact h3
  · rw [← hcn]
    exact hc

/-- a log with a dataset with five rows -/
def Sample.timed : ULog :=
  { dataList := [
      { multiId := 0
        msgId := 1
        name := py! "a"
        fields := [⟨py! "x", .i16⟩, ⟨py! "timestamp", .u64⟩, ⟨py! "y", .f32⟩]
        tsIdx := 1
        data := [(py! "x", [.int 1, .int 2, .int 3, .int 4, .int 5]),
          (py! "timestamp", [.int 500000, .int 1000000, .int 1500000, .int 2000000, .int 3000000]),
          (py! "y", [.f32 1, .f32 2, .f32 3, .f32 4, .f32 5])] }] }

example : (extractFrom Sample.timed (py! "a") (some 1) (some 2)).toOption
    = some [[(py! "timestamp", .int 1000000), (py! "x", .int 2), (py! "y", .f32 2)],
        [(py! "timestamp", .int 1500000), (py! "x", .int 3), (py! "y", .f32 3)]] := by decide +kernel

example : (match extractFrom Sample.timed (py! "a") none (some 4) with
    | .error e => some e
    | _ => none) = some .indexError := by decide +kernel

example : Spec.boundIndex [3000000, 1000000, 2000000] 3 (some 1) = some 0 ∧
    Spec.boundIndex [3000000, 1000000, 2000000] 3 (some 4) = none := by decide

/-- the hypotheses of `C29_window_partial` (and of `C29_exact`) hold for it -/
example : ∃ d ts, getDataset Sample.timed (py! "a") = .ok d ∧ Table d ts.length ∧
    d.data.get? (py! "timestamp") = some (ts.map fun (t : Nat) => .int t) ∧
    ts.Pairwise (· ≤ ·) ∧ (∀ t ∈ ts, t < 2 ^ 53) ∧ ExactBound (some 1) ∧ ExactBound (some 2) ∧
    BoundReached ts (some 1) ∧ BoundReached ts (some 2) := by
  refine ⟨_, [500000, 1000000, 1500000, 2000000, 3000000], rfl, ⟨by decide, by decide, ?_⟩, rfl,
    by decide, by decide, ?_, ?_, ?_, ?_⟩
  · intro f hf
    simp only [List.mem_cons, List.not_mem_nil, or_false] at hf
    rcases hf with rfl | rfl | rfl <;> exact ⟨_, rfl, rfl⟩
  · intro s hs; injection hs with hs; subst hs; decide
  · intro s hs; injection hs with hs; subst hs; decide
  · intro s hs _; injection hs with hs; subst hs; exact ⟨1000000, by simp, by decide⟩
  · intro s hs _; injection hs with hs; subst hs; exact ⟨2000000, by simp, by decide⟩

/-- timestamps that are doubles: 0.5, NaN, 2 and 1.5 million -/
def Sample.timedFloat : ULog :=
  { dataList := [
      { multiId := 0
        msgId := 1
        name := py! "a"
        fields := [⟨py! "timestamp", .f64⟩, ⟨py! "x", .u8⟩]
        tsIdx := 0
        data := [(py! "timestamp", [.f64 0x411E848000000000, .f64 0x7FF8000000000000, .f64 0x413E848000000000, .f64 0x4136E36000000000]),
          (py! "x", [.int 1, .int 2, .int 3, .int 4])] }] }

example : (extractFrom Sample.timedFloat (py! "a") (some 1) none).toOption
    = some [[(py! "timestamp", .f64 0x413E848000000000), (py! "x", .int 3)],
        [(py! "timestamp", .f64 0x4136E36000000000), (py! "x", .int 4)]] := by decide +kernel

/-- the hypotheses of `C29_column` hold for it -/
example : ∃ d column, getDataset Sample.timedFloat (py! "a") = .ok d ∧ Table d column.length ∧
    d.data.get? (py! "timestamp") = some column ∧ ExactColumn column (some 1) ∧ ExactColumn column none := by
  refine ⟨_, _, rfl, ⟨by decide, by decide, ?_⟩, rfl, ?_, ?_⟩
  · intro f hf
    simp only [List.mem_cons, List.not_mem_nil, or_false] at hf
    rcases hf with rfl | rfl <;> exact ⟨_, rfl, rfl⟩
  · intro s hs
    injection hs with hs
    subst hs
    refine ⟨by decide, ?_⟩
    intro v hv
    simp only [List.mem_cons, List.not_mem_nil, or_false] at hv
    rcases hv with rfl | rfl | rfl | rfl <;> (show _ < 2 ^ 64; decide)
  · intro s hs; cases hs

/-- timestamps above 2^53: the bound of 18014398510 seconds lies two microseconds after the first one, which is
rounded to it -/
example : (windowBound ([18014398509999999, 18014398510000001].map fun (t : Nat) => NpVal.int t) 0 (some 18014398510)).toOption
    = some 0 := by decide +kernel

/-- a bound that no float can hold -/
example : (match windowBound [.int 1] 0 (some (10 ^ 400)) with
    | .error e => some e
    | _ => none) = some .overflowError := by decide +kernel

end PyULog
