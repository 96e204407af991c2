import Verif.Lemmas.Rewrite
/-
A log read from a written file is writable and comes back unchanged.
-/
namespace PyULog
open Spec

theorem typed_stored {t : BT} {v : NpVal} (hv : Typed t v) : Typed t (stored t v) := by
  obtain ⟨b0, hb0, rfl⟩ := typed_iff.mp hv
  cases t with
  | i8 | u8 | i16 | u16 | i32 | u32 | i64 | u64 | f64 | char => exact hv
  | f32 =>
    show Typed .f32 (.f32 (if _ then _ else _))
    have hb : leNat b0 < 2 ^ 32 := by
      have := leNat_lt b0
      rw [hb0] at this
      exact this
    split
    · rename_i h
      refine typed_iff.mpr ⟨leEnc 4 (leNat b0 + 2 ^ 22), rfl, ?_⟩
      show _ = NpVal.f32 (leNat (leEnc 4 (leNat b0 + 2 ^ 22)))
      rw [leNat_leEnc _ _ (show _ < 2 ^ 32 by omega)]
    · exact hv
  | bool =>
    show Typed .bool (.int (if _ then 0 else 1))
    split
    · exact typed_iff.mpr ⟨[0], rfl, rfl⟩
    · exact typed_iff.mpr ⟨[1], rfl, rfl⟩

theorem stored_stored (t : BT) (v : NpVal) : stored t (stored t v) = stored t v := by
  cases t with
  | i8 | u8 | i16 | u16 | i32 | u32 | i64 | u64 | f64 | char => rfl
  | f32 =>
    cases v with
    | int _ | f64 _ => rfl
    | f32 x =>
      simp only [stored]
      by_cases h : x / 2 ^ 23 % 2 ^ 8 = 255 ∧ x % 2 ^ 23 ≠ 0 ∧ x % 2 ^ 23 < 2 ^ 22
      · rw [if_pos h, if_neg (by omega)]
      · rw [if_neg h, if_neg h]
  | bool =>
    cases v with
    | f32 _ | f64 _ => rfl
    | int n =>
      simp only [stored]
      by_cases h : n = 0
      · simp [h]
      · simp [h]

theorem asParam_asParam (v : Value) : asParam (asParam v) = asParam v := by
  cases v with
  | bool b => rfl
  | _ => rfl

theorem asParam_notBool (v : Value) : NotBool (asParam v) := by
  intro b h
  cases v with
  | bool _ => cases h
  | _ => cases h

theorem paramOk_asParam {v : Value} (h : ParamOk v) : ParamOk (asParam v) := by
  rcases h with ⟨n, rfl, h⟩ | ⟨b, rfl⟩ | ⟨x, hx, rfl⟩
  · exact Or.inl ⟨n, rfl, h⟩
  · refine Or.inl ⟨if b then 1 else 0, rfl, ?_⟩
    cases b <;> decide
  · exact Or.inr (Or.inr ⟨x, hx, rfl⟩)

theorem sortedRows_cell {F : Dict Str MsgFormat} {depth : Nat} {d : Dataset} (hd : DatasetOk F depth d)
    {f : FieldData} (hf : f ∈ d.fields) {j : Nat} (hj : j < (rowOrder d).length) :
    cell (sortedRows d) f.name j = (cell d f.name (rowOrder d)[j]).map (stored f.type) := by
  obtain ⟨col, hc, hl⟩ := hd.col hf
  unfold cell
  rw [sortedRows_col hd hf hc, hc]
  have : (rowOrder d)[j] < col.length := by
    rw [hl]; exact rowOrder_lt (List.getElem_mem _)
  simp [List.getD, hj, this]

theorem sortedRows_timeAt {F : Dict Str MsgFormat} {depth : Nat} {d : Dataset} (hd : DatasetOk F depth d)
    {j : Nat} (hj : j < (rowOrder d).length) : timeAt (sortedRows d) j = timeAt d (rowOrder d)[j] := by
  unfold timeAt
  have := sortedRows_cell hd hd.timestamp hj
  dsimp only at this
  rw [this]
  cases hc : cell d (py! "timestamp") (rowOrder d)[j] with
  | none => rfl
  | some v => rfl

theorem sortedRows_ok {F : Dict Str MsgFormat} {depth : Nat} {d : Dataset} (hd : DatasetOk F depth d) :
    DatasetOk F depth (sortedRows d) where
  fields := hd.fields
  named := hd.named
  distinct := hd.distinct
  columns := by
    unfold sortedRows
    dsimp only
    rw [List.map_map]
    rfl
  rows := by rw [rowCount_sorted hd]; exact hd.rows
  shape := by
    intro c hc
    rw [rowCount_sorted hd]
    unfold sortedRows at hc
    obtain ⟨f, hf, rfl⟩ := List.mem_map.mp hc
    obtain ⟨col, hcol, hl⟩ := hd.col hf
    have := sortedRows_get hd hf
    rw [sortedRows_col hd hf hcol] at this
    injection this with this
    show (List.filterMap _ _).length = _
    rw [← this, List.length_map, rowOrder_length]
  typed := by
    intro f hf col hc v hv
    obtain ⟨col', hcol, hl⟩ := hd.col hf
    rw [sortedRows_col hd hf hcol] at hc
    injection hc with hc
    rw [← hc] at hv
    obtain ⟨i, hi, rfl⟩ := List.mem_map.mp hv
    apply typed_stored
    have hi := rowOrder_lt hi
    have : i < col'.length := by rw [hl]; exact hi
    have e : col'.getD i (.int 0) = col'[i] := by simp [List.getD, this]
    rw [e]
    exact hd.typed f hf col' hcol _ (List.getElem_mem _)
  timestamp := hd.timestamp

theorem sortedRows_times {F : Dict Str MsgFormat} {depth : Nat} {d : Dataset} (hd : DatasetOk F depth d) :
    (List.range (rowCount (sortedRows d))).map (timeAt (sortedRows d)) = (rowOrder d).map (timeAt d) := by
  apply List.ext_getElem
  · simp [rowCount_sorted hd, rowOrder_length]
  · intro i h1 h2
    rw [List.length_map] at h2
    simp only [List.getElem_map, List.getElem_range]
    exact sortedRows_timeAt hd h2

theorem rowTimes_canon {depth : Nat} {u : ULog} (hu : Writable depth u) :
    (rowTimes (canon u)).Perm (rowTimes u) := by
  have key : ∀ l : List Dataset, (∀ d ∈ l, DatasetOk u.formats depth d) →
      ((l.map sortedRows).flatMap fun d =>
        (List.range (rowCount d)).map fun i => (timeAt d i).toNat).Perm
      (l.flatMap fun d => (List.range (rowCount d)).map fun i => (timeAt d i).toNat) := by
    intro l
    induction l with
    | nil => intro _; exact List.Perm.refl _
    | cons d l ih =>
      intro h
      rw [List.map_cons, List.flatMap_cons, List.flatMap_cons]
      refine List.Perm.append ?_ (ih fun e he => h e (List.mem_cons_of_mem _ he))
      have hd := h d (List.mem_cons_self ..)
      have e1 : ∀ (n : Nat) (d : Dataset), ((List.range n).map fun i => (timeAt d i).toNat)
          = ((List.range n).map (timeAt d)).map Int.toNat := by
        intro n d; rw [List.map_map]; rfl
      rw [e1, e1, sortedRows_times hd]
      exact (ssort_perm _ _).map _ |>.map _
  exact key u.dataList hu.data

theorem clock_canon {depth : Nat} {u : ULog} (hu : Writable depth u) (t : Nat) :
    clock (canon u) t = clock u t :=
  clockOf_perm (rowTimes_canon hu) u.startTs t

theorem foldl_max_ge (l : List Nat) (a : Nat) : a ≤ l.foldl max a := by
  induction l generalizing a with
  | nil => exact Nat.le_refl _
  | cons x l ih => exact Nat.le_trans (Nat.le_max_left ..) (ih _)

theorem foldl_max_mem (l : List Nat) (a : Nat) : l.foldl max a ∈ a :: l := by
  induction l generalizing a with
  | nil => exact List.mem_cons_self ..
  | cons x l ih =>
    have := ih (max a x)
    rw [List.foldl_cons]
    rcases List.mem_cons.mp this with h | h
    · rw [h]
      rcases Nat.le_total a x with h2 | h2
      · rw [Nat.max_eq_right h2]; exact List.mem_cons_of_mem _ (List.mem_cons_self ..)
      · rw [Nat.max_eq_left h2]; exact List.mem_cons_self ..
    · exact List.mem_cons_of_mem _ (List.mem_cons_of_mem _ h)

theorem clock_ge (u : ULog) (t : Nat) : u.startTs ≤ clock u t := foldl_max_ge _ _

theorem clock_mem (u : ULog) (t : Nat) : clock u t ∈ u.startTs :: rowTimes u := by
  rcases List.mem_cons.mp (foldl_max_mem ((rowTimes u).filter (· ≤ t)) u.startTs) with h | h
  · exact List.mem_cons.mpr (Or.inl h)
  · exact List.mem_cons_of_mem _ (List.mem_filter.mp h).1

theorem foldl_max_mono (l : List Nat) {a b : Nat} (h : a ≤ b) : l.foldl max a ≤ l.foldl max b := by
  induction l generalizing a b with
  | nil => exact h
  | cons x l ih => exact ih (by omega)

theorem foldl_max_sublist {l m : List Nat} (h : l.Sublist m) (a : Nat) : l.foldl max a ≤ m.foldl max a := by
  induction h generalizing a with
  | slnil => exact Nat.le_refl _
  | cons x h ih => exact Nat.le_trans (ih a) (foldl_max_mono _ (Nat.le_max_left ..))
  | cons_cons x h ih => exact ih _

theorem clock_mono (u : ULog) {s t : Nat} (h : s ≤ t) : clock u s ≤ clock u t := by
  unfold clock
  apply foldl_max_sublist
  have : (rowTimes u).filter (· ≤ s) = ((rowTimes u).filter (· ≤ t)).filter (· ≤ s) := by
    rw [List.filter_filter]
    apply List.filter_congr
    intro x _
    by_cases hx : x ≤ s
    · simp [hx, Nat.le_trans hx h]
    · simp [hx]
  rw [this]
  exact List.filter_sublist

/-! ### the log that was read -/

theorem canon_tagged_mem {u : ULog} {m : TagMsg} (hm : m ∈ ((canon u).tagged.map (·.2)).flatten) :
    m ∈ (u.tagged.map (·.2)).flatten := by
  obtain ⟨l, hl, hm⟩ := List.mem_flatten.mp hm
  obtain ⟨p, hp, rfl⟩ := List.mem_map.mp hl
  have := ((tagged_readBack u).2 p hp).1.mem_iff.mp hm
  exact (List.mem_filter.mp this).1

theorem writable_canon {depth : Nat} {u : ULog} (hu : Writable depth u) : Writable depth (canon u) where
  flags := by
    show (withoutAppended u.incompat).getD 0 0 < 2 ∧ ∀ x ∈ (withoutAppended u.incompat).drop 1, x = 0
    have := hu.flags.2
    cases hi : u.incompat with
    | nil => exact ⟨by decide, fun x hx => by cases hx⟩
    | cons x xs =>
      rw [hi] at this
      exact ⟨(by decide : (0 : Nat) < 2), this⟩
  formats := hu.formats
  formats_nodup := hu.formats_nodup
  info := hu.info
  info_nodup := hu.info_nodup
  info_ok := hu.info_ok
  multi := hu.multi
  multi_nodup := hu.multi_nodup
  multi_ok := hu.multi_ok
  initial_nodup := by
    show ((u.initialParams.map fun p => (p.1, asParam p.2)).map (·.1)).Nodup
    rw [List.map_map]
    exact hu.initial_nodup
  initial := by
    intro p hp
    obtain ⟨q, hq, rfl⟩ := List.mem_map.mp (show p ∈ u.initialParams.map fun p => (p.1, asParam p.2) from hp)
    exact ⟨(hu.initial q hq).1, paramOk_asParam (hu.initial q hq).2⟩
  defaults_nodup := by
    show ((u.defaultParams.map fun p => (p.1, p.2.map fun q => (q.1, asParam q.2))).map (·.1)).Nodup
    rw [List.map_map]
    exact hu.defaults_nodup
  defaults := by
    intro p hp
    obtain ⟨q, hq, rfl⟩ := List.mem_map.mp
      (show p ∈ u.defaultParams.map fun p => (p.1, p.2.map fun q => (q.1, asParam q.2)) from hp)
    obtain ⟨h1, h2, h3, h4⟩ := hu.defaults q hq
    refine ⟨h1, ?_, ?_, ?_⟩
    · simpa using h2
    · dsimp only
      rw [List.map_map]
      exact h3
    · intro r hr
      obtain ⟨s, hs, rfl⟩ := List.mem_map.mp hr
      exact ⟨(h4 s hs).1, paramOk_asParam (h4 s hs).2⟩
  changed := by
    intro p hp
    obtain ⟨q, hq, rfl⟩ := List.mem_map.mp (show p ∈ List.map (fun p : Nat × Str × Value => (clock u p.1, p.2.1, asParam p.2.2)) _ from hp)
    have hq := (mem_ssort _ _ _).mp hq
    exact ⟨(hu.changed q hq).1, paramOk_asParam (hu.changed q hq).2⟩
  ids := by
    show ((u.dataList.map sortedRows).map (·.msgId)).Nodup
    rw [List.map_map]
    exact hu.ids
  data := by
    intro d hd
    obtain ⟨e, he, rfl⟩ := List.mem_map.mp (show d ∈ u.dataList.map sortedRows from hd)
    exact sortedRows_ok (hu.data e he)
  order := by
    show (u.dataList.map sortedRows).Pairwise _
    rw [List.pairwise_map]
    exact hu.order
  starts := by
    intro h
    have : u.dataList = [] := List.map_eq_nil_iff.mp h
    obtain ⟨h1, h2⟩ := hu.starts this
    constructor
    · show List.map _ (ssort _ u.dropouts) = []
      rw [h1]; rfl
    · show List.map _ (ssort _ u.changedParams) = []
      rw [h2]; rfl

theorem encodable_canon {depth : Nat} {u : ULog} (hu : Writable depth u) (he : Encodable u) :
    Encodable (canon u) where
  version := he.version
  start := he.start
  compat := he.compat
  incompat := by
    show (withoutAppended u.incompat).length = 8
    have := he.incompat
    cases hi : u.incompat with
    | nil => rw [hi] at this; exact this
    | cons x xs => rw [hi] at this; exact this
  formats := he.formats
  info := he.info
  multi := he.multi
  initial := by
    intro p hp
    obtain ⟨q, hq, rfl⟩ := List.mem_map.mp (show p ∈ u.initialParams.map fun p => (p.1, asParam p.2) from hp)
    exact he.initial q hq
  defaults := by
    intro p hp r hr
    obtain ⟨q, hq, rfl⟩ := List.mem_map.mp
      (show p ∈ u.defaultParams.map fun p => (p.1, p.2.map fun q => (q.1, asParam q.2)) from hp)
    obtain ⟨s, hs, rfl⟩ := List.mem_map.mp hr
    exact he.defaults q hq s hs
  changed := by
    intro p hp
    obtain ⟨q, hq, rfl⟩ := List.mem_map.mp (show p ∈ List.map (fun p : Nat × Str × Value => (clock u p.1, p.2.1, asParam p.2.2)) _ from hp)
    exact he.changed q ((mem_ssort _ _ _).mp hq)
  data := by
    intro d hd
    obtain ⟨e, hm, rfl⟩ := List.mem_map.mp (show d ∈ u.dataList.map sortedRows from hd)
    exact he.data e hm
  chars := by
    intro d hd f hf hc i n hi
    obtain ⟨e, hm, rfl⟩ := List.mem_map.mp (show d ∈ u.dataList.map sortedRows from hd)
    have hok := hu.data e hm
    have hlt : i < (rowOrder e).length := by
      obtain ⟨col, hcol, hl⟩ := hok.col hf
      unfold cell at hi
      rw [sortedRows_col hok hf hcol] at hi
      simp only [Option.bind_some] at hi
      obtain ⟨h, _⟩ := List.getElem?_eq_some_iff.mp hi
      simpa using h
    rw [sortedRows_cell hok hf hlt, hc] at hi
    cases hv : cell e f.name (rowOrder e)[i] with
    | none => rw [hv] at hi; cases hi
    | some v =>
      rw [hv] at hi
      injection hi with hi
      have : v = .int n := hi
      exact he.chars e hm f hf hc _ n (by rw [hv, this])
  logged := by
    intro m hm
    exact he.logged m ((mem_ssort _ _ _).mp hm)
  tagged := fun m hm => he.tagged m (canon_tagged_mem hm)
  dropouts := by
    intro m hm
    obtain ⟨q, hq, rfl⟩ := List.mem_map.mp (show m ∈ List.map (fun m : Dropout => (⟨m.duration, clock u m.ts⟩ : Dropout)) _ from hm)
    exact he.dropouts q ((mem_ssort _ _ _).mp hq)

theorem settled_canon {depth : Nat} {u : ULog} (hu : Writable depth u) : Settled (canon u) where
  logged := by
    refine (inOrder_ssort (fun m : LogMsg => (m.ts : Int)) u.logged).2.1.imp ?_
    intro a b h
    have : (a.ts : Int) ≤ b.ts := h
    omega
  taggedKeys := (tagged_readBack u).1.1
  tagged := by
    intro p hp
    have h1 := (tagged_readBack u).2 p hp
    have h2 : ∀ m ∈ p.2, m.tag = p.1 := by
      intro m hm
      simpa using (List.mem_filter.mp (h1.1.mem_iff.mp hm)).2
    refine ⟨?_, ?_, h2⟩
    · intro e
      obtain ⟨m, hm, hmt⟩ := ((tagged_readBack u).1.2 p.1).mp (List.mem_map_of_mem hp)
      have : m ∈ p.2 := h1.1.mem_iff.mpr (List.mem_filter.mpr ⟨hm, by simpa using hmt⟩)
      rw [e] at this
      cases this
    · refine h1.2.1.imp ?_
      intro a b h
      have : (a.ts : Int) ≤ b.ts := h
      omega
  taggedOrder := canon_tagged_sorted u
  dropouts := by
    show (List.map _ _).Pairwise _
    rw [List.pairwise_map]
    refine (inOrder_ssort (fun m : Dropout => (m.ts : Int)) u.dropouts).2.1.imp ?_
    intro a b h
    have : (a.ts : Int) ≤ b.ts := h
    exact clock_mono u (by omega)
  dropoutTimes := by
    intro m hm
    obtain ⟨q, hq, rfl⟩ := List.mem_map.mp (show m ∈ List.map (fun m : Dropout => (⟨m.duration, clock u m.ts⟩ : Dropout)) _ from hm)
    refine ⟨?_, clock_ge u _⟩
    have := clock_mem u q.ts
    rcases List.mem_cons.mp this with h | h
    · exact List.mem_cons.mpr (Or.inl h)
    · exact List.mem_cons_of_mem _ ((rowTimes_canon hu).mem_iff.mpr h)
  changed := by
    show (List.map _ _).Pairwise _
    rw [List.pairwise_map]
    refine (inOrder_ssort (fun m : Nat × Str × Value => (m.1 : Int)) u.changedParams).2.1.imp ?_
    intro a b h
    have : (a.1 : Int) ≤ b.1 := h
    exact clock_mono u (by omega)
  changedTimes := by
    intro m hm
    obtain ⟨q, hq, rfl⟩ := List.mem_map.mp (show m ∈ List.map (fun p : Nat × Str × Value => (clock u p.1, p.2.1, asParam p.2.2)) _ from hm)
    refine ⟨?_, clock_ge u _⟩
    have := clock_mem u q.1
    rcases List.mem_cons.mp this with h | h
    · exact List.mem_cons.mpr (Or.inl h)
    · exact List.mem_cons_of_mem _ ((rowTimes_canon hu).mem_iff.mpr h)
  rows := by
    intro d hd i j hij hj
    obtain ⟨e, hm, rfl⟩ := List.mem_map.mp (show d ∈ u.dataList.map sortedRows from hd)
    have hok := hu.data e hm
    rw [rowCount_sorted hok] at hj
    have hj' : j < (rowOrder e).length := by rw [rowOrder_length]; exact hj
    have hi' : i < (rowOrder e).length := by omega
    rw [sortedRows_timeAt hok hi', sortedRows_timeAt hok hj']
    have := (inOrder_ssort (timeAt e) (List.range (rowCount e))).2.1
    rw [List.pairwise_iff_getElem] at this
    exact this i j hi' hj' hij
  values := by
    intro d hd f hf i v hv
    obtain ⟨e, hm, rfl⟩ := List.mem_map.mp (show d ∈ u.dataList.map sortedRows from hd)
    have hok := hu.data e hm
    have hlt : i < (rowOrder e).length := by
      obtain ⟨col, hcol, hl⟩ := hok.col hf
      unfold cell at hv
      rw [sortedRows_col hok hf hcol] at hv
      simp only [Option.bind_some] at hv
      obtain ⟨h, _⟩ := List.getElem?_eq_some_iff.mp hv
      simpa using h
    rw [sortedRows_cell hok hf hlt] at hv
    cases hw : cell e f.name (rowOrder e)[i] with
    | none => rw [hw] at hv; cases hv
    | some w =>
      rw [hw] at hv
      injection hv with hv
      rw [← hv, stored_stored]
  params := by
    refine ⟨?_, ?_, ?_⟩
    · intro p hp
      obtain ⟨q, hq, rfl⟩ := List.mem_map.mp (show p ∈ u.initialParams.map fun p => (p.1, asParam p.2) from hp)
      exact asParam_notBool _
    · intro p hp r hr
      obtain ⟨q, hq, rfl⟩ := List.mem_map.mp
        (show p ∈ u.defaultParams.map fun p => (p.1, p.2.map fun q => (q.1, asParam q.2)) from hp)
      obtain ⟨s, hs, rfl⟩ := List.mem_map.mp hr
      exact asParam_notBool _
    · intro p hp
      obtain ⟨q, hq, rfl⟩ := List.mem_map.mp (show p ∈ List.map (fun p : Nat × Str × Value => (clock u p.1, p.2.1, asParam p.2.2)) _ from hp)
      exact asParam_notBool _
  lastTs := (foldl_max_perm (rowTimes_canon hu) u.startTs).symm

theorem canon_canon {depth : Nat} {u : ULog} (hu : Writable depth u) : canon (canon u) = canon u := by
  rw [canon_settled (writable_canon hu) (settled_canon hu)]
  have : withoutAppended (canon u).incompat = (canon u).incompat := by
    show withoutAppended (withoutAppended u.incompat) = withoutAppended u.incompat
    cases u.incompat <;> rfl
  unfold cleaned
  rw [this]
  rfl

end PyULog
