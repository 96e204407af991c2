import Verif.Lemmas.Settle
import Verif.Lemmas.RoundBack
import Verif.Spec.WriteCut
/-
The object made from the first events of a data section.
-/
namespace PyULog
open Spec

/-! ### lists -/

theorem take_of_append {α : Type} {a b m : List α} (h : a ++ b = m) : a = m.take a.length := by
  rw [← h, List.take_left']
  rfl

theorem cut_time {α : Type} {key : α → Int} {a b : List α}
    (h : Sorted (fun x y => decide (key x ≤ key y)) (a ++ b)) :
    ∃ t : Int, (∀ x ∈ a, key x ≤ t) ∧ ∀ x ∈ b, t ≤ key x := by
  rw [Sorted, List.pairwise_append] at h
  obtain ⟨h1, h2, h3⟩ := h
  cases b with
  | cons y b =>
    rw [List.pairwise_cons] at h2
    refine ⟨key y, ?_, ?_⟩
    · intro x hx
      simpa using h3 x hx y (List.mem_cons_self ..)
    · intro x hx
      rcases List.mem_cons.mp hx with rfl | hx
      · omega
      · simpa using h2.1 x hx
  | nil =>
    clear h1 h2 h3
    induction a with
    | nil => exact ⟨0, by simp, by simp⟩
    | cons x a ih =>
      obtain ⟨t, h, _⟩ := ih
      refine ⟨max t (key x), ?_, by simp⟩
      intro z hz
      rcases List.mem_cons.mp hz with rfl | hz
      · omega
      · have := h z hz
        omega

theorem upTo_filterMap {α β : Type} {key : α → Int} {key' : β → Int} {f : α → Option β}
    (hf : ∀ a x, f a = some x → key' x = key a) {t : Int} {a b : List α}
    (ha : ∀ x ∈ a, key x ≤ t) (hb : ∀ x ∈ b, t ≤ key x) :
    UpTo key' t (a.filterMap f) ((a ++ b).filterMap f) := by
  refine ⟨b.filterMap f, List.filterMap_append, ?_, ?_⟩
  · intro x hx
    obtain ⟨y, hy, hyx⟩ := List.mem_filterMap.mp hx
    rw [hf _ _ hyx]
    exact ha y hy
  · intro x hx
    obtain ⟨y, hy, hyx⟩ := List.mem_filterMap.mp hx
    rw [hf _ _ hyx]
    exact hb y hy

theorem upTo_filter {α : Type} {key : α → Int} {t : Int} {a l : List α} (p : α → Bool)
    (h : UpTo key t a l) : UpTo key t (a.filter p) (l.filter p) := by
  obtain ⟨r, rfl, h1, h2⟩ := h
  exact ⟨r.filter p, List.filter_append .., fun x hx => h1 x (List.mem_filter.mp hx).1,
    fun x hx => h2 x (List.mem_filter.mp hx).1⟩

/-! ### number of events -/

theorem sum_map_add {α : Type} (f g : α → Nat) (l : List α) :
    (l.map fun a => f a + g a).sum = (l.map f).sum + (l.map g).sum := by
  induction l with
  | nil => rfl
  | cons a l ih => simp only [List.map_cons, List.sum_cons, ih]; omega

theorem sum_map_ite_nodup {l : List Nat} (hn : l.Nodup) {i : Nat} (hi : i ∈ l) :
    (l.map fun j => if i = j then 1 else 0).sum = 1 := by
  induction l with
  | nil => cases hi
  | cons a l ih =>
    rw [List.nodup_cons] at hn
    rw [List.map_cons, List.sum_cons]
    by_cases h : i = a
    · subst h
      have : ∀ m : List Nat, i ∉ m → (m.map fun j => if i = j then 1 else 0).sum = 0 := by
        intro m
        induction m with
        | nil => intro _; rfl
        | cons b m ih =>
          intro hm
          rw [List.map_cons, List.sum_cons, ih fun h => hm (List.mem_cons_of_mem _ h),
            if_neg fun h : i = b => hm (h ▸ List.mem_cons_self ..)]
      rw [this l hn.1, if_pos rfl]
    · rw [if_neg h, ih hn.2 ((List.mem_cons.mp hi).resolve_left h)]

theorem count_rows {ids : List Nat} (hn : ids.Nodup) (E : List Ev)
    (hE : ∀ i b t, Ev.row i b t ∈ E → i ∈ ids) :
    (ids.map fun i => (E.filterMap (Ev.rowOf i)).length).sum = (E.filterMap Ev.rowTime).length := by
  induction E with
  | nil =>
    have : ∀ m : List Nat, (m.map fun _ => 0).sum = 0 := by
      intro m
      induction m with
      | nil => rfl
      | cons a m ih => rw [List.map_cons, List.sum_cons, ih]
    simpa using this ids
  | cons e E ih =>
    have ih := ih fun i b t h => hE i b t (List.mem_cons_of_mem _ h)
    cases e with
    | row i b t =>
      have e1 : (fun j => ((Ev.row i b t :: E).filterMap (Ev.rowOf j)).length)
          = fun j => (if i = j then 1 else 0) + (E.filterMap (Ev.rowOf j)).length := by
        funext j
        rw [List.filterMap_cons]
        simp only [Ev.rowOf]
        by_cases h : i = j
        · simp only [h, if_true, List.length_cons]
          omega
        · simp only [h, if_false]
          omega
      rw [e1, sum_map_add, ih, sum_map_ite_nodup hn (hE i b t (List.mem_cons_self ..)), List.filterMap_cons]
      simp only [Ev.rowTime, List.length_cons]
      omega
    | log m => exact ih
    | tag m => exact ih
    | drop m => exact ih
    | par m => exact ih

theorem count_events (E : List Ev) :
    (E.filterMap Ev.rowTime).length + (E.filterMap Ev.logOf).length + (E.filterMap Ev.tagOf).length
      + (E.filterMap Ev.dropOf).length + (E.filterMap Ev.parOf).length = E.length := by
  induction E with
  | nil => rfl
  | cons e E ih =>
    cases e <;>
      simp only [List.filterMap_cons, Ev.rowTime, Ev.logOf, Ev.tagOf, Ev.dropOf, Ev.parOf, List.length_cons] <;>
      omega

theorem sum_set (d : Dict Nat (List TagMsg)) (k : Nat) (m : TagMsg) :
    ((d.set k ((d.get? k).getD [] ++ [m])).map fun p => p.2.length).sum
      = (d.map fun p => p.2.length).sum + 1 := by
  induction d with
  | nil => simp [Dict.set, Dict.get?]
  | cons p d ih =>
    unfold Dict.set Dict.get?
    by_cases h : p.1 = k
    · simp [h]
      omega
    · simp [h] at ih ⊢
      rw [ih]
      omega

theorem foldl_putTag_count (l : List TagMsg) (d : Dict Nat (List TagMsg)) :
    ((l.foldl putTag d).map fun p => p.2.length).sum = (d.map fun p => p.2.length).sum + l.length := by
  induction l generalizing d with
  | nil => rfl
  | cons m l ih =>
    rw [List.foldl_cons, ih]
    unfold putTag
    rw [sum_set, List.length_cons]
    omega

theorem foldl_putTag_getD (l : List TagMsg) (k : Nat) :
    ((l.foldl putTag []).get? k).getD [] = l.filter (fun m => m.tag = k) := by
  rw [foldl_putTag_get]
  split
  · rename_i h
    rw [h]
    rfl
  · rfl

/-! ### the first rows -/

theorem datasetOf_take (tp : Topic) (samples : List Bytes) (n : Nat) :
    datasetOf tp (samples.take n) = firstRows n (datasetOf tp samples) := by
  unfold datasetOf firstRows columnsOf
  simp only [List.map_map]
  congr 1
  apply List.map_congr_left
  intro p _
  simp [List.map_take]

theorem get?_map_snd {β γ : Type} (f : β → γ) (d : Dict Str β) (k : Str) :
    Dict.get? (d.map fun c => (c.1, f c.2)) k = (d.get? k).map f := by
  induction d with
  | nil => rfl
  | cons p d ih =>
    rw [List.map_cons]
    unfold Dict.get?
    split
    · rfl
    · exact ih

theorem rowCount_firstRows (n : Nat) (d : Dataset) (h : n ≤ rowCount d) :
    rowCount (firstRows n d) = n := by
  unfold rowCount firstRows at *
  simp only
  cases hf : d.fields with
  | nil =>
    rw [hf] at h
    simp only at h ⊢
    omega
  | cons f fs =>
    rw [hf] at h
    simp only at h ⊢
    rw [get?_map_snd]
    cases hg : d.data.get? f.name with
    | none =>
      rw [hg] at h
      simp at h ⊢
      omega
    | some c =>
      rw [hg] at h
      simp at h ⊢
      omega

/-! ### the object made from the first events -/

/-- the rows of a dataset among the first events -/
theorem rows_cut {depth : Nat} {u : ULog} (hu : Writable depth u) {per : List (List Timed)}
    (p1 : per.length = (byMsgId u.dataList).length)
    (p2 : ∀ p ∈ (byMsgId u.dataList).zip per, IsRows p.1 p.2) {E1 E2 : List Ev}
    (hE : E1 ++ E2 = ssort (fun a b => decide (a.key ≤ b.key)) (allEvs u per))
    {d : Dataset} (hd : d ∈ byMsgId u.dataList) :
    ∃ l, IsRows d l ∧ E1.filterMap (Ev.rowOf d.msgId) ++ E2.filterMap (Ev.rowOf d.msgId)
      = (rowOrder d).map fun i => ((timeAt d i).toNat, rowBytes l i) := by
  have hn : ((byMsgId u.dataList).map (·.msgId)).Nodup :=
    ((ssort_perm _ u.dataList).map _).nodup_iff.mpr hu.ids
  have hmem : ∀ d ∈ byMsgId u.dataList, d ∈ u.dataList := fun d hd => (mem_ssort _ _ _).mp hd
  have hfst : ((byMsgId u.dataList).zip per).map (·.1) = byMsgId u.dataList :=
    List.map_fst_zip (by omega)
  obtain ⟨p, hp, hpd⟩ := List.mem_map.mp (hfst ▸ hd)
  subst hpd
  refine ⟨p.2, p2 p hp, ?_⟩
  rw [← List.filterMap_append, hE,
    filterMap_ssort (le' := fun a b : Nat × Bytes => decide (a.1 ≤ b.1)) key_pre,
    allEvs_row, rowEvs_of _ hp, rows_sorted (p2 p hp)]
  · intro i _
    exact timeAt_nonneg (hu.data _ (hmem _ hd)).typed (hu.data _ (hmem _ hd)).timestamp i
  · have : ((byMsgId u.dataList).zip per).map (fun p => p.1.msgId)
        = (byMsgId u.dataList).map (·.msgId) := by
      conv => rhs; rw [← hfst, List.map_map]
      rfl
    rw [this]
    exact hn
  · intro e h
    cases e <;> first | rfl | simp [Ev.cls] at h
  · intro a b x y ha hb
    cases a <;> simp only [Ev.rowOf] at ha <;> try (cases ha)
    cases b <;> simp only [Ev.rowOf] at hb <;> try (cases hb)
    split at ha
    · split at hb
      · cases ha
        cases hb
        simp only [Ev.key]
        apply decide_eq_decide.mpr
        omega
      · cases hb
    · cases ha

theorem ids_of_rows {u : ULog} {per : List (List Timed)} {i : Nat} {b : Bytes} {t : Nat}
    (h : Ev.row i b t ∈ allEvs u per) : i ∈ (byMsgId u.dataList).map (·.msgId) := by
  unfold allEvs at h
  simp only [List.mem_append, List.mem_map] at h
  rcases h with (((h | ⟨_, _, h⟩) | ⟨_, _, h⟩) | ⟨_, _, h⟩) | ⟨_, _, h⟩
  · unfold rowEvs at h
    obtain ⟨p, hp, hx⟩ := List.mem_flatMap.mp h
    obtain ⟨x, _, hx⟩ := List.mem_map.mp hx
    unfold rowEv at hx
    injection hx with hx
    rw [← hx]
    exact List.mem_map_of_mem (List.of_mem_zip hp).1
  · cases h
  · cases h
  · cases h
  · cases h

/-- the dataset of a topic among the first events -/
theorem data_cut {depth : Nat} {u : ULog} (hu : Writable depth u) {d : Dataset} (hd : d ∈ u.dataList)
    {l : List Timed} (h1 : IsRows d l) {a : List (Nat × Bytes)} {c : List (Nat × Bytes)}
    (h : a ++ c = (rowOrder d).map fun i => ((timeAt d i).toNat, rowBytes l i)) :
    (0 < ((a.map (·.2)).flatten).length ↔ 0 < a.length) ∧
      mkData (mkSub (topicOf d) (a.map (·.2)).flatten) = .ok (firstRows a.length (sortedRows d)) := by
  have hdo := hu.data d hd
  have ea : a.map (·.2) = ((rowOrder d).map (rowBytes l)).take a.length := by
    have : (a ++ c).map (·.2) = (rowOrder d).map (rowBytes l) := by
      rw [h, List.map_map]
      rfl
    rw [List.map_append] at this
    have := take_of_append this
    rw [List.length_map] at this
    exact this
  have hrow : ∀ r ∈ a.map (·.2), r.length = rowSize d.fields := by
    intro r hr
    rw [ea] at hr
    obtain ⟨i, hi, rfl⟩ := List.mem_map.mp (List.mem_of_mem_take hr)
    have hi : i < l.length := by
      have := (mem_ssort _ _ _).mp hi
      rw [h1.1]
      exact List.mem_range.mp this
    have := (h1.2 i hi).2.1
    simp [rowBytes, hi, this]
  have hsz : 0 < rowSize d.fields := by
    obtain ⟨k, hk, e1, _⟩ := tsOffset_of hdo.distinct hdo.timestamp
    have := rowSize_take_succ d.fields k hk
    rw [e1] at this
    have h8 : BT.u64.size = 8 := rfl
    simp only [h8] at this
    omega
  refine ⟨?_, ?_⟩
  · cases a with
    | nil => simp
    | cons x a =>
      have := hrow x.2 (by simp)
      simp only [List.map_cons, List.flatten_cons, List.length_append, List.length_cons]
      omega
  · rw [mkData_spec _ _ hsz hrow, ea, datasetOf_take, datasetOf_rows h1 hdo.named]

/-- times of the rows among the first events, and of the others -/
theorem times_cut {depth : Nat} {u : ULog} (hu : Writable depth u) {d : Dataset} (hd : d ∈ u.dataList)
    {l : List Timed} {a c : List (Nat × Bytes)} {t : Int}
    (h : a ++ c = (rowOrder d).map fun i => ((timeAt d i).toNat, rowBytes l i))
    (ha : ∀ x ∈ a, (x.1 : Int) ≤ t) (hc : ∀ x ∈ c, t ≤ (x.1 : Int)) :
    a.length ≤ rowCount (sortedRows d) ∧ ∀ i, i < rowCount (sortedRows d) →
      (i < a.length → timeAt (sortedRows d) i ≤ t) ∧ (a.length ≤ i → t ≤ timeAt (sortedRows d) i) := by
  have hdo := hu.data d hd
  have hl : a.length + c.length = rowCount (sortedRows d) := by
    rw [← List.length_append, h, List.length_map, rowOrder_length, rowCount_sorted hdo]
  refine ⟨by omega, ?_⟩
  intro i hi
  have hi' : i < (rowOrder d).length := by
    rw [rowOrder_length, ← rowCount_sorted hdo]
    exact hi
  have hnn := timeAt_nonneg hdo.typed hdo.timestamp (rowOrder d)[i]
  rw [sortedRows_timeAt hdo hi']
  have hg : (a ++ c)[i]? = some ((timeAt d (rowOrder d)[i]).toNat, rowBytes l (rowOrder d)[i]) := by
    rw [h, List.getElem?_map, List.getElem?_eq_getElem hi']
    rfl
  refine ⟨fun hlt => ?_, fun hge => ?_⟩
  · rw [List.getElem?_append_left hlt] at hg
    have := ha _ (List.mem_of_getElem? hg)
    simp only at this
    omega
  · rw [List.getElem?_append_right hge] at hg
    have := hc _ (List.mem_of_getElem? hg)
    simp only at this
    omega

theorem fold_grows (E : List Ev) (c : Coll) :
    c.dropouts <+: (E.foldl Coll.step c).dropouts ∧ c.changed <+: (E.foldl Coll.step c).changed ∧
      c.last ≤ (E.foldl Coll.step c).last := by
  induction E generalizing c with
  | nil => exact ⟨List.prefix_rfl, List.prefix_rfl, Nat.le_refl _⟩
  | cons e E ih =>
    obtain ⟨h1, h2, h3⟩ := ih (c.step e)
    rw [List.foldl_cons]
    cases e with
    | row i b t => exact ⟨h1, h2, Nat.le_trans (Nat.le_max_left ..) h3⟩
    | log m => exact ⟨h1, h2, h3⟩
    | tag m => exact ⟨h1, h2, h3⟩
    | drop m => exact ⟨(List.prefix_append ..).trans h1, h2, h3⟩
    | par m => exact ⟨h1, (List.prefix_append ..).trans h2, h3⟩

theorem sum_filter_pos {α : Type} (f : α → Nat) (l : List α) :
    ((l.filter fun a => decide (0 < f a)).map f).sum = (l.map f).sum := by
  induction l with
  | nil => rfl
  | cons a l ih =>
    rw [List.filter_cons, List.map_cons, List.sum_cons]
    split
    · rw [List.map_cons, List.sum_cons, ih]
    · rename_i h
      have : f a = 0 := by simpa using h
      rw [ih, this, Nat.zero_add]

/-- number of the messages collected from events -/
theorem fold_counts (E : List Ev) (s : Nat) :
    (E.foldl Coll.step (coll0 s)).dropouts.length = (E.filterMap Ev.dropOf).length ∧
      (E.foldl Coll.step (coll0 s)).changed.length = (E.filterMap Ev.parOf).length := by
  have key : ∀ (c : Coll), (E.foldl Coll.step c).dropouts.length
        = c.dropouts.length + (E.filterMap Ev.dropOf).length ∧
      (E.foldl Coll.step c).changed.length = c.changed.length + (E.filterMap Ev.parOf).length := by
    induction E with
    | nil => intro c; exact ⟨rfl, rfl⟩
    | cons e E ih =>
      intro c
      obtain ⟨h1, h2⟩ := ih (c.step e)
      rw [List.foldl_cons, h1, h2]
      cases e with
      | row i b t => exact ⟨rfl, rfl⟩
      | log m => exact ⟨rfl, rfl⟩
      | tag m => exact ⟨rfl, rfl⟩
      | drop m =>
        refine ⟨?_, rfl⟩
        show (c.dropouts ++ [_]).length + _ = _ + (m :: E.filterMap Ev.dropOf).length
        rw [List.length_append, List.length_cons, List.length_cons, List.length_nil]
        omega
      | par m =>
        refine ⟨rfl, ?_⟩
        show (c.changed ++ [_]).length + _ = _ + (m :: E.filterMap Ev.parOf).length
        rw [List.length_append, List.length_cons, List.length_cons, List.length_nil]
        omega
  have := key (coll0 s)
  simpa [coll0] using this

theorem finalize_cut {depth : Nat} {u : ULog} (hu : Writable depth u) {per : List (List Timed)}
    (p1 : per.length = (byMsgId u.dataList).length)
    (p2 : ∀ p ∈ (byMsgId u.dataList).zip per, IsRows p.1 p.2) {E1 E2 : List Ev}
    (hE : E1 ++ E2 = ssort (fun a b => decide (a.key ≤ b.key)) (allEvs u per)) :
    ∃ w t, finalize ((E1.foldl Coll.step (coll0 u.startTs)).obj (defined u) (byMsgId u.dataList)) = .ok w ∧
      LogUpTo t w (canon u) ∧ itemCount w = E1.length := by
  have hn : ((byMsgId u.dataList).map (·.msgId)).Nodup :=
    ((ssort_perm _ u.dataList).map _).nodup_iff.mpr hu.ids
  have hmem : ∀ d ∈ byMsgId u.dataList, d ∈ u.dataList := fun d hd => (mem_ssort _ _ _).mp hd
  have hmem' : ∀ d ∈ u.dataList, d ∈ byMsgId u.dataList := fun d hd => (mem_ssort _ _ _).mpr hd
  have hsorted : Sorted (fun a b : Ev => decide (a.key ≤ b.key)) (E1 ++ E2) := by
    rw [hE]
    exact ssort_sorted key_pre _
  obtain ⟨t, t1, t2⟩ := cut_time hsorted
  -- the whole log
  have hall := finalize_read hu p1 p2
  rw [← hE, List.foldl_append] at hall
  generalize hN : (fun i => (E1.filterMap (Ev.rowOf i)).length) = n
  have hn' : ∀ i, (E1.filterMap (Ev.rowOf i)).length = n i := fun i => by rw [← hN]
  -- the buffers
  have hdata : ∀ d ∈ byMsgId u.dataList,
      (0 < ((E1.foldl Coll.step (coll0 u.startTs)).buf d.msgId).length ↔ 0 < n d.msgId) ∧
      mkData (mkSub (topicOf d) ((E1.foldl Coll.step (coll0 u.startTs)).buf d.msgId))
        = .ok (firstRows (n d.msgId) (sortedRows d)) := by
    intro d hd
    obtain ⟨l, h1, h2⟩ := rows_cut hu p1 p2 hE hd
    have := data_cut hu (hmem d hd) h1 h2
    rw [fold_buf, ← hn']
    exact this
  have hnew : (((E1.foldl Coll.step (coll0 u.startTs)).obj (defined u) (byMsgId u.dataList)).subs.reverse.filter
      (fun p => p.2.buffer.length > 0)).mapM (fun p => mkData p.2)
      = .ok (((byMsgId u.dataList).reverse.filter fun d => decide (0 < n d.msgId)).map
          fun d => firstRows (n d.msgId) (sortedRows d)) := by
    have : ((E1.foldl Coll.step (coll0 u.startTs)).obj (defined u) (byMsgId u.dataList)).subs.reverse
        = (byMsgId u.dataList).reverse.map fun d => (d.msgId, mkSub (topicOf d)
          ((E1.foldl Coll.step (coll0 u.startTs)).buf d.msgId)) := by
      show (subsOf _ _).reverse = _
      unfold subsOf
      rw [List.map_reverse]
    rw [this, List.filter_map]
    have e : (byMsgId u.dataList).reverse.filter ((fun p : Nat × Sub => decide (p.2.buffer.length > 0)) ∘
        fun d => (d.msgId, mkSub (topicOf d) ((E1.foldl Coll.step (coll0 u.startTs)).buf d.msgId)))
        = (byMsgId u.dataList).reverse.filter fun d => decide (0 < n d.msgId) := by
      apply List.filter_congr
      intro d hd
      exact decide_eq_decide.mpr (hdata d (List.mem_reverse.mp hd)).1
    rw [e]
    exact mapM_map_ok fun d hd => (hdata d (List.mem_reverse.mp (List.mem_filter.mp hd).1)).2
  have hlist : ssort dsLe (((byMsgId u.dataList).reverse.filter fun d => decide (0 < n d.msgId)).map
          fun d => firstRows (n d.msgId) (sortedRows d))
      = (u.dataList.filter fun d => decide (0 < n d.msgId)).map
          fun d => firstRows (n d.msgId) (sortedRows d) := by
    apply sorted_perm_unique (le := dsLe)
    · refine (ssort_perm _ _).trans (List.Perm.map _ (List.Perm.filter _ ?_))
      exact (List.reverse_perm _).trans (ssort_perm _ _)
    · intro a ha b hb h1 h2
      obtain ⟨x, hx, rfl⟩ := List.mem_map.mp ((mem_ssort _ _ _).mp ha)
      obtain ⟨y, hy, rfl⟩ := List.mem_map.mp ((mem_ssort _ _ _).mp hb)
      have hx := hmem x (List.mem_reverse.mp (List.mem_filter.mp hx).1)
      have hy := hmem y (List.mem_reverse.mp (List.mem_filter.mp hy).1)
      have hxy : x.name = y.name ∧ x.multiId = y.multiId := by
        have g1 : dsLe x y = true := h1
        have g2 : dsLe y x = true := h2
        unfold dsLe at g1 g2
        by_cases e : x.name = y.name
        · rw [if_pos e] at g1
          rw [if_pos e.symm] at g2
          simp only [decide_eq_true_eq] at g1 g2
          exact ⟨e, by omega⟩
        · rw [if_neg e] at g1
          rw [if_neg (fun h => e h.symm)] at g2
          exact absurd (strLe_antisymm _ _ g1 g2) e
      have hxe : x = y := by
        obtain ⟨i, hi, rfl⟩ := List.getElem_of_mem hx
        obtain ⟨j, hj, rfl⟩ := List.getElem_of_mem hy
        have ho := List.pairwise_iff_getElem.mp hu.order
        rcases Nat.lt_trichotomy i j with h | h | h
        · exact absurd hxy (ho i j hi hj h).2
        · subst h; rfl
        · exact absurd ⟨hxy.1.symm, hxy.2.symm⟩ (ho j i hj hi h).2
      rw [hxe]
    · exact ssort_sorted dsLe_total _
    · rw [Sorted, List.pairwise_map]
      exact (hu.order.sublist List.filter_sublist).imp fun h => dsLe_of_before h.1
  have hfin : finalize ((E1.foldl Coll.step (coll0 u.startTs)).obj (defined u) (byMsgId u.dataList))
      = .ok { defined u with
          lastTs := (E1.foldl Coll.step (coll0 u.startTs)).last
          logged := (E1.foldl Coll.step (coll0 u.startTs)).logged
          tagged := (E1.foldl Coll.step (coll0 u.startTs)).tagged
          dropouts := (E1.foldl Coll.step (coll0 u.startTs)).dropouts
          changedParams := (E1.foldl Coll.step (coll0 u.startTs)).changed
          dataList := (u.dataList.filter fun d => decide (0 < n d.msgId)).map
            fun d => firstRows (n d.msgId) (sortedRows d) } := by
    unfold finalize
    rw [hnew, ok_bind]
    show Except.ok _ = _
    congr 1
    have hdl : ((E1.foldl Coll.step (coll0 u.startTs)).obj (defined u) (byMsgId u.dataList)).dataList = [] := rfl
    rw [hdl, List.nil_append, hlist]
    rfl
  have hcanon : canon u = { canon u with
      lastTs := (E2.foldl Coll.step (E1.foldl Coll.step (coll0 u.startTs))).last
      logged := (E2.foldl Coll.step (E1.foldl Coll.step (coll0 u.startTs))).logged
      tagged := (E2.foldl Coll.step (E1.foldl Coll.step (coll0 u.startTs))).tagged
      dropouts := (E2.foldl Coll.step (E1.foldl Coll.step (coll0 u.startTs))).dropouts
      changedParams := (E2.foldl Coll.step (E1.foldl Coll.step (coll0 u.startTs))).changed } := by
    unfold finalize at hall
    obtain ⟨new, _, hall⟩ := except_bind_ok.mp hall
    injection hall with hall
    rw [← hall]
    rfl
  have k1 : (canon u).logged = (E1 ++ E2).filterMap Ev.logOf := by
    rw [hcanon]
    show (E2.foldl Coll.step (E1.foldl Coll.step (coll0 u.startTs))).logged = _
    rw [← List.foldl_append, fold_logged]
    rfl
  have k2 : (canon u).tagged = ((E1 ++ E2).filterMap Ev.tagOf).foldl putTag [] := by
    rw [hcanon]
    show (E2.foldl Coll.step (E1.foldl Coll.step (coll0 u.startTs))).tagged = _
    rw [← List.foldl_append, fold_tagged]
    rfl
  have k3 : (canon u).dropouts = (E2.foldl Coll.step (E1.foldl Coll.step (coll0 u.startTs))).dropouts := by
    rw [hcanon]
  have k4 : (canon u).changedParams = (E2.foldl Coll.step (E1.foldl Coll.step (coll0 u.startTs))).changed := by
    rw [hcanon]
  have k5 : (canon u).lastTs = (E2.foldl Coll.step (E1.foldl Coll.step (coll0 u.startTs))).last := by
    rw [hcanon]
  have j1 : (E1.foldl Coll.step (coll0 u.startTs)).logged = E1.filterMap Ev.logOf := by
    rw [fold_logged]
    rfl
  have j2 : (E1.foldl Coll.step (coll0 u.startTs)).tagged = (E1.filterMap Ev.tagOf).foldl putTag [] := by
    rw [fold_tagged]
    rfl
  obtain ⟨g1, g2, g3⟩ := fold_grows E2 (E1.foldl Coll.step (coll0 u.startTs))
  obtain ⟨_, _, g4⟩ := fold_grows E1 (coll0 u.startTs)
  have htimes : ∀ d ∈ u.dataList, n d.msgId ≤ rowCount (sortedRows d) ∧ ∀ i, i < rowCount (sortedRows d) →
      (i < n d.msgId → timeAt (sortedRows d) i ≤ t) ∧ (n d.msgId ≤ i → t ≤ timeAt (sortedRows d) i) := by
    intro d hd
    obtain ⟨l, _, h2⟩ := rows_cut hu p1 p2 hE (hmem' d hd)
    have hkey : ∀ e x, Ev.rowOf d.msgId e = some x → (x.1 : Int) = e.key := by
      intro e x he
      cases e <;> simp only [Ev.rowOf] at he <;> try (cases he)
      split at he
      · cases he
        rfl
      · cases he
    have := times_cut (t := t) hu hd h2 ?_ ?_
    · rw [hn'] at this
      exact this
    · intro x hx
      obtain ⟨e, he, hex⟩ := List.mem_filterMap.mp hx
      rw [hkey _ _ hex]
      exact t1 e he
    · intro x hx
      obtain ⟨e, he, hex⟩ := List.mem_filterMap.mp hx
      rw [hkey _ _ hex]
      exact t2 e he
  refine ⟨_, t, hfin, ?_, ?_⟩
  · constructor
    case definitions => rfl
    case rows =>
      refine ⟨n, ?_, ?_⟩
      · show (u.dataList.filter fun d => decide (0 < n d.msgId)).map _
          = ((u.dataList.map sortedRows).filter fun d => decide (0 < n d.msgId)).map _
        rw [List.filter_map, List.map_map]
        rfl
      · intro d hd
        obtain ⟨x, hx, rfl⟩ := List.mem_map.mp (show d ∈ u.dataList.map sortedRows from hd)
        exact htimes x hx
    case logged =>
      rw [k1]
      show UpTo _ t (E1.foldl Coll.step (coll0 u.startTs)).logged _
      rw [j1]
      refine upTo_filterMap (key := Ev.key) ?_ t1 t2
      intro e x he
      cases e <;> cases he
      rfl
    case tagged =>
      intro k
      rw [k2]
      show UpTo _ t (((E1.foldl Coll.step (coll0 u.startTs)).tagged.get? k).getD []) _
      rw [j2, foldl_putTag_getD, foldl_putTag_getD]
      apply upTo_filter
      refine upTo_filterMap (key := Ev.key) ?_ t1 t2
      intro e x he
      cases e <;> cases he
      rfl
    case tags =>
      show ((E1.foldl Coll.step (coll0 u.startTs)).tagged.map (·.1)).Nodup ∧
        ∀ p ∈ (E1.foldl Coll.step (coll0 u.startTs)).tagged, p.2 ≠ []
      rw [j2]
      have hnd := foldl_putTag_nodup (E1.filterMap Ev.tagOf) [] (by simp [Dict.keys])
      refine ⟨hnd, ?_⟩
      intro p hp
      have h1 := Dict.get?_of_mem _ p.1 p.2 hnd hp
      rw [foldl_putTag_get] at h1
      split at h1
      · cases h1
      · rename_i h
        injection h1 with h1
        rw [← h1]
        exact h
    case dropouts =>
      rw [k3]
      exact g1
    case changed =>
      rw [k4]
      exact g2
    case last =>
      rw [k5]
      exact ⟨g4, g3⟩
  · obtain ⟨c1, c2⟩ := fold_counts E1 u.startTs
    unfold itemCount
    show (((u.dataList.filter fun d => decide (0 < n d.msgId)).map
            fun d => firstRows (n d.msgId) (sortedRows d)).map rowCount).sum
        + (E1.foldl Coll.step (coll0 u.startTs)).logged.length
        + ((E1.foldl Coll.step (coll0 u.startTs)).tagged.map fun p => p.2.length).sum
        + (E1.foldl Coll.step (coll0 u.startTs)).dropouts.length
        + (E1.foldl Coll.step (coll0 u.startTs)).changed.length = _
    have e1 : ((u.dataList.filter fun d => decide (0 < n d.msgId)).map
            fun d => firstRows (n d.msgId) (sortedRows d)).map rowCount
        = (u.dataList.filter fun d => decide (0 < n d.msgId)).map fun d => n d.msgId := by
      rw [List.map_map]
      apply List.map_congr_left
      intro d hd
      exact rowCount_firstRows _ _ (htimes d (List.mem_filter.mp hd).1).1
    have e2 : (u.dataList.map fun d => n d.msgId).sum = (E1.filterMap Ev.rowTime).length := by
      rw [← count_rows hn E1 ?_, List.map_map, ← hN]
      · exact (((ssort_perm _ u.dataList).map _).sum_nat).symm
      · intro i b t h
        have : Ev.row i b t ∈ E1 ++ E2 := List.mem_append_left _ h
        rw [hE, mem_ssort] at this
        exact ids_of_rows this
    rw [e1, sum_filter_pos (fun d : Dataset => n d.msgId), e2, j1, j2, foldl_putTag_count, c1, c2,
      ← count_events E1]
    simp

end PyULog
