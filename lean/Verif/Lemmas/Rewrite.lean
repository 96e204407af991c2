import Verif.Lemmas.RoundBack
/-
Writing the log that was read back from a written file.
-/
namespace PyULog
open Spec

theorem packNp_stored {t : BT} {v : NpVal} (hv : Typed t v) : packNp t (stored t v) = packNp t v := by
  obtain ⟨b0, hb0, rfl⟩ := typed_iff.mp hv
  cases t with
  | i8 | u8 | i16 | u16 | i32 | u32 | i64 | u64 | f64 | char => rfl
  | f32 =>
    have hb : leNat b0 < 2 ^ 32 := by
      have := leNat_lt b0
      rw [hb0] at this
      exact this
    show packNp .f32 (.f32 (if _ then _ else _)) = packNp .f32 (.f32 (leNat b0))
    split
    · rename_i h
      have hs : sNaN32 (leNat b0) := h
      have e : (narrow (widen (leNat b0 + 2 ^ 22))).map (leEnc 4)
          = (narrow (widen (leNat b0))).map (leEnc 4) := by
        have h1 := C50_signalling_nan _ hs
        have h2 := C50_float_roundtrip (leNat b0 + 2 ^ 22) (by omega) (by
          unfold sNaN32 exp32 frac32
          omega)
        rw [h1, h2]
      exact e
    · rfl
  | bool =>
    show Except.ok [if (if toSigned 1 (leNat b0) = 0 then (0 : Int) else 1) ≠ 0 then (1 : UInt8) else 0]
      = Except.ok [if toSigned 1 (leNat b0) ≠ 0 then (1 : UInt8) else 0]
    by_cases h : toSigned 1 (leNat b0) = 0
    · simp [h]
    · simp [h]

theorem paramData_asParam (k : Str) (v : Value) : paramData k (asParam v) = paramData k v := by
  cases v with
  | bool b => cases b <;> rfl
  | _ => rfl

/-! ### lists of items -/

theorem mapM_ok_map {α β : Type} {f : α → Except PyErr β} {l : List α} {r : List β} [Inhabited β]
    (h : l.mapM f = .ok r) :
    r = l.map (fun a => (f a).toOption.getD default) ∧
      ∀ a ∈ l, f a = .ok ((f a).toOption.getD default) := by
  induction l generalizing r with
  | nil =>
    injection h with h
    subst h
    exact ⟨rfl, fun a h => by cases h⟩
  | cons a as ih =>
    rw [List.mapM_cons] at h
    obtain ⟨x, h1, h⟩ := except_bind_ok.mp h
    obtain ⟨xs, h2, h⟩ := except_bind_ok.mp h
    injection h with h
    obtain ⟨i1, i2⟩ := ih h2
    subst h
    refine ⟨?_, ?_⟩
    · rw [List.map_cons, h1, ← i1]; rfl
    · intro b hb
      rcases List.mem_cons.mp hb with rfl | hb
      · rw [h1]; rfl
      · exact i2 b hb

theorem mapM_of_ok {α β : Type} {f : α → Except PyErr β} {g : α → β} {l : List α}
    (h : ∀ a ∈ l, f a = .ok (g a)) : l.mapM f = .ok (l.map g) := by
  have := mapM_map_ok (h := id) (f := f) (g := g) (l := l) h
  rwa [List.map_id] at this

/-- items at a time -/
def atTime (t : Int) (l : List Item) : List Item := l.filter fun x => decide (x.1 = t)

theorem sortItems_congr {l m : List Item} (h : ∀ t, atTime t l = atTime t m) :
    sortItems l = sortItems m := by
  have h1 := inOrder_ssort (fun x : Item => x.1) l
  have h2 := inOrder_ssort (fun x : Item => x.1) m
  apply eq_of_filters h1.2.1 h2.2.1
  intro t
  rw [h1.2.2, h2.2.2]
  exact h t

theorem atTime_map {α : Type} {g : α → Item} {key : α → Int} {l : List α} (h : ∀ a ∈ l, (g a).1 = key a)
    (t : Int) : atTime t (l.map g) = (l.filter fun a => decide (key a = t)).map g := by
  unfold atTime
  rw [List.filter_map]
  congr 1
  apply List.filter_congr
  intro a ha
  simp only [Function.comp, h a ha]

/-- a class of items whose source was reordered -/
theorem items_congr {α : Type} {f : α → Except PyErr Item} {key : α → Int} {l m : List α}
    {r : List Item} (hf : ∀ a x, f a = .ok x → x.1 = key a) (hr : l.mapM f = .ok r)
    (hm : ∀ t, m.filter (fun a => decide (key a = t)) = l.filter (fun a => decide (key a = t))) :
    ∃ s, m.mapM f = .ok s ∧ ∀ t, atTime t s = atTime t r := by
  obtain ⟨h1, h2⟩ := mapM_ok_map hr
  have hsub : ∀ a ∈ m, a ∈ l := by
    intro a ha
    have : a ∈ m.filter (fun b => decide (key b = key a)) := List.mem_filter.mpr ⟨ha, by simp⟩
    rw [hm] at this
    exact (List.mem_filter.mp this).1
  have h3 : ∀ a ∈ l, ((f a).toOption.getD default).1 = key a := fun a ha => hf a _ (h2 a ha)
  refine ⟨_, mapM_of_ok (fun a ha => h2 a (hsub a ha)), ?_⟩
  intro t
  rw [h1, atTime_map h3, atTime_map (fun a ha => h3 a (hsub a ha)), hm]

theorem loggedItem_time (m : LogMsg) (x : Item) (h : loggedItem m = .ok x) : x.1 = m.ts := by
  unfold loggedItem at h
  obtain ⟨_, _, h⟩ := except_bind_ok.mp h
  obtain ⟨_, _, h⟩ := except_bind_ok.mp h
  obtain ⟨_, _, h⟩ := except_bind_ok.mp h
  injection h with h
  rw [← h]

theorem taggedItem_time (m : TagMsg) (x : Item) (h : taggedItem m = .ok x) : x.1 = m.ts := by
  unfold taggedItem at h
  obtain ⟨_, _, h⟩ := except_bind_ok.mp h
  obtain ⟨_, _, h⟩ := except_bind_ok.mp h
  obtain ⟨_, _, h⟩ := except_bind_ok.mp h
  obtain ⟨_, _, h⟩ := except_bind_ok.mp h
  injection h with h
  rw [← h]

theorem dropoutItem_time (m : Dropout) (x : Item) (h : dropoutItem m = .ok x) : x.1 = m.ts := by
  unfold dropoutItem at h
  obtain ⟨_, _, h⟩ := except_bind_ok.mp h
  obtain ⟨_, _, h⟩ := except_bind_ok.mp h
  injection h with h
  rw [← h]

theorem changedItem_time (p : Nat × Str × Value) (x : Item) (h : changedItem p = .ok x) : x.1 = p.1 := by
  unfold changedItem at h
  obtain ⟨_, _, h⟩ := except_bind_ok.mp h
  obtain ⟨_, _, h⟩ := except_bind_ok.mp h
  injection h with h
  rw [← h]

/-! ### samples -/

theorem rowOrder_length (d : Dataset) : (rowOrder d).length = rowCount d := by
  unfold rowOrder
  rw [(ssort_perm _ _).length_eq, List.length_range]

theorem rowOrder_lt {d : Dataset} {i : Nat} (h : i ∈ rowOrder d) : i < rowCount d := by
  unfold rowOrder at h
  exact List.mem_range.mp ((mem_ssort _ _ _).mp h)

theorem sortedRows_get {F : Dict Str MsgFormat} {depth : Nat} {d : Dataset} (hd : DatasetOk F depth d)
    {f : FieldData} (hf : f ∈ d.fields) :
    (sortedRows d).data.get? f.name
      = some ((rowOrder d).filterMap fun i => (cell d f.name i).map (stored f.type)) := by
  apply Dict.get?_of_mem
  · show ((sortedRows d).data.map (·.1)).Nodup
    unfold sortedRows
    dsimp only
    rw [List.map_map]
    exact hd.distinct
  · exact List.mem_map_of_mem (f := fun f : FieldData =>
      (f.name, (rowOrder d).filterMap fun i => (cell d f.name i).map (stored f.type))) hf

theorem sortedRows_col {F : Dict Str MsgFormat} {depth : Nat} {d : Dataset} (hd : DatasetOk F depth d)
    {f : FieldData} (hf : f ∈ d.fields) {col : List NpVal} (hc : d.data.get? f.name = some col) :
    (sortedRows d).data.get? f.name
      = some ((rowOrder d).map fun i => stored f.type (col.getD i (.int 0))) := by
  rw [sortedRows_get hd hf]
  congr 1
  apply filterMap_all_some
  intro i hi
  have hl := hd.shape _ (Dict.mem_of_get? _ _ _ hc)
  have := rowOrder_lt hi
  unfold cell
  rw [hc]
  have h2 : i < col.length := by rw [hl]; exact this
  simp [List.getD, h2]

theorem pyIndex_nat {α : Type} (l : List α) (i : Nat) (h : i < l.length) : pyIndex l i = .ok l[i] := by
  unfold pyIndex
  simp [h]

theorem sampleItem_sorted {F : Dict Str MsgFormat} {depth : Nat} {d : Dataset} (hd : DatasetOk F depth d)
    {j : Nat} (hj : j < rowCount d) :
    sampleItem (sortedRows d) j = sampleItem d ((rowOrder d)[j]'(by rw [rowOrder_length]; exact hj)) := by
  have hi : (rowOrder d)[j]'(by rw [rowOrder_length]; exact hj) < rowCount d :=
    rowOrder_lt (List.getElem_mem _)
  have key : ∀ f ∈ d.fields, ∃ col col' : List NpVal, d.data.get? f.name = some col ∧
      (sortedRows d).data.get? f.name = some col' ∧
      ∃ v, pyIndex col ((rowOrder d)[j]'(by rw [rowOrder_length]; exact hj)) = .ok v ∧ Typed f.type v ∧
        pyIndex col' j = .ok (stored f.type v) := by
    intro f hf
    obtain ⟨col, hc, hl⟩ := hd.col hf
    refine ⟨col, _, hc, sortedRows_col hd hf hc, col[(rowOrder d)[j]'(by rw [rowOrder_length]; exact hj)]'(by omega), ?_, ?_, ?_⟩
    · exact pyIndex_nat _ _ (by omega)
    · exact hd.typed f hf col hc _ (List.getElem_mem _)
    · rw [pyIndex_nat _ _ (by rw [List.length_map, rowOrder_length]; exact hj), List.getElem_map]
      congr 2
      have : (rowOrder d)[j]'(by rw [rowOrder_length]; exact hj) < col.length := by omega
      simp [List.getD, this]
  generalize (rowOrder d)[j]'(by rw [rowOrder_length]; exact hj) = i at *
  have hbytes : sampleBytes (sortedRows d) j = sampleBytes d i := by
    unfold sampleBytes
    show concatM (d.fields.map _) = _
    congr 1
    apply List.map_congr_left
    intro f hf
    obtain ⟨col, col', h1, h2, v, h3, h4, h5⟩ := key f hf
    rw [h1, h2]
    dsimp only
    rw [h3, h5, ok_bind, ok_bind, packNp_stored h4]
  obtain ⟨col, col', h1, h2, v, h3, h4, h5⟩ := key _ hd.timestamp
  unfold sampleItem
  dsimp only at h1 h2 h5
  rw [h1, h2, hbytes]
  dsimp only
  rw [h3, h5]
  rfl

theorem sampleItem_time {d : Dataset} {i : Nat} {x : Item} (h : sampleItem d i = .ok x) :
    x.1 = timeAt d i := by
  unfold sampleItem at h
  unfold timeAt cell
  split at h
  · cases h
  · rename_i col hc
    obtain ⟨v, h1, h⟩ := except_bind_ok.mp h
    obtain ⟨_, _, h⟩ := except_bind_ok.mp h
    obtain ⟨_, _, h⟩ := except_bind_ok.mp h
    obtain ⟨_, _, h⟩ := except_bind_ok.mp h
    rw [hc]
    have : col[i]? = some v := by
      unfold pyIndex at h1
      split at h1
      · rename_i y hy
        injection h1 with h1
        subst h1
        simpa using hy
      · cases h1
    simp only [Option.bind_some, this]
    split at h
    · injection h with h
      rw [← h]
    · cases h

theorem rowCount_sorted {F : Dict Str MsgFormat} {depth : Nat} {d : Dataset} (hd : DatasetOk F depth d) :
    rowCount (sortedRows d) = rowCount d := by
  have hpos := hd.rows
  have h0 : rowCount d = rowCount d := rfl
  unfold rowCount at h0 hpos ⊢
  show (match d.fields with | [] => 0 | f :: _ => (((sortedRows d).data.get? f.name).getD []).length) = _
  cases hf : d.fields with
  | nil => rfl
  | cons f fs =>
    have hm : f ∈ d.fields := by rw [hf]; exact List.mem_cons_self ..
    obtain ⟨col, hc, hl⟩ := hd.col hm
    dsimp only
    rw [sortedRows_col hd hm hc, hc]
    show ((rowOrder d).map _).length = col.length
    rw [List.length_map, rowOrder_length, hl]

theorem datasetItems_eq {F : Dict Str MsgFormat} {depth : Nat} {d : Dataset} (hd : DatasetOk F depth d) :
    datasetItems d = (List.range (rowCount d)).mapM (sampleItem d) ∧
    datasetItems (sortedRows d) = (List.range (rowCount d)).mapM (sampleItem (sortedRows d)) := by
  cases hf : d.fields with
  | nil =>
    have := hd.timestamp
    rw [hf] at this
    cases this
  | cons f fs =>
    have hm : f ∈ d.fields := by rw [hf]; exact List.mem_cons_self ..
    obtain ⟨col, hc, hl⟩ := hd.col hm
    constructor
    · unfold datasetItems
      rw [hf]
      show (match d.data.get? f.name with
        | none => Except.error PyErr.keyError
        | some col => (List.range col.length).mapM (sampleItem d)) = _
      rw [hc]
      dsimp only
      rw [hl]
    · unfold datasetItems
      have : (sortedRows d).fields = d.fields := rfl
      rw [this, hf]
      show (match (sortedRows d).data.get? f.name with
        | none => Except.error PyErr.keyError
        | some col => (List.range col.length).mapM (sampleItem (sortedRows d))) = _
      rw [sortedRows_col hd hm hc]
      dsimp only
      rw [List.length_map, rowOrder_length]

theorem datasetItems_sorted {F : Dict Str MsgFormat} {depth : Nat} {d : Dataset}
    (hd : DatasetOk F depth d) {r : List Item} (h : datasetItems d = .ok r) :
    ∃ s, datasetItems (sortedRows d) = .ok s ∧ ∀ t, atTime t s = atTime t r := by
  obtain ⟨e1, e2⟩ := datasetItems_eq hd
  rw [e1] at h
  have e3 : (List.range (rowCount d)).mapM (sampleItem (sortedRows d)) = (rowOrder d).mapM (sampleItem d) := by
    obtain ⟨h1, h2⟩ := mapM_ok_map h
    have h3 := mapM_of_ok (l := rowOrder d)
      (fun a ha => h2 a (List.mem_range.mpr (rowOrder_lt ha)))
    rw [h3]
    have h4 : ∀ j ∈ List.range (rowCount d), sampleItem (sortedRows d) j
        = .ok ((sampleItem d ((rowOrder d).getD j 0)).toOption.getD default) := by
      intro j hj
      have hj := List.mem_range.mp hj
      have hl : j < (rowOrder d).length := by rw [rowOrder_length]; exact hj
      rw [sampleItem_sorted hd hj]
      have : (rowOrder d).getD j 0 = (rowOrder d)[j] := by simp [List.getD, hl]
      rw [this]
      exact h2 _ (List.mem_range.mpr (rowOrder_lt (List.getElem_mem _)))
    rw [mapM_of_ok h4]
    congr 1
    apply List.ext_getElem
    · simp [rowOrder_length]
    · intro i h1 h2
      have hl : i < (rowOrder d).length := by simpa using h2
      simp [List.getD, hl]
  rw [e2, e3]
  exact items_congr (key := timeAt d) (fun i x hx => sampleItem_time hx) h
    (inOrder_ssort (timeAt d) (List.range (rowCount d))).2.2

theorem byMsgId_sorted (l : List Dataset) : byMsgId (l.map sortedRows) = (byMsgId l).map sortedRows := by
  unfold byMsgId
  exact (ssort_map (le := fun a b : Dataset => decide (a.msgId ≤ b.msgId))
    (le' := fun a b : Dataset => decide (a.msgId ≤ b.msgId)) sortedRows (fun a b => rfl) l).symm

theorem atTime_append (t : Int) (a b : List Item) : atTime t (a ++ b) = atTime t a ++ atTime t b :=
  List.filter_append ..

theorem datasets_sorted {F : Dict Str MsgFormat} {depth : Nat} {l : List Dataset}
    (hd : ∀ d ∈ l, DatasetOk F depth d) {r : List (List Item)} (h : l.mapM datasetItems = .ok r) :
    ∃ s, (l.map sortedRows).mapM datasetItems = .ok s ∧ ∀ t, atTime t s.flatten = atTime t r.flatten := by
  induction l generalizing r with
  | nil =>
    injection h with h
    subst h
    exact ⟨[], rfl, fun t => rfl⟩
  | cons d l ih =>
    rw [List.mapM_cons] at h
    obtain ⟨x, h1, h⟩ := except_bind_ok.mp h
    obtain ⟨xs, h2, h⟩ := except_bind_ok.mp h
    injection h with h
    subst h
    obtain ⟨s, s1, s2⟩ := datasetItems_sorted (hd d (List.mem_cons_self ..)) h1
    obtain ⟨ss, i1, i2⟩ := ih (fun e he => hd e (List.mem_cons_of_mem _ he)) h2
    refine ⟨s :: ss, ?_, ?_⟩
    · rw [List.map_cons, List.mapM_cons, s1, ok_bind, i1]
      rfl
    · intro t
      rw [List.flatten_cons, List.flatten_cons, atTime_append, atTime_append, s2, i2]

/-! ### the data section -/

theorem tagged_filter {u : ULog} (hg : TagsApart u) (t : Int) :
    (canon u).tagged.vals.flatten.filter (fun m => decide ((m.ts : Int) = t))
      = u.tagged.vals.flatten.filter (fun m => decide ((m.ts : Int) = t)) := by
  obtain ⟨⟨k1, k2⟩, k3⟩ := tagged_readBack u
  unfold TagsApart at hg
  show ((canon u).tagged.map (·.2)).flatten.filter _ = (u.tagged.map (·.2)).flatten.filter _
  generalize (u.tagged.map (·.2)).flatten = l at *
  have hmem : ∀ p ∈ (canon u).tagged, ∀ m ∈ p.2, m ∈ l ∧ m.tag = p.1 := by
    intro p hp m hm
    have := (k3 p hp).1.mem_iff.mp hm
    obtain ⟨a, b⟩ := List.mem_filter.mp this
    exact ⟨a, by simpa using b⟩
  by_cases hex : ∃ m ∈ l, (m.ts : Int) = t
  · obtain ⟨m, hm, hmt⟩ := hex
    obtain ⟨p, hp, hpt⟩ := List.mem_map.mp ((k2 m.tag).mpr ⟨m, hm, rfl⟩)
    have h1 : l.filter (fun x => decide ((x.ts : Int) = t))
        = (l.filter fun x => x.tag = p.1).filter (fun x => decide ((x.ts : Int) = t)) := by
      rw [List.filter_filter]
      apply List.filter_congr
      intro x hx
      by_cases hxt : (x.ts : Int) = t
      · have := hg x hx m hm (by omega)
        simp [hxt, this, hpt]
      · simp [hxt]
    have h2 : ((canon u).tagged.map (·.2)).flatten.filter (fun x => decide ((x.ts : Int) = t))
        = (((canon u).tagged.map (·.2)).flatten.filter fun x => x.tag = p.1).filter
          (fun x => decide ((x.ts : Int) = t)) := by
      rw [List.filter_filter]
      apply List.filter_congr
      intro x hx
      obtain ⟨y, hy, hxy⟩ := List.mem_flatten.mp hx
      obtain ⟨q, hq, rfl⟩ := List.mem_map.mp hy
      by_cases hxt : (x.ts : Int) = t
      · have := hg x (hmem q hq x hxy).1 m hm (by omega)
        simp [hxt, this, hpt]
      · simp [hxt]
    rw [h1, h2, flatten_filter_tag _ k1 (fun q hq x hx => (hmem q hq x hx).2) hp]
    exact (k3 p hp).2.2 t
  · have h1 : l.filter (fun x => decide ((x.ts : Int) = t)) = [] := by
      rw [List.filter_eq_nil_iff]
      intro x hx h
      exact hex ⟨x, hx, by simpa using h⟩
    have h2 : ((canon u).tagged.map (·.2)).flatten.filter (fun x => decide ((x.ts : Int) = t)) = [] := by
      rw [List.filter_eq_nil_iff]
      intro x hx h
      obtain ⟨y, hy, hxy⟩ := List.mem_flatten.mp hx
      obtain ⟨q, hq, rfl⟩ := List.mem_map.mp hy
      exact hex ⟨x, (hmem q hq x hxy).1, by simpa using h⟩
    rw [h1, h2]

theorem changed_asParam (p : Nat × Str × Value) :
    changedItem (p.1, p.2.1, asParam p.2.2) = changedItem p := by
  unfold changedItem
  dsimp only
  rw [paramData_asParam]

theorem data_rewrite {depth : Nat} {u : ULog} {b : Bytes} (hu : Writable depth u) (hg : TagsApart u)
    (hd : ∀ m ∈ u.dropouts, clock u m.ts = m.ts) (hc : ∀ p ∈ u.changedParams, clock u p.1 = p.1)
    (h : writeDataSection u = .ok b) : writeDataSection (canon u) = .ok b := by
  unfold writeDataSection allItems dataItems at h ⊢
  obtain ⟨items, h, hb⟩ := except_bind_ok.mp h
  obtain ⟨a, ha, h⟩ := except_bind_ok.mp h
  obtain ⟨per, hper, ha⟩ := except_bind_ok.mp ha
  injection ha with ha
  obtain ⟨l2, h2, h⟩ := except_bind_ok.mp h
  obtain ⟨l3, h3, h⟩ := except_bind_ok.mp h
  obtain ⟨l4, h4, h⟩ := except_bind_ok.mp h
  obtain ⟨l5, h5, h⟩ := except_bind_ok.mp h
  injection h with h
  obtain ⟨per', p1, p2⟩ := datasets_sorted (F := u.formats) (depth := depth)
    (fun d hdm => hu.data d ((mem_ssort _ _ _).mp hdm)) hper
  obtain ⟨s2, q2, r2⟩ := items_congr (key := fun m : LogMsg => (m.ts : Int))
    (fun m x => loggedItem_time m x) h2
    (inOrder_ssort (fun m : LogMsg => (m.ts : Int)) u.logged).2.2
  obtain ⟨s3, q3, r3⟩ := items_congr (key := fun m : TagMsg => (m.ts : Int))
    (fun m x => taggedItem_time m x) h3 (tagged_filter hg)
  obtain ⟨s4, q4, r4⟩ := items_congr (key := fun m : Dropout => (m.ts : Int))
    (fun m x => dropoutItem_time m x) h4
    (inOrder_ssort (fun m : Dropout => (m.ts : Int)) u.dropouts).2.2
  obtain ⟨s5, q5, r5⟩ := items_congr (key := fun m : Nat × Str × Value => (m.1 : Int))
    (fun m x => changedItem_time m x) h5
    (inOrder_ssort (fun m : Nat × Str × Value => (m.1 : Int)) u.changedParams).2.2
  have e1 : byMsgId (canon u).dataList = (byMsgId u.dataList).map sortedRows := byMsgId_sorted _
  have e4 : (canon u).dropouts = ssort (fun a b => decide ((a.ts : Int) ≤ b.ts)) u.dropouts := by
    show (ssort _ u.dropouts).map _ = _
    conv => rhs; rw [← List.map_id (ssort _ u.dropouts)]
    apply List.map_congr_left
    intro m hm
    show (⟨m.duration, clock u m.ts⟩ : Dropout) = m
    rw [hd m ((mem_ssort _ _ _).mp hm)]
  have e5 : (canon u).changedParams.mapM changedItem = .ok s5 := by
    show ((ssort _ u.changedParams).map _).mapM changedItem = _
    obtain ⟨g1, g2⟩ := mapM_ok_map q5
    rw [g1]
    apply mapM_map_ok
    intro p hp
    rw [hc p ((mem_ssort _ _ _).mp hp), changed_asParam]
    exact g2 p hp
  have p1' : ((byMsgId u.dataList).map sortedRows).mapM datasetItems = .ok per' := p1
  refine except_bind_ok.mpr ⟨per'.flatten ++ s2 ++ s3 ++ s4 ++ s5, ?_, ?_⟩
  · refine except_bind_ok.mpr ⟨per'.flatten, ?_, ?_⟩
    · rw [e1, p1']
      rfl
    · refine except_bind_ok.mpr ⟨s2, q2, ?_⟩
      refine except_bind_ok.mpr ⟨s3, q3, ?_⟩
      refine except_bind_ok.mpr ⟨s4, by rw [e4]; exact q4, ?_⟩
      exact except_bind_ok.mpr ⟨s5, e5, rfl⟩
  · rw [← hb, ← h, ← ha]
    congr 2
    apply sortItems_congr
    intro t
    simp only [atTime_append, p2, r2, r3, r4, r5]

theorem flags_rewrite {depth : Nat} {u : ULog} (hu : Writable depth u) : writeFlags (canon u) = writeFlags u := by
  unfold writeFlags
  have h1 : (canon u).compat = u.compat := rfl
  have h2 : clearAppended (canon u).incompat = clearAppended u.incompat := by
    have : (canon u).incompat = withoutAppended u.incompat := rfl
    rw [this]
    cases hi : u.incompat with
    | nil => rfl
    | cons x xs =>
      have hx := hu.flags.1
      rw [hi] at hx
      have hx : x = 0 ∨ x = 1 := by
        have : x < 2 := hx
        omega
      rcases hx with rfl | rfl <;> rfl
  rw [h1, h2]

theorem write_rewrite {depth : Nat} {u : ULog} {b : Bytes} (hu : Writable depth u) (hg : TagsApart u)
    (hd : ∀ m ∈ u.dropouts, clock u m.ts = m.ts) (hc : ∀ p ∈ u.changedParams, clock u p.1 = p.1)
    (h : writeUlog u = .ok b) : writeUlog (canon u) = .ok b := by
  obtain ⟨w⟩ := written_of_ok h
  have e1 : writeHeader (canon u) = writeHeader u := rfl
  have e2 := flags_rewrite hu
  have e3 : writeFormats (canon u) = writeFormats u := rfl
  have e4 : writeInfos (canon u) = writeInfos u := rfl
  have e5 : writeInfoMulti (canon u) = writeInfoMulti u := rfl
  have e6 : writeInitialParams (canon u) = writeInitialParams u := by
    unfold writeInitialParams
    show concatM ((u.initialParams.map _).map _) = _
    rw [List.map_map]
    congr 1
    apply List.map_congr_left
    intro p _
    show (do
      let d ← paramData p.1 (asParam p.2)
      frame MSG_TYPE_PARAMETER d) = _
    rw [paramData_asParam]
  have e7 : writeDefaultParams (canon u) = writeDefaultParams u := by
    unfold writeDefaultParams
    show concatM ((u.defaultParams.map _).map _) = _
    rw [List.map_map]
    congr 1
    apply List.map_congr_left
    intro p _
    show concatM ((p.2.map _).map _) = concatM (p.2.map _)
    rw [List.map_map]
    congr 1
    apply List.map_congr_left
    intro q _
    show (do
      let m ← packU 1 (1 <<< p.1)
      let d ← paramData q.1 (asParam q.2)
      frame MSG_TYPE_PARAMETER_DEFAULT (m ++ d)) = _
    rw [paramData_asParam]
  have e8 : writeSubs (canon u) = writeSubs u := by
    unfold writeSubs
    have : byMsgId (canon u).dataList = (byMsgId u.dataList).map sortedRows := byMsgId_sorted _
    rw [this, List.map_map]
    rfl
  have e9 := data_rewrite hu hg hd hc w.h_data
  rw [← h]
  unfold writeUlog
  rw [e1, e2, e3, e4, e5, e6, e7, e8, e9, w.h_data]

end PyULog
