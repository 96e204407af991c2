import Verif.Spec.Datasets
import Verif.Lemmas.Attr
import Verif.Lemmas.Sort
/-
From subscriptions and buffers to the datasets described in Spec/Datasets.
-/
namespace PyULog
open Spec

/-- subscription object of a topic with some buffer -/
def mkSub (tp : Topic) (buf : Bytes) : Sub :=
  { multiId := tp.multiId, msgId := tp.msgId, name := tp.name, fields := tp.fields,
    tsIdx := tp.tsIdx, tsOff := tsOffset tp.fields, maxSize := fieldsSize tp.fields,
    itemSize := fieldsSize tp.fields, buffer := buf }

/-! ### names of the columns -/

theorem columnName_named (k : Nat) {s : Str} (h : s ≠ []) : columnName k s = s := by
  cases s with
  | nil => exact absurd rfl h
  | cons => rfl

theorem columnName_ne (k : Nat) (s : Str) : columnName k s ≠ [] := by
  cases s <;> exact fun h => nomatch h

/-- a column that is called like no unnamed column has its name from the field -/
theorem columnName_of {k : Nat} {s n : Str} (h : columnName k s = n) (hn : n.head? ≠ some 'f') : s = n := by
  cases s with
  | nil => subst h; exact absurd rfl hn
  | cons => exact h

theorem mem_columnNames {fs : List FieldData} {n : Str} :
    n ∈ columnNames fs ↔ ∃ (k : Nat) (f : FieldData), fs[k]? = some f ∧ columnName k f.name = n := by
  unfold columnNames
  rw [List.mem_map]
  constructor
  · rintro ⟨⟨f, k⟩, h, e⟩
    exact ⟨k, f, List.mem_zipIdx_iff_getElem?.mp h, e⟩
  · rintro ⟨k, f, h, e⟩
    exact ⟨(f, k), List.mem_zipIdx_iff_getElem?.mpr h, e⟩

/-- the field of a column of its own name -/
theorem columnNames_inj {fs : List FieldData} (hn : (columnNames fs).Nodup) {i k : Nat} {f g : FieldData}
    (hf : fs[i]? = some f) (hg : fs[k]? = some g) (h : columnName i f.name = columnName k g.name) : i = k := by
  obtain ⟨hi, hf⟩ := List.getElem?_eq_some_iff.mp hf
  obtain ⟨hk, hg⟩ := List.getElem?_eq_some_iff.mp hg
  have hl : (columnNames fs).length = fs.length := by simp [columnNames]
  refine (List.getElem_inj (h₀ := by omega) (h₁ := by omega) hn).mp ?_
  simp only [columnNames, List.getElem_map, List.getElem_zipIdx, Nat.zero_add]
  rw [hf, hg]
  exact h

theorem dtypeFields_length (fs : List FieldData) : (dtypeFields fs).length = fs.length := by
  simp [dtypeFields]

theorem dtypeFields_get (fs : List FieldData) {i : Nat} (hi : i < fs.length) :
    ((dtypeFields fs)[i]'(by rw [dtypeFields_length]; exact hi)).name = columnName i fs[i].name ∧
    ((dtypeFields fs)[i]'(by rw [dtypeFields_length]; exact hi)).type = fs[i].type := by
  simp only [dtypeFields, List.getElem_map, List.getElem_zipIdx, Nat.zero_add]
  cases h : fs[i].name with
  | nil => rw [if_pos rfl]; exact ⟨rfl, rfl⟩
  | cons c n => rw [if_neg (fun h => nomatch h), h]; exact ⟨rfl, rfl⟩

theorem dtypeFields_names (fs : List FieldData) : (dtypeFields fs).map (·.name) = columnNames fs := by
  apply List.ext_getElem
  · simp [dtypeFields, columnNames]
  · intro i h1 h2
    have hi : i < fs.length := by simpa [dtypeFields] using h1
    rw [List.getElem_map, (dtypeFields_get fs hi).1]
    simp [columnNames]

theorem dtypeFields_types (fs : List FieldData) : (dtypeFields fs).map (·.type) = fs.map (·.type) := by
  apply List.ext_getElem
  · simp [dtypeFields]
  · intro i h1 h2
    have hi : i < fs.length := by simpa [dtypeFields] using h1
    rw [List.getElem_map, (dtypeFields_get fs hi).2, List.getElem_map]

theorem dtypeFields_size (fs : List FieldData) (n : Nat) :
    rowSize ((dtypeFields fs).take n) = rowSize (fs.take n) := by
  have h : ∀ l : List FieldData, rowSize l = ((l.map (·.type)).map width).sum := by
    intro l
    simp [rowSize, Function.comp_def]
  have h' : ∀ l : List FieldData, (l.take n).map (·.type) = (l.map (·.type)).take n := fun l => List.map_take
  rw [h, h, h', h', dtypeFields_types]

theorem dtypeFields_row (fs : List FieldData) : rowSize (dtypeFields fs) = rowSize fs := by
  have h := dtypeFields_size fs fs.length
  rwa [List.take_length, ← dtypeFields_length fs, List.take_length] at h

theorem dtypeFields_named {fs : List FieldData} (h : ∀ f ∈ fs, f.name ≠ []) : dtypeFields fs = fs := by
  apply List.ext_getElem
  · simp [dtypeFields]
  · intro i h1 h2
    simp only [dtypeFields, List.getElem_map, List.getElem_zipIdx, Nat.zero_add]
    rw [if_neg (h _ (List.getElem_mem _))]

theorem columnNames_named {fs : List FieldData} (h : ∀ f ∈ fs, f.name ≠ []) : columnNames fs = fs.map (·.name) := by
  rw [← dtypeFields_names, dtypeFields_named h]

theorem subscribed_spec (cfg : Cfg) (u : ULog) (d : Bytes) :
    match parseAddLogged cfg.ign u.formats cfg.depth d with
    | .ok s => if cfg.filter.accepts s.name then
        ∃ tp, subscribed cfg (u, tyA, d) = some tp ∧ s = mkSub tp [] else
        subscribed cfg (u, tyA, d) = none
    | .error _ => subscribed cfg (u, tyA, d) = none := by
  unfold subscribed
  simp only [true_and]
  unfold parseAddLogged
  by_cases h3 : 3 ≤ d.length
  · rw [if_pos h3, unpackU_ok (by simp; omega), ok_bind, unpackU_ok (by simp; omega), ok_bind,
      ← byteAt_zero _ (by omega), ← leAt_slice _ 1 2 (by omega)]
    unfold text
    cases hs : parseString cfg.ign (d.drop 3) with
    | error e => rfl
    | ok name =>
      rw [ok_bind]
      simp only [Except.toOption]
      cases hp : parseFields u.formats cfg.depth name with
      | error e =>
        simp only [Bind.bind, Except.bind]
        split <;> rfl
      | ok r =>
        obtain ⟨fs, idx⟩ := r
        rw [ok_bind]
        simp only
        rw [dtypeFields_names]
        by_cases hn : (columnNames fs).Nodup
        · rw [if_neg (not_not_intro hn), if_pos hn]
          simp only [pure, Except.pure]
          by_cases ha : cfg.filter.accepts name = true
          · rw [if_pos ha, if_pos ha]
            exact ⟨_, rfl, rfl⟩
          · rw [if_neg ha, if_neg ha]
        · rw [if_pos hn, if_neg hn]
          simp only
          split <;> rfl
  · rw [if_neg h3]
    by_cases h1 : 1 ≤ d.length
    · rw [unpackU_ok (by simp; omega), ok_bind]
      have : unpackU 2 (slice 1 3 d) = .error .structError := by
        unfold unpackU; rw [if_neg]; simp; omega
      rw [this]; rfl
    · have : unpackU 1 (slice 0 1 d) = .error .structError := by
        unfold unpackU; rw [if_neg]; simp; omega
      rw [this]; rfl

theorem lastSub_snoc (cfg : Cfg) (id : Nat) (t : List Tr) (x : Tr) :
    lastSub cfg id (t ++ [x]) = match (subscribed cfg x).filter (fun tp => tp.msgId = id) with
      | some tp => some (tp, [])
      | none => (lastSub cfg id t).map fun r => (r.1, r.2 ++ [x]) := by
  induction t with
  | nil =>
    simp only [List.nil_append, lastSub]
    cases subscribed cfg x with
    | none => rfl
    | some tp => by_cases h : tp.msgId = id <;> simp [Option.filter, h]
  | cons y ys ih =>
    simp only [List.cons_append, lastSub, ih]
    cases hf : (subscribed cfg x).filter (fun tp => decide (tp.msgId = id)) with
    | some tp => rfl
    | none =>
      simp only
      cases lastSub cfg id ys with
      | some r => rfl
      | none =>
        simp only [Option.map_none]
        cases subscribed cfg y with
        | none => rfl
        | some tp => by_cases h : tp.msgId = id <;> simp [h]

/-- samples collected for a subscription -/
def collected (id : Nat) (r : Topic × List Tr) : List Bytes :=
  r.2.filterMap (sampleOf id (rowSize r.1.fields))

/-- the subscriptions are those of the messages of the section -/
def SubInv (cfg : Cfg) (t : List Tr) (u : ULog) : Prop :=
  ∀ id, u.subs.get? id = (lastSub cfg id t).map fun r => mkSub r.1 (collected id r).flatten

theorem collected_snoc (id : Nat) (tp : Topic) (post : List Tr) (x : Tr) :
    collected id (tp, post ++ [x])
      = collected id (tp, post) ++ (sampleOf id (rowSize tp.fields) x).toList := by
  unfold collected
  exact filterMap_snoc _ _ _

theorem subInv_other {cfg : Cfg} {t : List Tr} {u u' : ULog} {ty : Nat} {d : Bytes}
    (hp : SubInv cfg t u) (hs : u'.subs = u.subs) (hA : subscribed cfg (u, ty, d) = none)
    (hD : ∀ id tp post, lastSub cfg id t = some (tp, post) →
      sampleOf id (rowSize tp.fields) (u, ty, d) = none) : SubInv cfg (t ++ [(u, ty, d)]) u' := by
  intro id
  rw [hs, hp id, lastSub_snoc, hA]
  simp only [Option.filter_none, Option.map_map]
  cases hl : lastSub cfg id t with
  | none => rfl
  | some r =>
    obtain ⟨tp, post⟩ := r
    simp only [Option.map_some, Function.comp, Option.some.injEq]
    rw [collected_snoc, hD id tp post hl]
    simp

theorem mkSub_fields {tp : Topic} {b : Bytes} : (mkSub tp b).fields = tp.fields := rfl

theorem sampleOf_other {id size ty : Nat} {u : ULog} {d : Bytes} (h : ty ≠ tyD) :
    sampleOf id size (u, ty, d) = none := by simp [sampleOf, h]

theorem subscribed_other {cfg : Cfg} {ty : Nat} {u : ULog} {d : Bytes} (h : ty ≠ tyA) :
    subscribed cfg (u, ty, d) = none := by simp [subscribed, h]

theorem subInv_msg (cfg : Cfg) (t : List Tr) (u : ULog) (ty : Nat) (d : Bytes) (o : Out)
    (hu : SubsOk u) (hp : SubInv cfg t u) (h : handleData cfg u ty d = some o) :
    SubInv cfg (t ++ [(u, ty, d)]) o.state := by
  by_cases hA : ty = tyA
  · subst hA
    rw [show tyA = MSG_TYPE_ADD_LOGGED_MSG from rfl, handleData_A] at h
    cases h
    have hspec := subscribed_spec cfg u d
    cases hpa : parseAddLogged cfg.ign u.formats cfg.depth d with
    | error e =>
      rw [hpa] at hspec
      exact subInv_other hp rfl hspec fun _ _ _ _ => sampleOf_other (by decide)
    | ok s =>
      rw [hpa] at hspec
      simp only [Out.bind, Out.state] at hspec ⊢
      unfold addSub
      by_cases ha : cfg.filter.accepts s.name = true
      · rw [if_pos ha] at hspec ⊢
        obtain ⟨tp, htp, hs⟩ := hspec
        intro id
        rw [lastSub_snoc, htp]
        simp only [Dict.get?_set]
        subst hs
        by_cases hid : tp.msgId = id
        · simp only [mkSub, hid, if_true, Option.filter_some, decide_true, Option.map_some]
          rfl
        · have : (mkSub tp []).msgId ≠ id := hid
          rw [if_neg this, hp id]
          simp only [Option.filter_some, hid, decide_false, Bool.false_eq_true, if_false,
            Option.map_map]
          cases hl : lastSub cfg id t with
          | none => rfl
          | some r =>
            obtain ⟨tp', post⟩ := r
            simp only [Option.map_some, Function.comp, Option.some.injEq]
            rw [collected_snoc, sampleOf_other (by decide)]
            simp
      · rw [if_neg ha] at hspec ⊢
        exact subInv_other hp rfl hspec fun _ _ _ _ => sampleOf_other (by decide)
  · by_cases hD : ty = tyD
    · subst hD
      rw [show tyD = MSG_TYPE_DATA from rfl, handleData_D] at h
      cases h
      -- a message that is not accepted by any subscription
      have hno : ∀ u' : ULog, u'.subs = u.subs →
          (∀ id s, u.subs.get? id = some s → leAt d 0 2 = id → d.length = 2 + rowSize s.fields →
            False) → SubInv cfg (t ++ [(u, tyD, d)]) u' := by
        intro u' hs hn
        refine subInv_other hp hs (subscribed_other (by decide)) ?_
        intro id tp post hl
        unfold sampleOf
        rw [if_neg]
        rintro ⟨_, h1, h2⟩
        have := hp id
        rw [hl] at this
        exact hn id _ this h2 h1
      -- an accepted message
      have hyes : ∀ (u' : ULog) s, u.subs.get? (leAt d 0 2) = some s →
          d.length = 2 + rowSize s.fields →
          u'.subs = u.subs.set (leAt d 0 2) { s with buffer := s.buffer ++ d.drop 2 } →
          SubInv cfg (t ++ [(u, tyD, d)]) u' := by
        intro u' s hs hl hset id
        rw [hset, Dict.get?_set, lastSub_snoc, subscribed_other (by decide)]
        simp only [Option.filter_none, Option.map_map]
        have hpid := hp id
        by_cases hid : leAt d 0 2 = id
        · rw [if_pos hid]
          rw [hid] at hs
          rw [hs] at hpid
          cases hls : lastSub cfg id t with
          | none => rw [hls] at hpid; cases hpid
          | some r =>
            obtain ⟨tp, post⟩ := r
            rw [hls] at hpid
            simp only [Option.map_some, Option.some.injEq] at hpid
            subst hpid
            simp only [Option.map_some, Function.comp, Option.some.injEq]
            rw [collected_snoc]
            have : sampleOf id (rowSize tp.fields) (u, tyD, d) = some (d.drop 2) := by
              unfold sampleOf; rw [if_pos ⟨rfl, hl, hid⟩]
            rw [this]
            simp [mkSub]
        · rw [if_neg hid, hpid]
          cases hls : lastSub cfg id t with
          | none => rfl
          | some r =>
            obtain ⟨tp, post⟩ := r
            simp only [Option.map_some, Function.comp, Option.some.injEq]
            rw [collected_snoc]
            have : sampleOf id (rowSize tp.fields) (u, tyD, d) = none := by
              unfold sampleOf; rw [if_neg]; rintro ⟨_, _, h⟩; exact hid h
            rw [this]
            simp
      show SubInv cfg (t ++ [(u, tyD, d)]) (addData u d).state
      rcases addData_cases u d hu with ⟨h2, h⟩ | ⟨h2, hn, ⟨_, h⟩ | ⟨_, h⟩⟩ |
        ⟨_, s, hs, ⟨hl, h⟩ | ⟨hl, ⟨_, h⟩ | ⟨_, h⟩⟩⟩ <;> rw [h]
      · exact hno _ rfl fun id s _ _ hl => by omega
      · exact hno _ rfl fun id s hs hid _ => by rw [← hid, hn] at hs; cases hs
      · exact hno _ rfl fun id s hs hid _ => by rw [← hid, hn] at hs; cases hs
      · exact hno _ rfl fun id s' hs' hid hl' => by
          rw [← hid, hs] at hs'; cases hs'; exact hl hl'
      · exact hyes _ s hs hl rfl
      · exact hyes _ s hs hl rfl
    · exact subInv_other hp (handleData_subs h hA hD) (subscribed_other hA)
        fun _ _ _ _ => sampleOf_other hD

/-! ### rows and columns -/

theorem rowsOf_flatten {n : Nat} (hn : 0 < n) (rows : List Bytes) (h : ∀ r ∈ rows, r.length = n) :
    rowsOf n rows.flatten = rows := by
  have hlen : rows.flatten.length = rows.length * n := by
    induction rows with
    | nil => simp
    | cons r rs ih =>
      rw [List.flatten_cons, List.length_append, ih fun r hr => h r (List.mem_cons_of_mem _ hr),
        h r (List.mem_cons_self ..), List.length_cons, Nat.succ_mul]
      omega
  unfold rowsOf
  rw [hlen, Nat.mul_div_cancel _ hn]
  apply List.ext_getElem
  · simp
  · intro i h1 h2
    simp only [List.getElem_map, List.getElem_range]
    clear hlen h1
    induction rows generalizing i with
    | nil => simp at h2
    | cons r rs ih =>
      have hr := h r (List.mem_cons_self ..)
      cases i with
      | zero =>
        simp only [Nat.zero_mul, List.drop_zero, List.flatten_cons, List.getElem_cons_zero]
        rw [← hr, List.take_left]
      | succ i =>
        have hi : i < rs.length := by simpa using h2
        rw [Nat.succ_mul, Nat.add_comm, ← List.drop_drop, List.flatten_cons, ← hr, List.drop_left, hr]
        rw [ih (fun r hr => h r (List.mem_cons_of_mem _ hr)) i hi]
        simp

theorem npDecode_spec (t : BT) (b : Bytes) (off : Nat) (h : off + width t ≤ b.length) :
    npDecode t (slice off (off + t.size) b) = valueAt t b off := by
  rw [← width_eq]
  have e := leAt_slice b off (width t) h
  cases t <;> simp only [npDecode, valueAt, width] at e ⊢ <;> rw [← e] <;> rfl

theorem columns_spec (rows : List Bytes) (full pre fs : List FieldData) (hf : full = pre ++ fs)
    (h : ∀ r ∈ rows, r.length = rowSize full) :
    columns rows (rowSize pre) fs = (fs.zipIdx pre.length).map fun p =>
      (p.1.name, rows.map fun b => valueAt p.1.type b (rowSize (full.take p.2))) := by
  induction fs generalizing pre with
  | nil => rfl
  | cons f fs ih =>
    have h1 : rowSize (pre ++ [f]) = rowSize pre + width f.type := by simp [rowSize]
    have ih' := ih (pre ++ [f]) (by rw [hf]; simp)
    rw [h1] at ih'
    rw [List.zipIdx_cons, List.map_cons]
    show (f.name, rows.map fun r => npDecode f.type (slice (rowSize pre) (rowSize pre + f.type.size) r))
        :: columns rows (rowSize pre + f.type.size) fs = _
    rw [← width_eq, ih']
    congr 1
    · congr 1
      apply List.map_congr_left
      intro b hb
      have hle : rowSize pre + width f.type ≤ b.length := by
        rw [h b hb, hf]; simp [rowSize]
      rw [width_eq, npDecode_spec _ _ _ hle, hf]
      simp
    · simp

theorem mkData_spec (tp : Topic) (samples : List Bytes) (hpos : 0 < rowSize tp.fields)
    (h : ∀ r ∈ samples, r.length = rowSize tp.fields) :
    mkData (mkSub tp samples.flatten) = .ok (datasetOf tp samples) := by
  have hlen : samples.flatten.length % fieldsSize tp.fields = 0 := by
    rw [← rowSize_eq]
    have : samples.flatten.length = samples.length * rowSize tp.fields := by
      clear hpos
      induction samples with
      | nil => simp
      | cons r rs ih =>
        rw [List.flatten_cons, List.length_append, ih fun r hr => h r (List.mem_cons_of_mem _ hr),
          h r (List.mem_cons_self ..), List.length_cons, Nat.succ_mul]
        omega
    rw [this, Nat.mul_mod_left]
  unfold mkData
  rw [if_neg (by
    rintro (h0 | h0)
    · have : fieldsSize tp.fields = 0 := h0
      rw [← rowSize_eq] at this; omega
    · exact h0 hlen)]
  have hr : rowsOf (mkSub tp samples.flatten).itemSize (mkSub tp samples.flatten).buffer = samples := by
    show rowsOf (fieldsSize tp.fields) samples.flatten = samples
    rw [← rowSize_eq]
    exact rowsOf_flatten hpos samples h
  rw [hr]
  have hc := columns_spec samples (dtypeFields tp.fields) [] (dtypeFields tp.fields) rfl
    (by rw [dtypeFields_row]; exact h)
  have : columns samples 0 (dtypeFields tp.fields) = columnsOf tp.fields samples := by
    refine hc.trans ?_
    unfold columnsOf
    apply List.ext_getElem
    · simp [dtypeFields]
    · intro i h1 h2
      have hi : i < tp.fields.length := by simpa using h2
      simp only [List.getElem_map, List.getElem_zipIdx, List.length_nil, Nat.zero_add, dtypeFields_size]
      rw [(dtypeFields_get tp.fields hi).1, (dtypeFields_get tp.fields hi).2]
  show Except.ok _ = Except.ok (datasetOf tp samples)
  unfold datasetOf
  rw [← this]
  rfl

theorem collected_length (id : Nat) (r : Topic × List Tr) :
    ∀ s ∈ collected id r, s.length = rowSize r.1.fields := by
  intro s hs
  unfold collected at hs
  obtain ⟨x, _, hx⟩ := List.mem_filterMap.mp hs
  unfold sampleOf at hx
  split at hx
  · rename_i hc
    cases hx
    rw [List.length_drop, hc.2.1]; omega
  · cases hx

theorem mapM_ok {α β : Type} {f : α → Except PyErr β} {g : α → β} {l : List α}
    (h : ∀ a ∈ l, f a = .ok (g a)) : l.mapM f = .ok (l.map g) := by
  induction l with
  | nil => rfl
  | cons a as ih =>
    rw [List.mapM_cons, h a (List.mem_cons_self ..), ok_bind,
      ih fun b hb => h b (List.mem_cons_of_mem _ hb), ok_bind]
    rfl

/-- the arrays of consistent subscriptions can always be built -/
theorem finalize_total (u : ULog) (hu : SubsOk u) : ∃ u', finalize u = .ok u' := by
  unfold finalize
  have hm : ∀ p ∈ u.subs.reverse.filter (fun p => p.2.buffer.length > 0),
      ∃ d, mkData p.2 = .ok d := by
    intro p hp
    obtain ⟨hp1, hp2⟩ := List.mem_filter.mp hp
    have hg := Dict.get?_of_mem _ p.1 p.2 hu.1 (List.mem_reverse.mp hp1)
    obtain ⟨k, hk⟩ := (hu.2 _ _ hg).buffer
    have hpos : 0 < p.2.buffer.length := by simpa using hp2
    unfold mkData
    rw [if_neg]
    · exact ⟨_, rfl⟩
    · rintro (h0 | h0)
      · rw [h0] at hk; simp at hk; rw [hk] at hpos; simp at hpos
      · apply h0; rw [hk, Nat.mul_mod_left]
  have : ∃ new, (u.subs.reverse.filter (fun p => p.2.buffer.length > 0)).mapM
      (fun p => mkData p.2) = .ok new := by
    generalize u.subs.reverse.filter (fun p => p.2.buffer.length > 0) = l at hm
    induction l with
    | nil => exact ⟨[], rfl⟩
    | cons a as ih =>
      obtain ⟨d, hd⟩ := hm a (List.mem_cons_self ..)
      obtain ⟨ds, hds⟩ := ih fun p hp => hm p (List.mem_cons_of_mem _ hp)
      exact ⟨d :: ds, by rw [List.mapM_cons, hd, ok_bind, hds, ok_bind]; rfl⟩
  obtain ⟨new, hnew⟩ := this
  exact ⟨_, by rw [hnew, ok_bind]; rfl⟩

theorem lastSub_msgId {cfg : Cfg} {id : Nat} {t : List Tr} {r : Topic × List Tr}
    (h : lastSub cfg id t = some r) : r.1.msgId = id := by
  induction t with
  | nil => cases h
  | cons x xs ih =>
    simp only [lastSub] at h
    split at h
    · rename_i r' hr; cases h; exact ih hr
    · split at h
      · split at h
        · cases h; assumption
        · cases h
      · cases h

theorem finalize_section {cfg : Cfg} {t : List Tr} {u u' : ULog} (hu : SubsOk u)
    (hp : SubInv cfg t u) (h : finalize u = .ok u') :
    ∃ new, SectionDatasets cfg t new ∧ u'.dataList = ssort dsLe (u.dataList ++ new) := by
  obtain ⟨new, hnew, hu'⟩ := finalize_ok h
  refine ⟨new, ?_, by rw [hu']⟩
  let l := u.subs.reverse.filter (fun p => decide (p.2.buffer.length > 0))
  let g : Nat × Sub → Dataset := fun p =>
    match lastSub cfg p.1 t with
    | some r => datasetOf r.1 (collected p.1 r)
    | none => datasetOf ⟨0, 0, [], [], 0⟩ []
  have hget : ∀ p ∈ l, u.subs.get? p.1 = some p.2 ∧ 0 < p.2.buffer.length := by
    intro p hpm
    obtain ⟨h1, h2⟩ := List.mem_filter.mp hpm
    exact ⟨Dict.get?_of_mem _ p.1 p.2 hu.1 (List.mem_reverse.mp h1), by simpa using h2⟩
  have hsub : ∀ p ∈ l, ∃ tp post, lastSub cfg p.1 t = some (tp, post) ∧ 0 < rowSize tp.fields ∧
      collected p.1 (tp, post) ≠ [] ∧ p.2 = mkSub tp (collected p.1 (tp, post)).flatten := by
    intro p hpm
    obtain ⟨h1, h2⟩ := hget p hpm
    rw [hp p.1] at h1
    cases hl : lastSub cfg p.1 t with
    | none => rw [hl] at h1; cases h1
    | some r =>
      obtain ⟨tp, post⟩ := r
      rw [hl] at h1
      simp only [Option.map_some, Option.some.injEq] at h1
      have h3 : 0 < (collected p.1 (tp, post)).flatten.length := by rw [← h1] at h2; exact h2
      have h4 : collected p.1 (tp, post) ≠ [] := by intro h0; rw [h0] at h3; simp at h3
      refine ⟨tp, post, rfl, ?_, h4, h1.symm⟩
      rcases Nat.eq_zero_or_pos (rowSize tp.fields) with h0 | h0
      · exfalso
        have hz : ∀ b ∈ collected p.1 (tp, post), b = [] := by
          intro b hb
          have := collected_length p.1 (tp, post) b hb
          rw [h0] at this
          exact List.length_eq_zero_iff.mp this
        have : (collected p.1 (tp, post)).flatten = [] := List.flatten_eq_nil_iff.mpr hz
        rw [this] at h3
        simp at h3
      · exact h0
  have hmk : ∀ p ∈ l, mkData p.2 = .ok (g p) := by
    intro p hpm
    obtain ⟨tp, post, hl, hpos, _, he⟩ := hsub p hpm
    rw [he]
    show _ = Except.ok (match lastSub cfg p.1 t with
      | some r => datasetOf r.1 (collected p.1 r)
      | none => datasetOf ⟨0, 0, [], [], 0⟩ [])
    rw [hl]
    exact mkData_spec tp _ hpos (collected_length p.1 (tp, post))
  have hl : new = l.map g := by
    have := (mapM_ok hmk).symm.trans hnew
    injection this with this
    exact this.symm
  have hid : ∀ p ∈ l, (g p).msgId = p.1 := by
    intro p hpm
    obtain ⟨tp, post, hl, _⟩ := hsub p hpm
    show (match lastSub cfg p.1 t with
      | some r => datasetOf r.1 (collected p.1 r)
      | none => datasetOf ⟨0, 0, [], [], 0⟩ []).msgId = p.1
    rw [hl]
    exact lastSub_msgId hl
  subst hl
  refine ⟨?_, fun d => ⟨?_, ?_⟩⟩
  · rw [List.map_map, List.map_congr_left (f := (fun x => x.msgId) ∘ g) (g := Prod.fst) hid]
    have : (l.map Prod.fst).Sublist (u.subs.reverse.map Prod.fst) := List.filter_sublist.map _
    refine this.nodup ?_
    rw [List.map_reverse]
    exact (List.reverse_perm _).nodup_iff.mpr hu.1
  · intro hd
    obtain ⟨p, hpm, rfl⟩ := List.mem_map.mp hd
    obtain ⟨tp, post, hl, hpos, hne, _⟩ := hsub p hpm
    unfold DatasetOfSection
    rw [hid p hpm]
    refine ⟨tp, post, hl, hpos, hne, ?_⟩
    show (match lastSub cfg p.1 t with
      | some r => datasetOf r.1 (collected p.1 r)
      | none => datasetOf ⟨0, 0, [], [], 0⟩ []) = _
    rw [hl]
    rfl
  · rintro ⟨tp, post, hl, hpos, hne, hd⟩
    have h1 := hp d.msgId
    rw [hl] at h1
    simp only [Option.map_some] at h1
    have hm := Dict.mem_of_get? _ _ _ h1
    refine List.mem_map.mpr ⟨(d.msgId, mkSub tp (collected d.msgId (tp, post)).flatten), ?_, ?_⟩
    · refine List.mem_filter.mpr ⟨List.mem_reverse.mpr hm, ?_⟩
      have hne' : collected d.msgId (tp, post) ≠ [] := hne
      obtain ⟨b, bs, hb⟩ := List.exists_cons_of_ne_nil hne'
      have := collected_length d.msgId (tp, post) b (by rw [hb]; exact List.mem_cons_self ..)
      show decide ((collected d.msgId (tp, post)).flatten.length > 0) = true
      rw [hb, List.flatten_cons, List.length_append, this]
      have : 0 < rowSize tp.fields := hpos
      simp only [decide_eq_true_eq]
      omega
    · show (match lastSub cfg d.msgId t with
      | some r => datasetOf r.1 (collected d.msgId r)
      | none => datasetOf ⟨0, 0, [], [], 0⟩ []) = d
      rw [hl]
      exact hd.symm

/-! ### sections and files -/

theorem dataLoop_section {cfg : Cfg} {bs : Bytes} {ru n : Nat} {s s' : RS}
    (h : dataLoop cfg bs ru n s = .done s') (hs : s.u.subs = []) :
    SubsOk s'.u ∧ SubInv cfg (dataTrace cfg bs ru n s) s'.u ∧ s'.u.dataList = s.u.dataList := by
  have := dataLoop_inv (P := fun t v => SubsOk v ∧ SubInv cfg t v ∧ v.dataList = s.u.dataList)
    (fun t v c hh hp => hp) ?_ h (t := [])
    ⟨SubsOk.empty hs, fun id => by rw [hs]; rfl, rfl⟩
  · simpa using this
  · intro t v ty d o ⟨h1, h2, h3⟩ hd
    exact ⟨handleData_subsOk h1 hd, subInv_msg cfg t v ty d o h1 h2 hd,
      (handleData_frame (fun u => u.dataList) hd).trans h3⟩

theorem readData_section {cfg : Cfg} {bs : Bytes} {ru pos : Nat} {u u' : ULog}
    (h : readData cfg bs ru pos u = .ok u') (hs : u.subs = []) :
    u'.subs = [] ∧ ∃ new, SectionDatasets cfg (sectionTrace cfg bs ru pos u) new ∧
      u'.dataList = ssort dsLe (u.dataList ++ new) := by
  unfold readData at h
  split at h
  · rename_i s heq
    obtain ⟨h1, h2, h3⟩ := dataLoop_section heq hs
    unfold LoadRes.ofExcept at h
    split at h
    · rename_i u2 hfz
      cases h
      obtain ⟨new, hn, hd⟩ := finalize_section h1 h2 hfz
      refine ⟨?_, new, hn, by rw [hd, h3]⟩
      obtain ⟨_, _, he⟩ := finalize_ok hfz
      rw [he]
    · cases h
  · cases h
  · cases h

theorem dsLe_total : TotalPre dsLe := by
  constructor
  · intro a b c
    unfold dsLe
    intro hab hbc
    by_cases h1 : a.name = b.name
    · rw [if_pos h1] at hab
      by_cases h2 : b.name = c.name
      · rw [if_pos h2] at hbc
        rw [if_pos (h1.trans h2)]
        simp only [decide_eq_true_eq] at *; omega
      · rw [if_neg h2] at hbc
        rw [if_neg (fun h => h2 (h1.symm.trans h)), h1]
        exact hbc
    · rw [if_neg h1] at hab
      by_cases h2 : b.name = c.name
      · rw [if_neg (fun h => h1 (h.trans h2.symm)), ← h2]
        exact hab
      · rw [if_neg h2] at hbc
        by_cases h3 : a.name = c.name
        · rw [← h3] at hbc
          exact absurd (strLe_antisymm _ _ hab hbc) h1
        · rw [if_neg h3]
          exact strLe_trans _ _ _ hab hbc
  · intro a b
    unfold dsLe
    by_cases h : a.name = b.name
    · rw [if_pos h, if_pos h.symm]
      simp only [decide_eq_true_eq]; omega
    · rw [if_neg h, if_neg (Ne.symm h)]
      exact strLe_total _ _

theorem readSections_sections {cfg : Cfg} {bs : Bytes} {offs : List Nat} {pos : Nat} {u u' : ULog}
    (h : readSections cfg bs offs pos u = .ok u') (hs : u.subs = []) :
    ∃ news : List (List Dataset), news.length = (sectionsTrace cfg bs offs pos u).length ∧
      (∀ p ∈ (sectionsTrace cfg bs offs pos u).zip news, SectionDatasets cfg p.1 p.2) ∧
      u'.dataList.Perm (u.dataList ++ news.flatten) ∧ Sorted dsLe u'.dataList := by
  induction offs generalizing pos u with
  | nil =>
    obtain ⟨_, new, hn, hd⟩ := readData_section h hs
    refine ⟨[new], rfl, ?_, ?_, ?_⟩
    · intro p hp
      simp only [sectionsTrace, List.zip_cons_cons, List.zip_nil_left, List.mem_singleton] at hp
      subst hp; exact hn
    · rw [hd]; simpa using ssort_perm dsLe (u.dataList ++ new)
    · rw [hd]; exact ssort_sorted dsLe_total _
  | cons off offs ih =>
    simp only [readSections] at h
    split at h
    · rename_i u2 heq
      obtain ⟨hs2, new, hn, hd⟩ := readData_section heq hs
      split at h
      · cases h
      · obtain ⟨news, hlen, hall, hperm, hsort⟩ := ih h hs2
        refine ⟨new :: news, ?_, ?_, ?_, hsort⟩
        · simp only [sectionsTrace, heq, List.length_cons, hlen]
        · intro p hp
          simp only [sectionsTrace, heq, List.zip_cons_cons, List.mem_cons] at hp
          rcases hp with rfl | hp
          · exact hn
          · exact hall p hp
        · refine hperm.trans ?_
          rw [hd, List.flatten_cons, ← List.append_assoc]
          exact (ssort_perm dsLe _).append_right _
    · rename_i hne; exact absurd h (hne _)

theorem strLe_lt {a b : Str} (h : strLe a b = true) (hne : a ≠ b) :
    a.map Char.toNat < b.map Char.toNat := by
  induction a generalizing b with
  | nil =>
    cases b with
    | nil => exact absurd rfl hne
    | cons b bs => simp
  | cons a as ih =>
    cases b with
    | nil => cases h
    | cons b bs =>
      simp only [strLe] at h
      simp only [List.map_cons, List.cons_lt_cons_iff]
      split at h
      · rename_i e
        subst e
        exact Or.inr ⟨rfl, ih h (fun e => hne (by rw [e]))⟩
      · exact Or.inl (by simpa using h)

theorem dsLe_before {a b : Dataset} (h : dsLe a b = true) : dataBefore a b := by
  unfold dsLe at h
  unfold dataBefore
  split at h
  · rename_i e; rw [if_pos e]; simpa using h
  · rename_i e; rw [if_neg e]; exact strLe_lt h e

end PyULog
