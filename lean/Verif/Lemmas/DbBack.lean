import Verif.Lemmas.DbLoad
/-
Helper lemmas: loading the rows that were stored for a log gives the log back.
-/
namespace PyULog
open Spec

theorem mapM_then {α β γ : Type} {f : α → Except PyErr β} {g : β → Except PyErr γ} {k : α → γ} {xs : List α}
    {ys : List β} (hm : xs.mapM f = .ok ys) (hg : ∀ x ∈ xs, ∀ y ∈ ys, f x = .ok y → g y = .ok (k x)) :
    ys.mapM g = .ok (xs.map k) := by
  induction xs generalizing ys with
  | nil => cases hm; rfl
  | cons x xs ih =>
    rw [List.mapM_cons] at hm
    obtain ⟨y, h1, h2⟩ := except_bind_ok.mp hm
    obtain ⟨ys', h3, h4⟩ := except_bind_ok.mp h2
    cases h4
    rw [List.mapM_cons, hg x List.mem_cons_self y List.mem_cons_self h1,
      ih h3 fun x hx y hy => hg x (List.mem_cons_of_mem _ hx) y (List.mem_cons_of_mem _ hy)]
    rfl

theorem mapM_map_in {α β γ : Type} {f : β → Except PyErr γ} {g : α → β} : ∀ {xs : List α},
    (xs.map g).mapM f = xs.mapM fun x => f (g x)
  | [] => rfl
  | x :: xs => by rw [List.map_cons, List.mapM_cons, List.mapM_cons, mapM_map_in]

/-! ### order -/

theorem ssort_numbered {α β : Type} {xs : List α} {ys : List (Nat × β)}
    (h : ys.map (·.1) = xs.zipIdx.map (·.2)) : ssort (fun a b => decide (a.1 ≤ b.1)) ys = ys := by
  refine ssort_of_sorted _ ?_
  have : (ys.map (·.1)).Pairwise (· ≤ ·) := by
    rw [h, List.zipIdx_map_snd]
    exact List.pairwise_le_range'
  rw [List.pairwise_map] at this
  exact this.imp fun h => by simpa using h

/-! ### datasets -/

/-- the row of a dataset -/
def dsRowOf (d : Dataset) : DsRow := { name := d.name, multiId := d.multiId, msgId := d.msgId, tsIdx := d.tsIdx }

theorem datasetRow_eq {d : Dataset} {row : DsRow} (h : datasetRow d = .ok row) : row = dsRowOf d := by
  unfold datasetRow at h
  obtain ⟨a, h1, h⟩ := except_bind_ok.mp h
  obtain ⟨b, h2, h⟩ := except_bind_ok.mp h
  obtain ⟨c, h3, h⟩ := except_bind_ok.mp h
  cases h
  rw [bindNat_ok h1, bindNat_ok h2, bindInt_ok h3]
  rfl

theorem fieldRow_eq {json : Bool} {d : Dataset} {f : FieldData} {r : FieldRow} (h : fieldRow json d f = .ok r) :
    ∃ col, d.data.get? f.name = some col ∧ r.name = f.name ∧ r.type = f.type.name ∧ npBytes f.type col = .ok r.data := by
  unfold fieldRow at h
  obtain ⟨col, h1, h⟩ := except_bind_ok.mp h
  obtain ⟨b, h2, h⟩ := except_bind_ok.mp h
  have h : ∃ j, r = { name := f.name, type := f.type.name, data := b, json := j } := by
    cases json with
    | true =>
      obtain ⟨j, _, h⟩ := except_bind_ok.mp (show (Except.map some (jsonOf d col) >>= _) = .ok r from h)
      cases h
      exact ⟨j, rfl⟩
    | false => cases h; exact ⟨none, rfl⟩
  obtain ⟨j, rfl⟩ := h
  refine ⟨col, ?_, rfl, rfl, h2⟩
  unfold dictGet at h1
  split at h1 <;> cases h1
  assumption

theorem find?_key {α κ : Type} [DecidableEq κ] {key : α → κ} : ∀ {l : List α}, (l.map key).Nodup → ∀ {a : α}, a ∈ l →
    l.find? (fun b => decide (key b = key a)) = some a
  | [], _, _, h => by cases h
  | b :: l, hn, a, h => by
    rw [List.map_cons, List.nodup_cons] at hn
    rw [List.find?_cons]
    rcases List.mem_cons.mp h with rfl | h
    · simp
    · have : key b ≠ key a := fun e => hn.1 (e ▸ List.mem_map_of_mem h)
      simp only [this, decide_false]
      exact find?_key hn.2 h

/-- a dataset is read back from its rows -/
theorem dataset_back {json : Bool} {d : Dataset} {c : Content} {p : DsRow × List FieldRow}
    (h1 : datasetRow d = .ok p.1) (h2 : d.fields.mapM (fieldRow json d) = .ok p.2)
    (hf : (d.fields.map (·.name)).Nodup) (hc : d.data.map (·.1) = d.fields.map (·.name)) (ht : ColumnsTyped d)
    (hn : (c.datasets.map fun p => (p.1.name, p.1.multiId)).Nodup) (hp : p ∈ c.datasets) :
    readC c p.1.name p.1.multiId false = .ok d := by
  have e1 := datasetRow_eq h1
  have hfind : c.datasets.find? (fun q => q.1.name = p.1.name && q.1.multiId = p.1.multiId) = some p := by
    rw [← find?_key hn hp]
    congr 1
    funext q
    rw [Bool.eq_iff_iff]
    simp
  unfold readC
  rw [hfind]
  obtain ⟨row, fs⟩ := p
  simp only at *
  subst e1
  have hcols : fs.mapM (fun f => match BT.ofName f.type with
        | none => Except.error PyErr.keyError
        | some t => do return (({ name := f.name, type := t } : FieldData), ← npRead t f.data)) =
      .ok (d.fields.map fun f => (f, (d.data.get? f.name).getD [])) := by
    refine mapM_then h2 fun f hf' r _ hr => ?_
    obtain ⟨col, a1, a2, a3, a4⟩ := fieldRow_eq hr
    rw [a3, BT.ofName_name, a1]
    simp only
    rw [npRead_bytes (ht f hf' col a1) a4, a2]
    rfl
  rw [if_neg (by simp)]
  refine except_bind_ok.mpr ⟨_, hcols, ?_⟩
  have hdata : (d.fields.map fun f => (f, (d.data.get? f.name).getD [])).foldl
      (fun dd c => Dict.set dd c.1.name c.2) ([] : Dict Str (List NpVal)) = d.data := by
    rw [foldl_set_new (fun c : FieldData × List NpVal => c.2) (fun c => c.1.name) _ (by rw [List.map_map]; exact hf), List.map_map]
    have hn' : (d.data.map (·.1)).Nodup := hc ▸ hf
    refine dict_ext_keys ?_ hn' ?_
    · rw [List.map_map, hc]
      rfl
    · intro q hq
      obtain ⟨f, hf1, rfl⟩ := List.mem_map.mp hq
      show d.data.get? f.name = some ((d.data.get? f.name).getD [])
      have : f.name ∈ d.data.map (·.1) := hc ▸ List.mem_map_of_mem hf1
      cases hg : d.data.get? f.name with
      | none => exact absurd this ((Dict.get?_eq_none_iff _ _).mp hg)
      | some v => rfl
  rw [hdata, List.map_map]
  show Except.ok _ = Except.ok _
  congr 1
  have : d.fields.map ((·.1) ∘ fun f => (f, (d.data.get? f.name).getD [])) = d.fields := by
    rw [show ((fun x : FieldData × List NpVal => x.1) ∘ fun f => (f, (d.data.get? f.name).getD [])) = id from rfl,
      List.map_id]
  rw [this]
  rfl

theorem dsRowLe_of_before {a b : Dataset} (h : dataBefore a b) : dsRowLe (dsRowOf a) (dsRowOf b) = true := by
  unfold dataBefore at h
  unfold dsRowLe dsRowOf
  simp only
  split at h
  · rename_i e
    rw [if_pos e]
    simpa using h
  · rename_i e
    rw [if_neg e]
    rcases strLe_total a.name b.name with h' | h'
    · exact h'
    · exact absurd (List.lt_trans h (strLe_lt h' fun e' => e e'.symm)) (List.lt_irrefl _)

theorem datasets_back {json : Bool} {l : DbLog} {c : Content}
    (h : l.dataList.mapM (fun d => do return (← datasetRow d, ← d.fields.mapM (fieldRow json d))) = .ok c.datasets)
    (hr : Regular l) (hn : (c.datasets.map fun p => (p.1.name, p.1.multiId)).Nodup) :
    (ssort dsRowLe (c.datasets.map (·.1))).mapM (fun r => readC c r.name r.multiId false) = .ok l.dataList := by
  have hone : ∀ {d : Dataset} {p : DsRow × List FieldRow},
      (do return (← datasetRow d, ← d.fields.mapM (fieldRow json d)) : Except PyErr _) = .ok p →
      datasetRow d = .ok p.1 ∧ d.fields.mapM (fieldRow json d) = .ok p.2 := by
    intro d p h
    obtain ⟨a, h1, h⟩ := except_bind_ok.mp h
    obtain ⟨b, h2, h⟩ := except_bind_ok.mp h
    cases h
    exact ⟨h1, h2⟩
  have hrows : c.datasets.map (·.1) = l.dataList.map dsRowOf :=
    mapM_map_eq (fun d _ p hp => datasetRow_eq (hone hp).1) h
  have hsort : ssort dsRowLe (c.datasets.map (·.1)) = c.datasets.map (·.1) := by
    refine ssort_of_sorted _ ?_
    rw [hrows]
    show List.Pairwise _ _
    rw [List.pairwise_map]
    exact hr.order.imp dsRowLe_of_before
  rw [hsort, mapM_map_in]
  have := mapM_then (k := id) h (g := fun p => readC c p.1.name p.1.multiId false) fun d hd p hp e =>
    dataset_back (hone e).1 (hone e).2 (hr.fields d hd) (hr.columns d hd) (hr.typed d hd) hn hp
  rw [List.map_id] at this
  exact this

/-! ### the other tables -/

theorem multiRow_eq {l : DbLog} {p : Str × List (List DVal)} {r : (Str × Str) × List (Nat × List (Nat × SqlVal))}
    (h : multiRow l p = .ok r) : r.1.1 = p.1 ∧ l.infoMultiTypes.get? p.1 = some r.1.2 ∧
      ((ssort (fun a b => decide (a.1 ≤ b.1)) r.2).map fun x =>
        (ssort (fun a b => decide (a.1 ≤ b.1)) x.2).map fun e => pyVal e.2) = p.2.map (List.map textBack) := by
  unfold multiRow at h
  obtain ⟨ty, h1, h⟩ := except_bind_ok.mp h
  obtain ⟨ls, h2, h⟩ := except_bind_ok.mp h
  cases h
  refine ⟨rfl, ?_, ?_⟩
  · unfold dictGet at h1
    split at h1 <;> cases h1
    assumption
  · have k1 : ls.map (·.1) = p.2.zipIdx.map (·.2) := mapM_map_eq (fun q _ r hr => by
      obtain ⟨es, _, hr⟩ := except_bind_ok.mp hr
      cases hr
      rfl) h2
    have k2 : ls.map (fun x => (ssort (fun a b => decide (a.1 ≤ b.1)) x.2).map fun e => pyVal e.2) =
        p.2.zipIdx.map (fun q => q.1.map textBack) := mapM_map_eq (fun q _ r hr => by
      obtain ⟨es, he, hr⟩ := except_bind_ok.mp hr
      cases hr
      have j1 : es.map (·.1) = q.1.zipIdx.map (·.2) := mapM_map_eq (fun x _ y hy => by
        obtain ⟨s, _, hy⟩ := except_bind_ok.mp hy
        cases hy
        rfl) he
      have j2 : es.map (fun e => pyVal e.2) = q.1.zipIdx.map (fun x => textBack x.1) := mapM_map_eq (fun x _ y hy => by
        obtain ⟨s, hs, hy⟩ := except_bind_ok.mp hy
        cases hy
        exact bindText_back hs) he
      rw [ssort_numbered j1, j2, ← Function.comp_def textBack, ← List.map_map, List.zipIdx_map_fst]) h2
    show (ssort (fun a b => decide (a.1 ≤ b.1)) ls).map _ = _
    rw [ssort_numbered k1, k2, ← Function.comp_def (List.map textBack), ← List.map_map, List.zipIdx_map_fst]

theorem types_back {l d : Dict Str Str} {α : Type} {v : Dict Str α} (hk : l.map (·.1) = v.map (·.1))
    (hn : (v.map (·.1)).Nodup) (hd : d.map (·.1) = v.map (·.1)) (hg : ∀ p ∈ d, l.get? p.1 = some p.2) : d = l :=
  dict_ext_keys (hd.trans hk.symm) (hk ▸ hn) hg

theorem mapM_mem {α β : Type} {f : α → Except PyErr β} {xs : List α} {ys : List β} (hm : xs.mapM f = .ok ys)
    {y : β} (hy : y ∈ ys) : ∃ x ∈ xs, f x = .ok y := by
  induction xs generalizing ys with
  | nil => cases hm; cases hy
  | cons x xs ih =>
    rw [List.mapM_cons] at hm
    obtain ⟨y', h1, h2⟩ := except_bind_ok.mp hm
    obtain ⟨ys', h3, h4⟩ := except_bind_ok.mp h2
    cases h4
    rcases List.mem_cons.mp hy with rfl | hy
    · exact ⟨x, List.mem_cons_self, h1⟩
    · obtain ⟨x', hx, e⟩ := ih h3 hy
      exact ⟨x', List.mem_cons_of_mem _ hx, e⟩

theorem chr_flags {l : DbLog} {sha : Str} {row : MetaRow} (h : metaRow l sha = .ok row) :
    row.sha = sha ∧ row.fileVersion = l.fileVersion ∧ row.startTs = l.startTs ∧ row.lastTs = l.lastTs ∧
      row.compat.map Char.toNat = l.compat ∧ row.incompat.map Char.toNat = l.incompat ∧ row.syncCnt = l.syncCnt ∧
      row.hasSync = l.hasSync := by
  unfold metaRow at h
  obtain ⟨a, h1, h⟩ := except_bind_ok.mp h
  obtain ⟨b, h2, h⟩ := except_bind_ok.mp h
  obtain ⟨c, h3, h⟩ := except_bind_ok.mp h
  obtain ⟨d, h4, h⟩ := except_bind_ok.mp h
  obtain ⟨e, h5, h⟩ := except_bind_ok.mp h
  obtain ⟨f, h6, h⟩ := except_bind_ok.mp h
  cases h
  exact ⟨rfl, bindNat_ok h3, bindNat_ok h4, bindNat_ok h5, chrStr_back h1, chrStr_back h2, bindNat_ok h6, rfl⟩

/-- loading the stored rows gives the log back -/
theorem loadC_back {json : Bool} {sha : Str} {l : DbLog} {c : Content} (h : dbRows json sha l = .ok c)
    (hr : Regular l) (hn : (c.datasets.map fun p => (p.1.name, p.1.multiId)).Nodup) :
    loadC c false {} = .ok (sha, fromDb l) := by
  obtain ⟨row, h0, hrow, h1, h2, h3, h4, h5, h6, h7, h8, h9, h10, h11⟩ := dbRows_iff.mp h
  obtain ⟨m1, m2, m3, m4, m5, m6, m7, m8⟩ := chr_flags h0
  have e1 : (ssort (fun a b => decide (a.1 ≤ b.1)) c.offsets).map (·.2) = l.appendedOffsets := by
    have k1 : c.offsets.map (·.1) = l.appendedOffsets.zipIdx.map (·.2) := mapM_map_eq (fun x _ y hy => by
      obtain ⟨s, _, hy⟩ := except_bind_ok.mp hy
      cases hy
      rfl) h1
    have k2 : c.offsets.map (·.2) = l.appendedOffsets.zipIdx.map (·.1) := mapM_map_eq (fun x _ y hy => by
      obtain ⟨s, hs, hy⟩ := except_bind_ok.mp hy
      cases hy
      exact bindNat_ok hs) h1
    rw [ssort_numbered k1, k2, List.zipIdx_map_fst]
  have e2 := datasets_back h2 hr hn
  have e3 : c.dropouts = l.dropouts := mapM_id_eq (fun x _ y hy => by
    obtain ⟨a, ha, hy⟩ := except_bind_ok.mp hy
    obtain ⟨b, hb, hy⟩ := except_bind_ok.mp hy
    cases hy
    rw [bindNat_ok ha, bindNat_ok hb]) h3
  have e4 : c.logging = l.logged := mapM_id_eq (fun x _ y hy => by
    obtain ⟨a, ha, hy⟩ := except_bind_ok.mp hy
    obtain ⟨b, hb, hy⟩ := except_bind_ok.mp hy
    cases hy
    rw [bindNat_ok ha, bindNat_ok hb]) h4
  have e5 : c.tagged = l.tagged.flatMap (·.2) := by
    have : c.tagged.map id = (l.tagged.flatMap fun p => p.2.map fun m => (p.1, m)).map (·.2) :=
      mapM_map_eq (fun q hq y hy => by
        obtain ⟨a, ha, hy⟩ := except_bind_ok.mp hy
        obtain ⟨b, hb, hy⟩ := except_bind_ok.mp hy
        obtain ⟨d, hd, hy⟩ := except_bind_ok.mp hy
        cases hy
        obtain ⟨p, hp, hq⟩ := List.mem_flatMap.mp hq
        obtain ⟨m, hm, rfl⟩ := List.mem_map.mp hq
        have := (hr.tagged p hp).2 m hm
        simp only [id, bindNat_ok ha, bindNat_ok hb, bindNat_ok hd, ← this]) h5
    rw [List.map_id] at this
    rw [this, List.map_flatMap]
    congr 1
    funext p
    rw [List.map_map]
    exact List.map_id _
  have e6 : c.formats = l.formats.map fun p => (p.1, p.2.fields) := by
    have : c.formats.map id = l.formats.map fun p => (p.1, p.2.fields) := mapM_map_eq (fun p _ y hy => by
      obtain ⟨fs, hfs, hy⟩ := except_bind_ok.mp hy
      cases hy
      have : fs = p.2.fields := mapM_id_eq (fun f _ g hg => by
        unfold formatFieldRow at hg
        obtain ⟨a, ha, hg⟩ := except_bind_ok.mp hg
        cases hg
        rw [bindInt_ok ha]) hfs
      rw [this]
      rfl) h6
    simpa using this
  have e7 : c.info.map (·.1) = l.info.map (·.1) ∧
      (c.info.map fun r => (r.1, pyVal r.2.2)) = l.info.map fun p => (p.1, valueBack p.2) := by
    refine ⟨mapM_map_eq (fun p _ y hy => ?_) h7, mapM_map_eq (fun p _ y hy => ?_) h7⟩
    all_goals
      obtain ⟨a, ha, hy⟩ := except_bind_ok.mp hy
      obtain ⟨b, hb, hy⟩ := except_bind_ok.mp hy
      cases hy
    · rfl
    · simp only [bindVal_back hb]
  have e7n : (c.info.map (·.1)).Nodup := e7.1 ▸ hr.infoKeys
  have e7t : (c.info.map fun r => (r.1, r.2.1)) = l.infoTypes := by
    refine types_back hr.infoTypes hr.infoKeys (by rw [List.map_map]; exact e7.1) fun q hq => ?_
    obtain ⟨r, hr', rfl⟩ := List.mem_map.mp hq
    obtain ⟨p, hp, hy⟩ := mapM_mem h7 hr'
    obtain ⟨a, ha, hy⟩ := except_bind_ok.mp hy
    obtain ⟨b, hb, hy⟩ := except_bind_ok.mp hy
    cases hy
    unfold dictGet at ha
    split at ha <;> cases ha
    assumption
  have e8 : c.multi.map (·.1.1) = l.infoMulti.map (·.1) :=
    mapM_map_eq (fun p _ y hy => (multiRow_eq hy).1) h8
  have e8n : (c.multi.map (·.1.1)).Nodup := e8 ▸ hr.multiKeys
  have e8v : (c.multi.map fun p => (p.1.1, (ssort (fun a b => decide (a.1 ≤ b.1)) p.2).map fun x =>
        (ssort (fun a b => decide (a.1 ≤ b.1)) x.2).map fun e => pyVal e.2)) =
      l.infoMulti.map fun p => (p.1, p.2.map (List.map textBack)) :=
    mapM_map_eq (fun p _ y hy => by
      obtain ⟨a, _, b⟩ := multiRow_eq hy
      rw [a, b]) h8
  have e8t : (c.multi.map fun p => (p.1.1, p.1.2)) = l.infoMultiTypes := by
    refine types_back hr.multiTypes hr.multiKeys (by rw [List.map_map]; exact e8) fun q hq => ?_
    obtain ⟨r, hr', rfl⟩ := List.mem_map.mp hq
    obtain ⟨p, hp, hy⟩ := mapM_mem h8 hr'
    obtain ⟨a, b, _⟩ := multiRow_eq hy
    show l.infoMultiTypes.get? r.1.1 = _
    rw [a, b]
  have e9 : (c.initial.map fun r => (r.1, pyVal r.2)) = l.initialParams.map fun p => (p.1, valueBack p.2) :=
    mapM_map_eq (fun p _ y hy => by
      obtain ⟨b, hb, hy⟩ := except_bind_ok.mp hy
      cases hy
      simp only [bindVal_back hb]) h9
  have e9n : (c.initial.map (·.1)).Nodup := by
    have := congrArg (List.map (·.1)) e9
    rw [List.map_map, List.map_map] at this
    exact (show c.initial.map (·.1) = l.initialParams.map (·.1) from this) ▸ hr.initial
  have e10 : (c.defaults.map fun r => (r.1, r.2.1, pyVal r.2.2)) =
      (l.defaultParams.flatMap fun p => p.2.map fun q => (p.1, q)).map fun q => (q.1, q.2.1, valueBack q.2.2) :=
    mapM_map_eq (fun p _ y hy => by
      obtain ⟨a, ha, hy⟩ := except_bind_ok.mp hy
      obtain ⟨b, hb, hy⟩ := except_bind_ok.mp hy
      cases hy
      simp only [bindVal_back hb, bindNat_ok ha]) h10
  have e11 : (c.changed.map fun r => (r.1, r.2.1, pyVal r.2.2)) =
      l.changedParams.map fun p => (p.1, p.2.1, valueBack p.2.2) :=
    mapM_map_eq (fun p _ y hy => by
      obtain ⟨a, ha, hy⟩ := except_bind_ok.mp hy
      obtain ⟨b, hb, hy⟩ := except_bind_ok.mp hy
      cases hy
      simp only [bindVal_back hb, bindNat_ok ha]) h11
  have f5 : c.tagged.foldl addTaggedRow [] = l.tagged := by
    rw [e5]
    exact tagged_fold l.tagged [] hr.tags (fun _ _ h => by cases h) hr.tagged
  have f6 : (c.formats.flatMap fun p => p.2.map fun f => (p.1, f)).foldl addFormatRow [] =
      l.formats.filter fun p => !p.2.fields.isEmpty := by
    rw [e6, formats_fold _ [] (by rw [List.map_map]; exact hr.formats) (fun _ _ h => by cases h), List.nil_append,
      List.filter_map, List.map_map]
    show (l.formats.filter fun p => !p.2.fields.isEmpty).map _ = _
    conv => rhs; rw [← List.map_id (l.formats.filter fun p => !p.2.fields.isEmpty)]
    refine List.map_congr_left fun p hp => ?_
    have := hr.formatNames p (List.mem_filter.mp hp).1
    obtain ⟨k, n, fs⟩ := p
    simp only at this
    subst this
    rfl
  have f7 : c.info.foldl (fun d r => Dict.set d r.1 (pyVal r.2.2)) ([] : Dict Str DVal) =
      l.info.map fun p => (p.1, valueBack p.2) := by
    rw [foldl_set_new (fun r : Str × Str × SqlVal => pyVal r.2.2) (·.1) _ e7n, e7.2]
  have f7t : c.info.foldl (fun d r => Dict.set d r.1 r.2.1) ([] : Dict Str Str) = l.infoTypes := by
    rw [foldl_set_new (fun r : Str × Str × SqlVal => r.2.1) (·.1) _ e7n, e7t]
  have f8 : c.multi.foldl (fun d p => Dict.set d p.1.1 ((ssort (fun a b => decide (a.1 ≤ b.1)) p.2).map fun x =>
        (ssort (fun a b => decide (a.1 ≤ b.1)) x.2).map fun e => pyVal e.2)) ([] : Dict Str (List (List DVal))) =
      l.infoMulti.map fun p => (p.1, p.2.map (List.map textBack)) := by
    rw [foldl_set_new (fun p : (Str × Str) × List (Nat × List (Nat × SqlVal)) =>
      (ssort (fun a b => decide (a.1 ≤ b.1)) p.2).map fun x =>
        (ssort (fun a b => decide (a.1 ≤ b.1)) x.2).map fun e => pyVal e.2) (·.1.1) _ e8n, e8v]
  have f8t : c.multi.foldl (fun d p => Dict.set d p.1.1 p.1.2) ([] : Dict Str Str) = l.infoMultiTypes := by
    rw [foldl_set_new (fun p : (Str × Str) × List (Nat × List (Nat × SqlVal)) => p.1.2) (·.1.1) _ e8n, e8t]
  have f9 : c.initial.foldl (fun d r => Dict.set d r.1 (pyVal r.2)) ([] : Dict Str DVal) =
      l.initialParams.map fun p => (p.1, valueBack p.2) := by
    rw [foldl_set_new (fun r : Str × SqlVal => pyVal r.2) (·.1) _ e9n, e9]
  have f10 : c.defaults.foldl (fun d r => Dict.set d r.1 (Dict.set ((Dict.get? d r.1).getD []) r.2.1 (pyVal r.2.2)))
        ([] : Dict Nat (Dict Str DVal)) =
      l.defaultParams.map fun p => (p.1, p.2.map fun q => (q.1, valueBack q.2)) := by
    have k1 : c.defaults.foldl (fun d r => Dict.set d r.1 (Dict.set ((Dict.get? d r.1).getD []) r.2.1 (pyVal r.2.2)))
        ([] : Dict Nat (Dict Str DVal)) = (c.defaults.map fun r => (r.1, r.2.1, pyVal r.2.2)).foldl addDefaultRow [] := by
      rw [List.foldl_map]
      rfl
    have k2 : ((l.defaultParams.flatMap fun p => p.2.map fun q => (p.1, q)).map fun q => (q.1, q.2.1, valueBack q.2.2)) =
        (l.defaultParams.map fun p => (p.1, p.2.map fun q => (q.1, valueBack q.2))).flatMap fun p =>
          p.2.map fun q => (p.1, q) := by
      rw [List.map_flatMap, List.flatMap_map]
      congr 1
      funext p
      rw [List.map_map, List.map_map]
      rfl
    rw [k1, e10, k2, defaults_fold _ [] ?_ (fun _ _ h => by cases h) ?_, List.nil_append]
    · rw [List.map_map]
      exact hr.defaults
    · intro p hp
      obtain ⟨q, hq, rfl⟩ := List.mem_map.mp hp
      obtain ⟨a, b⟩ := hr.default q hq
      refine ⟨?_, ?_⟩
      · intro e
        exact a (List.map_eq_nil_iff.mp e)
      · rw [List.map_map]
        exact b
  unfold loadC
  rw [hrow]
  refine except_bind_ok.mpr ⟨_, e2, ?_⟩
  simp only [e1, e3, e4, f5, f6, f7, f7t, f8, f8t, f9, f10, e11, m1, m2, m3, m4, m5, m6, m7, m8, List.nil_append]
  rfl

end PyULog
