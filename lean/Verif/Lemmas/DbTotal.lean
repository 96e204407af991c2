import Verif.Lemmas.DbBack
/-
Helper lemmas: the rows of a log exist when SQLite can hold the values.
-/
namespace PyULog
open Spec

theorem mapM_total {α β : Type} {f : α → Except PyErr β} : ∀ {xs : List α}, (∀ x ∈ xs, ∃ y, f x = .ok y) →
    ∃ ys, xs.mapM f = .ok ys
  | [], _ => ⟨[], rfl⟩
  | x :: xs, h => by
    obtain ⟨y, hy⟩ := h x List.mem_cons_self
    obtain ⟨ys, hys⟩ := mapM_total fun z hz => h z (List.mem_cons_of_mem _ hz)
    exact ⟨y :: ys, by rw [List.mapM_cons, hy, hys]; rfl⟩

theorem bindNat_total {n : Nat} (h : n < 2 ^ 63) : bindNat n = .ok n := if_pos h

theorem bindInt_total {n : Int} (h : fitsInt n) : bindInt n = .ok n := if_pos h

theorem bindVal_total {v : DVal} (h : valueFits v) : ∃ s, bindVal v = .ok s := by
  cases v with
  | none => exact ⟨_, rfl⟩
  | some v =>
    cases v with
    | int n =>
      refine ⟨.int n, ?_⟩
      show (bindInt n).map _ = _
      rw [bindInt_total (h n rfl)]
      rfl
    | _ => exact ⟨_, rfl⟩

theorem bindText_total {v : DVal} (h : valueFits v) : ∃ s, bindText v = .ok s := by
  cases v with
  | none => exact ⟨_, rfl⟩
  | some v =>
    cases v with
    | int n =>
      refine ⟨.text (intDec n), ?_⟩
      show ((bindInt n).map _ >>= _) = _
      rw [bindInt_total (h n rfl)]
      rfl
    | float x =>
      show ∃ s, (Except.ok (if isNan64 x then SqlVal.null else .real x) >>= _) = _
      by_cases hx : isNan64 x
      · rw [if_pos hx]; exact ⟨_, rfl⟩
      · rw [if_neg hx]; exact ⟨_, rfl⟩
    | _ => exact ⟨_, rfl⟩

theorem chrStr_total {flags : List Nat} (h : ∀ x ∈ flags, x < 256) : ∃ s, chrStr flags = .ok s := by
  refine mapM_total fun x hx => ?_
  have : x.isValidChar := Or.inl (by have := h x hx; omega)
  exact ⟨_, if_pos this⟩

theorem fieldRow_total {d : Dataset} {f : FieldData} (hf : f ∈ d.fields) (hc : d.data.map (·.1) = d.fields.map (·.name))
    (ht : ColumnsTyped d) : ∃ r, fieldRow false d f = .ok r := by
  have : f.name ∈ d.data.map (·.1) := hc ▸ List.mem_map_of_mem hf
  cases hg : d.data.get? f.name with
  | none => exact absurd this ((Dict.get?_eq_none_iff _ _).mp hg)
  | some col =>
    obtain ⟨b, hb⟩ := npBytes_total (ht f hf col hg)
    refine ⟨{ name := f.name, type := f.type.name, data := b, json := none }, ?_⟩
    unfold fieldRow dictGet
    rw [hg]
    show (npBytes f.type col >>= _) = _
    rw [hb]
    rfl

theorem dictGet_total {κ α : Type} [DecidableEq κ] {d : Dict κ α} {k : κ} (h : k ∈ d.map (·.1)) :
    ∃ v, dictGet d k = .ok v := by
  unfold dictGet
  cases hg : d.get? k with
  | none => exact absurd h ((Dict.get?_eq_none_iff _ _).mp hg)
  | some v => exact ⟨v, rfl⟩

theorem dbRows_total {sha : Str} {l : DbLog} (hr : Regular l) (hf : Holdable l) :
    ∃ c, dbRows false sha l = .ok c ∧ (c.datasets.map fun p => (p.1.name, p.1.multiId)).Nodup := by
  obtain ⟨a, ha⟩ := chrStr_total fun x hx => hf.flags x (List.mem_append_left _ hx)
  obtain ⟨b, hb⟩ := chrStr_total fun x hx => hf.flags x (List.mem_append_right _ hx)
  have h0 : ∃ row, metaRow l sha = .ok row := by
    refine ⟨{ fileVersion := l.fileVersion, startTs := l.startTs, lastTs := l.lastTs, compat := a, incompat := b,
              syncCnt := l.syncCnt, hasSync := l.hasSync, sha := sha }, ?_⟩
    unfold metaRow
    rw [ha, hb, bindNat_total hf.header.1, bindNat_total hf.header.2.1, bindNat_total hf.header.2.2.1,
      bindNat_total hf.header.2.2.2]
    rfl
  obtain ⟨row, h0⟩ := h0
  obtain ⟨c1, h1⟩ : ∃ ys, l.appendedOffsets.zipIdx.mapM (fun p => do return (p.2, ← bindNat p.1)) =
      (.ok ys : Except PyErr _) := by
    refine mapM_total fun p hp => ⟨(p.2, p.1), ?_⟩
    have hp1 : p.1 ∈ l.appendedOffsets := by
      have := List.mem_map_of_mem (f := (·.1)) hp
      rwa [List.zipIdx_map_fst] at this
    rw [bindNat_total (hf.offsets _ hp1)]
    rfl
  obtain ⟨c2, h2⟩ : ∃ ys, l.dataList.mapM (fun d => do return (← datasetRow d, ← d.fields.mapM (fieldRow false d))) =
      (.ok ys : Except PyErr _) := by
    refine mapM_total fun d hd => ?_
    obtain ⟨x1, x2, x3⟩ := hf.datasets d hd
    obtain ⟨fs, hfs⟩ := mapM_total (f := fieldRow false d) (xs := d.fields) fun f hf' =>
      fieldRow_total hf' (hr.columns d hd) (hr.typed d hd)
    have : datasetRow d = .ok (dsRowOf d) := by
      unfold datasetRow
      rw [bindNat_total x1, bindNat_total x2, bindInt_total x3]
      rfl
    exact ⟨(dsRowOf d, fs), by rw [this, hfs]; rfl⟩
  obtain ⟨c3, h3⟩ : ∃ ys, l.dropouts.mapM (fun d => do
        return ({ ts := ← bindNat d.ts, duration := ← bindNat d.duration } : Dropout)) = (.ok ys : Except PyErr _) := by
    refine mapM_total fun d hd => ⟨d, ?_⟩
    rw [bindNat_total (hf.dropouts d hd).1, bindNat_total (hf.dropouts d hd).2]
    rfl
  obtain ⟨c4, h4⟩ : ∃ ys, l.logged.mapM (fun m => do
        return ({ level := ← bindNat m.level, ts := ← bindNat m.ts, msg := m.msg } : LogMsg)) =
      (.ok ys : Except PyErr _) := by
    refine mapM_total fun d hd => ⟨d, ?_⟩
    rw [bindNat_total (hf.logged d hd).1, bindNat_total (hf.logged d hd).2]
    rfl
  obtain ⟨c5, h5⟩ : ∃ ys, (l.tagged.flatMap fun p => p.2.map fun m => (p.1, m)).mapM (fun q => do
        return ({ level := ← bindNat q.2.level, ts := ← bindNat q.2.ts, tag := ← bindNat q.1,
                  msg := q.2.msg } : TagMsg)) = (.ok ys : Except PyErr _) := by
    refine mapM_total fun q hq => ?_
    obtain ⟨p, hp, hq⟩ := List.mem_flatMap.mp hq
    obtain ⟨m, hm, rfl⟩ := List.mem_map.mp hq
    obtain ⟨x1, x2⟩ := hf.tagged p hp
    refine ⟨{ m with tag := p.1 }, ?_⟩
    show (bindNat m.level >>= _) = _
    rw [bindNat_total (x2 m hm).1]
    show (bindNat m.ts >>= _) = _
    rw [bindNat_total (x2 m hm).2]
    show (bindNat p.1 >>= _) = _
    rw [bindNat_total x1]
    rfl
  obtain ⟨c6, h6⟩ : ∃ ys, l.formats.mapM (fun p => do return (p.1, ← p.2.fields.mapM formatFieldRow)) =
      (.ok ys : Except PyErr _) := by
    refine mapM_total fun p hp => ?_
    obtain ⟨fs, hfs⟩ := mapM_total (f := formatFieldRow) (xs := p.2.fields) fun f hf' => ⟨f, by
      unfold formatFieldRow
      rw [bindInt_total (hf.formats p hp f hf')]
      rfl⟩
    exact ⟨(p.1, fs), by rw [hfs]; rfl⟩
  obtain ⟨c7, h7⟩ : ∃ ys, l.info.mapM (fun p => do return (p.1, ← dictGet l.infoTypes p.1, ← bindVal p.2)) =
      (.ok ys : Except PyErr _) := by
    refine mapM_total fun p hp => ?_
    obtain ⟨t, ht⟩ := dictGet_total (d := l.infoTypes) (k := p.1) (hr.infoTypes ▸ List.mem_map_of_mem hp)
    obtain ⟨v, hv⟩ := bindVal_total (hf.info p hp)
    exact ⟨(p.1, t, v), by rw [ht, hv]; rfl⟩
  obtain ⟨c8, h8⟩ : ∃ ys, l.infoMulti.mapM (multiRow l) = .ok ys := by
    refine mapM_total fun p hp => ?_
    obtain ⟨t, ht⟩ := dictGet_total (d := l.infoMultiTypes) (k := p.1) (hr.multiTypes ▸ List.mem_map_of_mem hp)
    obtain ⟨ls, hls⟩ : ∃ ys, p.2.zipIdx.mapM (fun q => do
        return (q.2, ← q.1.zipIdx.mapM fun x => do return (x.2, ← bindText x.1))) = (.ok ys : Except PyErr _) := by
      refine mapM_total fun q hq => ?_
      have hq1 : q.1 ∈ p.2 := by
        have := List.mem_map_of_mem (f := (·.1)) hq
        rwa [List.zipIdx_map_fst] at this
      obtain ⟨es, hes⟩ : ∃ ys, q.1.zipIdx.mapM (fun x => do return (x.2, ← bindText x.1)) =
          (.ok ys : Except PyErr _) := by
        refine mapM_total fun x hx => ?_
        have hx1 : x.1 ∈ q.1 := by
          have := List.mem_map_of_mem (f := (·.1)) hx
          rwa [List.zipIdx_map_fst] at this
        obtain ⟨s, hs⟩ := bindText_total (hf.multi p hp _ hq1 _ hx1)
        exact ⟨(x.2, s), by rw [hs]; rfl⟩
      exact ⟨(q.2, es), by rw [hes]; rfl⟩
    refine ⟨((p.1, t), ls), ?_⟩
    unfold multiRow
    rw [ht, hls]
    rfl
  obtain ⟨c9, h9⟩ : ∃ ys, l.initialParams.mapM (fun p => do return (p.1, ← bindVal p.2)) =
      (.ok ys : Except PyErr _) := by
    refine mapM_total fun p hp => ?_
    obtain ⟨v, hv⟩ := bindVal_total (hf.initial p hp)
    exact ⟨(p.1, v), by rw [hv]; rfl⟩
  obtain ⟨c10, h10⟩ : ∃ ys, (l.defaultParams.flatMap fun p => p.2.map fun q => (p.1, q)).mapM (fun q => do
        return (← bindNat q.1, q.2.1, ← bindVal q.2.2)) = (.ok ys : Except PyErr _) := by
    refine mapM_total fun x hx => ?_
    obtain ⟨p, hp, hq⟩ := List.mem_flatMap.mp hx
    obtain ⟨q, hm, rfl⟩ := List.mem_map.mp hq
    obtain ⟨x1, x2⟩ := hf.defaults p hp
    obtain ⟨v, hv⟩ := bindVal_total (x2 q hm)
    exact ⟨(p.1, q.1, v), by
      show (bindNat p.1 >>= _) = _
      rw [bindNat_total x1]
      show (bindVal q.2 >>= _) = _
      rw [hv]
      rfl⟩
  obtain ⟨c11, h11⟩ : ∃ ys, l.changedParams.mapM (fun p => do return (← bindNat p.1, p.2.1, ← bindVal p.2.2)) =
      (.ok ys : Except PyErr _) := by
    refine mapM_total fun p hp => ?_
    obtain ⟨x1, x2⟩ := hf.changed p hp
    obtain ⟨v, hv⟩ := bindVal_total x2
    exact ⟨(p.1, p.2.1, v), by rw [bindNat_total x1, hv]; rfl⟩
  refine ⟨⟨[row], c1, c2, c3, c4, c5, c6, c7, c8, c9, c10, c11⟩,
    dbRows_iff.mpr ⟨row, h0, rfl, h1, h2, h3, h4, h5, h6, h7, h8, h9, h10, h11⟩, ?_⟩
  have : c2.map (fun p => (p.1.name, p.1.multiId)) = l.dataList.map fun d => (d.name, d.multiId) :=
    mapM_map_eq (fun d hd p hp => by
      obtain ⟨x, hx, hp⟩ := except_bind_ok.mp hp
      obtain ⟨y, _, hp⟩ := except_bind_ok.mp hp
      cases hp
      rw [datasetRow_eq hx]
      rfl) h2
  show (c2.map _).Nodup
  rw [this]
  exact hf.distinct

end PyULog
