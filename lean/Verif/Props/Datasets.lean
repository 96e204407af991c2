import Verif.Lemmas.Datasets
import Verif.Spec.SampleRun
/-
Property theorems: C06 (datasets contain exactly the accepted samples) and C07 (`data_list` is
sorted and complete, building the arrays never fails).
-/
namespace PyULog
open Spec

theorem load_sections {fuel : Nat} {cfg : Cfg} {bs : Bytes} {u : ULog}
    (h : load fuel cfg bs = .ok u) :
    ∃ news : List (List Dataset), news.length = (fileTrace fuel cfg bs).length ∧
      (∀ p ∈ (fileTrace fuel cfg bs).zip news, SectionDatasets cfg p.1 p.2) ∧
      u.dataList.Perm news.flatten ∧ Sorted dsLe u.dataList := by
  rw [load_eq] at h
  have hb : ∀ s, afterDefs fuel cfg bs = some s → s.u.subs = [] ∧ s.u.dataList = [] :=
    fun s hs => ⟨(afterDefs_init hs).1, (afterDefs_init hs).2.2.2.2.2.2.1⟩
  unfold fileTrace
  unfold afterDefs at hb ⊢
  split at h
  · cases h
  · rename_i u0 hh
    simp only [hh] at hb ⊢
    split at h
    · cases h
    · cases h
    · rename_i s heq
      simp only [heq] at hb ⊢
      obtain ⟨hs, hd⟩ := hb s rfl
      split at h
      · rename_i ho
        cases h
        refine ⟨[], by simp [ho], by simp, by simp [hd], by rw [hd]; exact List.Pairwise.nil⟩
      · rename_i ho
        rw [if_neg ho]
        obtain ⟨news, h1, h2, h3, h4⟩ := readSections_sections h hs
        exact ⟨news, h1, h2, by rw [hd] at h3; simpa using h3, h4⟩

/-- **C06**: the datasets of a loaded file are exactly those of its sections: a dataset belongs to
the last subscription with its id; it has one row for each later message of the section that carries
a sample for it, in file order; entry `i` of column `k` is the typed little-endian value of sample
`i` at the offset given by the widths of the columns before `k`. -/
theorem C06_datasets {fuel : Nat} {cfg : Cfg} {bs : Bytes} {u : ULog}
    (h : load fuel cfg bs = .ok u) (d : Dataset) :
    d ∈ u.dataList ↔ ∃ t ∈ fileTrace fuel cfg bs, DatasetOfSection cfg t d := by
  obtain ⟨news, hlen, hall, hperm, _⟩ := load_sections h
  rw [hperm.mem_iff, List.mem_flatten]
  constructor
  · rintro ⟨new, hn, hd⟩
    obtain ⟨i, hi, rfl⟩ := List.getElem_of_mem hn
    have hi' : i < (fileTrace fuel cfg bs).length := by omega
    refine ⟨(fileTrace fuel cfg bs)[i], List.getElem_mem .., ?_⟩
    have := hall ((fileTrace fuel cfg bs)[i], news[i])
      (List.mem_iff_getElem.mpr ⟨i, by simp; omega, by simp⟩)
    exact (this.2 d).mp hd
  · rintro ⟨t, ht, hd⟩
    obtain ⟨i, hi, rfl⟩ := List.getElem_of_mem ht
    have hi' : i < news.length := by omega
    refine ⟨news[i], List.getElem_mem .., ?_⟩
    have := hall ((fileTrace fuel cfg bs)[i], news[i])
      (List.mem_iff_getElem.mpr ⟨i, by simp; omega, by simp⟩)
    exact (this.2 d).mpr hd

/-- the entries of a dataset -/
theorem C06_entry {fuel : Nat} {cfg : Cfg} {bs : Bytes} {u : ULog}
    (h : load fuel cfg bs = .ok u) {d : Dataset} (hd : d ∈ u.dataList) :
    ∃ t ∈ fileTrace fuel cfg bs, ∃ tp post, lastSub cfg d.msgId t = some (tp, post) ∧
      d.name = tp.name ∧ d.multiId = tp.multiId ∧ d.fields = tp.fields ∧
      d.data.map Prod.fst = columnNames tp.fields ∧
      ∀ (k : Nat) (hk : k < d.fields.length) (name : Str) (col : List NpVal),
        d.data[k]? = some (name, col) → name = columnName k d.fields[k].name ∧
        col = (post.filterMap (sampleOf d.msgId (rowSize d.fields))).map
          fun b => valueAt d.fields[k].type b (rowSize (d.fields.take k)) := by
  obtain ⟨t, ht, tp, post, hl, _, _, he⟩ := (C06_datasets h d).mp hd
  have hf : d.fields = tp.fields := by rw [he]; rfl
  have hdat : d.data = columnsOf tp.fields (post.filterMap (sampleOf d.msgId (rowSize tp.fields))) := by
    rw (occs := .pos [1]) [he]; rfl
  refine ⟨t, ht, tp, post, hl, by rw [he]; rfl, by rw [he]; rfl, hf, ?_, ?_⟩
  · rw [hdat]
    unfold columnsOf
    rw [List.map_map]
    rfl
  · intro k hk name col hcol
    rw [hdat] at hcol
    unfold columnsOf at hcol
    simp only [hf] at hk hcol ⊢
    rw [List.getElem?_map, List.getElem?_zipIdx, List.getElem?_eq_getElem hk] at hcol
    simp only [Option.map_some, Nat.zero_add, Option.some.injEq, Prod.mk.injEq] at hcol
    exact ⟨hcol.1.symm, hcol.2.symm⟩

/-- **C07**: `data_list` consists of the datasets of the sections (in each section one for each
subscription with at least one sample, none for the others), ordered by name and then instance. -/
theorem C07_data_list {fuel : Nat} {cfg : Cfg} {bs : Bytes} {u : ULog}
    (h : load fuel cfg bs = .ok u) :
    (∃ news : List (List Dataset), news.length = (fileTrace fuel cfg bs).length ∧
      (∀ p ∈ (fileTrace fuel cfg bs).zip news, SectionDatasets cfg p.1 p.2) ∧
      u.dataList.Perm news.flatten) ∧ u.dataList.Pairwise dataBefore := by
  obtain ⟨news, h1, h2, h3, h4⟩ := load_sections h
  exact ⟨⟨news, h1, h2, h3⟩, h4.imp dsLe_before⟩

/-- **C07**: when the loop over a data section ends, the arrays can be built: `np.frombuffer` never
fails on the collected bytes. -/
theorem C07_arrays_never_fail {cfg : Cfg} {bs : Bytes} {ru pos n : Nat} {u : ULog} {s : RS}
    (hu : u.subs = []) (h : dataLoop cfg bs ru n { pos := pos, cur := pos, u := u } = .done s) :
    ∃ u', finalize s.u = .ok u' :=
  finalize_total s.u (dataLoop_section h hu).1

/-- **C07**: hence a data section fails only with an exception raised by a message. -/
theorem C07_section_fails_only_in_loop {cfg : Cfg} {bs : Bytes} {ru pos : Nat} {u : ULog} {e : PyErr}
    (hu : u.subs = []) (h : readData cfg bs ru pos u = .raised e) :
    dataLoop cfg bs ru (bs.length + 1) { pos := pos, cur := pos, u := u } = .raised e := by
  unfold readData at h
  split at h
  · rename_i s heq
    obtain ⟨u', hu'⟩ := C07_arrays_never_fail hu heq
    rw [hu'] at h
    cases h
  · rename_i e' heq; cases h; exact heq
  · cases h

/-! ### the sample file -/

/-- the sample file has two datasets, of different topics; the malformed sample of `a` is left out -/
example : Sample.loaded.dataList.map (fun d => (d.name, d.multiId, d.msgId, d.data.map (·.2)))
    = [(py! "a", 0, 3, [[.int 110, .int 115], [.int 7, .int (-9)]]),
       (py! "b", 1, 4, [[.int 1], [.int 2], [.int 3], [.int 4], [.int 120]])] := by decide +kernel

/-- the specification gives the same samples for `a` -/
example : (fileTrace 20 {} Sample.file).map (fun t =>
      (lastSub {} 3 t).map fun r => r.2.filterMap (sampleOf 3 (rowSize r.1.fields)))
    = [some [[110, 0, 0, 0, 0, 0, 0, 0, 7, 0], [115, 0, 0, 0, 0, 0, 0, 0, 247, 255]]] := by
  decide +kernel

/-- the hypotheses of the theorems about one section hold for the sample file -/
example : ∃ s, afterDefs 20 {} Sample.file = some s ∧ s.u.subs = [] ∧
    ∃ s', dataLoop {} Sample.file NO_LIMIT 400 { pos := s.pos, cur := s.pos, u := s.u } = .done s' ∧
      s'.u.subs.length = 2 := by
  have h : ∃ s, afterDefs 20 {} Sample.file = some s ∧ s.u.subs.length = 0 ∧
      (match dataLoop {} Sample.file NO_LIMIT 400 { pos := s.pos, cur := s.pos, u := s.u } with
       | .done s' => decide (s'.u.subs.length = 2)
       | _ => false) = true := ⟨_, rfl, by decide +kernel⟩
  obtain ⟨s, h1, h2, h3⟩ := h
  refine ⟨s, h1, List.length_eq_zero_iff.mp h2, ?_⟩
  split at h3
  · rename_i s' heq; exact ⟨s', heq, by simpa using h3⟩
  · cases h3

end PyULog
