import Verif.Lemmas.DamageTools
import Verif.Props.Damage
import Verif.Props.Lost
/-
Property theorems: C110 (what the tools make of a log with a damaged or a lost sample).
-/
namespace PyULog
open Spec

theorem convertCsv_all {fmt : NpVal → Str} {pre delim : Str} {v : ULog} {files : Dict Str Str}
    (hn : (v.dataList.map (csvName pre)).Nodup) (hv : convertCsv fmt pre delim none none v = .ok files) :
    ∀ d ∈ v.dataList, ∃ text, csvFile fmt delim none none d = .ok text := by
  obtain ⟨texts, h1, -⟩ := foldlM_files fmt pre delim none none v.dataList [] files
    (by simpa [Dict.keys] using hn) hv
  exact mapM_elems h1

theorem nodup_map_inj {α β : Type} {f : α → β} {l : List α} (h : (l.map f).Nodup) {a b : α} (ha : a ∈ l) (hb : b ∈ l)
    (he : f a = f b) : a = b := by
  induction l with
  | nil => cases ha
  | cons x l ih =>
    rw [List.map_cons, List.nodup_cons] at h
    rcases List.mem_cons.mp ha with h1 | h1 <;> rcases List.mem_cons.mp hb with h2 | h2
    · rw [h1, h2]
    · rw [h1] at he
      exact absurd (List.mem_map.mpr ⟨b, h2, he.symm⟩) h.1
    · rw [h2] at he
      exact absurd (List.mem_map.mpr ⟨a, h1, he⟩) h.1
    · exact ih h.2 h1 h2

theorem oneRow_name {d d' : Dataset} (h : OneRowDiffers d d') : d'.name = d.name ∧ d'.multiId = d.multiId :=
  ⟨(congrArg (fun x : Dataset => x.name) h.head :), (congrArg (fun x : Dataset => x.multiId) h.head :)⟩

theorem csvName_congr {d d' : Dataset} (pre : Str) (h1 : d'.name = d.name) (h2 : d'.multiId = d.multiId) :
    csvName pre d' = csvName pre d := by
  unfold csvName
  rw [h1, h2]

theorem damaged_names {id : Nat} {v v' : ULog} (h : DamagedIn id v v') (pre : Str) :
    v'.dataList.map (csvName pre) = v.dataList.map (csvName pre) := by
  obtain ⟨f, hf, hd⟩ := h.data
  rw [hf, List.map_map]
  apply List.map_congr_left
  intro d hm
  obtain ⟨h1, h2⟩ := oneRow_name (hd d hm).1
  exact csvName_congr pre h1 h2

/-- **C110**: if `ulog2csv` works on both logs, it writes the same files, but for one line of the file of the topic
with the damaged sample. No two datasets have the same file name. -/
theorem C110_csv_partial {id : Nat} {v v' : ULog} (h : DamagedIn id v v') {fmt : NpVal → Str} {pre delim : Str}
    {files files' : Dict Str Str} (hn : (v.dataList.map (csvName pre)).Nodup)
    (hv : convertCsv fmt pre delim none none v = .ok files)
    (hv' : convertCsv fmt pre delim none none v' = .ok files') :
    ∀ name, (files.get? name = none ∧ files'.get? name = none) ∨
      ∃ text text', files.get? name = some text ∧ files'.get? name = some text' ∧
        (text' = text ∨ (∃ d ∈ v.dataList, d.msgId = id ∧ csvName pre d = name) ∧ OneLineDiffers text text') := by
  have hn' : (v'.dataList.map (csvName pre)).Nodup := by rw [damaged_names h]; exact hn
  obtain ⟨f, hf, hd⟩ := h.data
  intro name
  by_cases hx : ∃ d ∈ v.dataList, csvName pre d = name
  · right
    obtain ⟨d, hm, hk⟩ := hx
    obtain ⟨text, ht⟩ := convertCsv_all hn hv d hm
    have hm' : f d ∈ v'.dataList := by rw [hf]; exact List.mem_map.mpr ⟨d, hm, rfl⟩
    obtain ⟨text', ht'⟩ := convertCsv_all hn' hv' (f d) hm'
    have hk' : csvName pre (f d) = name := by
      rw [← hk]
      obtain ⟨h1, h2⟩ := oneRow_name (hd d hm).1
      exact csvName_congr pre h1 h2
    refine ⟨text, text', (convertCsv_file hn hv _ _).mpr ⟨d, hm, hk, ht⟩,
      (convertCsv_file hn' hv' _ _).mpr ⟨f d, hm', hk', ht'⟩, ?_⟩
    by_cases hi : d.msgId = id
    · exact .inr ⟨⟨d, hm, hi, hk⟩, csvFile_damaged (hd d hm).1 ht ht'⟩
    · left
      rw [(hd d hm).2 hi, ht] at ht'
      injection ht' with ht'
      exact ht'.symm
  · left
    constructor
    · cases hg : files.get? name with
      | none => rfl
      | some text =>
        obtain ⟨d, hm, hk, -⟩ := (convertCsv_file hn hv name text).mp hg
        exact absurd ⟨d, hm, hk⟩ hx
    · cases hg : files'.get? name with
      | none => rfl
      | some text =>
        obtain ⟨d, hm, hk, -⟩ := (convertCsv_file hn' hv' name text).mp hg
        rw [hf] at hm
        obtain ⟨d0, h0, rfl⟩ := List.mem_map.mp hm
        obtain ⟨h1, h2⟩ := oneRow_name (hd d0 h0).1
        rw [csvName_congr pre h1 h2] at hk
        exact absurd ⟨d0, h0, hk⟩ hx

/-- **C110**: `ulog2csv` works on the log with the damaged sample if it works on the other one, and the topic of the
sample has no characters. -/
theorem C110_works_partial {id : Nat} {v v' : ULog} (h : DamagedIn id v v') (hc : NoCharacters id v) {fmt : NpVal → Str}
    {pre delim : Str} {files : Dict Str Str} (hn : (v.dataList.map (csvName pre)).Nodup)
    (hv : convertCsv fmt pre delim none none v = .ok files) :
    ∃ files', convertCsv fmt pre delim none none v' = .ok files' := by
  apply convertCsv_can
  obtain ⟨f, hf, hd⟩ := h.data
  intro d' hm'
  rw [hf] at hm'
  obtain ⟨d, hm, rfl⟩ := List.mem_map.mp hm'
  obtain ⟨text, ht⟩ := convertCsv_all hn hv d hm
  by_cases hi : d.msgId = id
  · exact csvFile_can (hd d hm).1 (hc d hm hi) ht
  · rw [(hd d hm).2 hi]
    exact ⟨text, ht⟩

/-- **C110**: `extract_message` returns the same rows, but for one. -/
theorem C110_extract {id : Nat} {v v' : ULog} (h : DamagedIn id v v') {message : Str} {rows : List (Dict Str NpVal)}
    (hv : extractFrom v message none none = .ok rows) :
    ∃ rows' : List (Dict Str NpVal), extractFrom v' message none none = .ok rows' ∧ rows'.length = rows.length ∧
      ∃ i : Nat, ∀ j : Nat, j ≠ i → rows'[j]? = rows[j]? := by
  obtain ⟨f, hf, hd⟩ := h.data
  have hfil : v'.dataList.filter (fun d => decide (d.name = message ∧ (d.multiId : Int) = 0))
      = (v.dataList.filter (fun d => decide (d.name = message ∧ (d.multiId : Int) = 0))).map f := by
    rw [hf, List.filter_map]
    congr 1
    apply List.filter_congr
    intro d hm
    obtain ⟨h1, h2⟩ := oneRow_name (hd d hm).1
    show decide ((f d).name = message ∧ ((f d).multiId : Int) = 0) = _
    rw [h1, h2]
  unfold extractFrom getDataset at hv ⊢
  rw [hfil]
  cases hl : v.dataList.filter (fun d => decide (d.name = message ∧ (d.multiId : Int) = 0)) with
  | nil => rw [hl] at hv; cases hv
  | cons d l =>
    rw [hl] at hv
    have hm : d ∈ v.dataList := by
      have : d ∈ v.dataList.filter (fun d => decide (d.name = message ∧ (d.multiId : Int) = 0)) := by
        rw [hl]; exact List.mem_cons_self ..
      exact (List.mem_filter.mp this).1
    have ho := (hd d hm).1
    simp only [List.map_cons, pyIndex, List.getElem?_cons_zero] at hv ⊢
    obtain ⟨keys, hk, hv⟩ := except_bind_ok.mp hv
    obtain ⟨col, hcol, hv⟩ := except_bind_ok.mp hv
    obtain ⟨⟨s, e⟩, hw, hv⟩ := except_bind_ok.mp hv
    have hse : s = 0 ∧ e = col.length := by
      injection hw with hw
      injection hw with a b
      exact ⟨a.symm, b.symm⟩
    obtain ⟨rfl, rfl⟩ := hse
    obtain ⟨col', hcol', hlen⟩ := oneRow_column ho hcol
    obtain ⟨rows', hr'⟩ : ∃ r, (pyRange 0 col.length).mapM (extractRow (f d) keys) = .ok r := by
      apply mapM_elems_can
      intro j hj
      obtain ⟨row, hrow⟩ := mapM_elems hv j hj
      unfold extractRow at hrow ⊢
      obtain ⟨cells, hc, -⟩ := except_bind_ok.mp hrow
      obtain ⟨cells', hc'⟩ : ∃ r, (keys.mapM fun k => do
          let col ← dictGet (f d).data k
          let v ← pyIndex col j
          pure (k, v)) = .ok r := by
        apply mapM_elems_can
        intro k hkm
        obtain ⟨b, hb⟩ := mapM_elems hc k hkm
        rw [look_bind] at hb
        obtain ⟨x, hx, -⟩ := except_bind_ok.mp hb
        obtain ⟨z, hz⟩ := oneRow_can ho hx
        refine ⟨(k, z), ?_⟩
        rw [look_bind, hz]
        rfl
      rw [hc']
      exact ⟨_, rfl⟩
    obtain ⟨i, hi⟩ := oneRow_look ho
    obtain ⟨e1, e2⟩ := mapM_one_differs hv hr' (fun j hj => row_look (hi j hj) keys)
    refine ⟨rows', ?_, e1, i, e2⟩
    rw [oneRow_fields ho, hk, hcol']
    show (pyRange 0 col'.length).mapM (extractRow (f d) keys) = _
    rw [hlen]
    exact hr'

/-- **C110**: `ulog2csv` works on the log with the lost sample if it works on the other one, and writes the same files,
but for the one of the topic of the sample: one line of that is missing, or, if it has no other line, the file. -/
theorem C110_lost_csv_partial {id : Nat} {v v' : ULog} (h : LostIn id v v') {fmt : NpVal → Str} {pre delim : Str}
    {files : Dict Str Str} (hn : (v.dataList.map (csvName pre)).Nodup)
    (hv : convertCsv fmt pre delim none none v = .ok files) :
    ∃ files', convertCsv fmt pre delim none none v' = .ok files' ∧
      ∀ name, files'.get? name = files.get? name ∨
        (∃ d ∈ v.dataList, d.msgId = id ∧ csvName pre d = name) ∧ ∃ text, files.get? name = some text ∧
          ((∃ text', files'.get? name = some text' ∧ OneLineLess text text') ∨
            files'.get? name = none ∧ OneLineOnly text) := by
  rcases h.data with hd | ⟨i, hd, hi⟩
  · refine ⟨files, ?_, fun _ => .inl rfl⟩
    unfold convertCsv at hv ⊢
    rw [hd]
    exact hv
  · have hall := convertCsv_all hn hv
    have hname : ∀ d : Dataset, csvName pre (if d.msgId = id then withoutRow i d else d) = csvName pre d := by
      intro d
      split <;> rfl
    have hmem : ∀ d', d' ∈ v'.dataList ↔ ∃ d ∈ v.dataList, ¬ (d.msgId = id ∧ oneRow d = true) ∧
        (if d.msgId = id then withoutRow i d else d) = d' := by
      intro d'
      rw [hd]
      unfold withoutSample
      rw [List.mem_map]
      constructor
      · rintro ⟨d, hm, rfl⟩
        obtain ⟨h1, h2⟩ := List.mem_filter.mp hm
        refine ⟨d, h1, ?_, rfl⟩
        rintro ⟨h3, h4⟩
        rw [h3, h4] at h2
        simp at h2
      · rintro ⟨d, h1, h2, rfl⟩
        refine ⟨d, List.mem_filter.mpr ⟨h1, ?_⟩, rfl⟩
        by_cases h3 : d.msgId = id
        · cases h4 : oneRow d with
          | true => exact absurd ⟨h3, h4⟩ h2
          | false => simp
        · simp [h3]
    have hn' : (v'.dataList.map (csvName pre)).Nodup := by
      rw [hd]
      unfold withoutSample
      rw [List.map_map, show (csvName pre ∘ fun d : Dataset => if d.msgId = id then withoutRow i d else d) = csvName pre
        from funext hname]
      exact List.Sublist.nodup (List.Sublist.map (csvName pre) List.filter_sublist) hn
    have hcan : ∀ d' ∈ v'.dataList, ∃ text, csvFile fmt delim none none d' = .ok text := by
      intro d' hm'
      obtain ⟨d, hm, -, rfl⟩ := (hmem d').mp hm'
      obtain ⟨text, ht⟩ := hall d hm
      split
      · rename_i hid
        obtain ⟨text', ht', -⟩ := csvFile_lost (hi d hm hid) ht
        exact ⟨text', ht'⟩
      · exact ⟨text, ht⟩
    obtain ⟨files', hf'⟩ := convertCsv_can (pre := pre) hcan
    have huniq : ∀ d1 ∈ v.dataList, ∀ d2 ∈ v.dataList, csvName pre d1 = csvName pre d2 → d1 = d2 := by
      intro d1 h1 d2 h2 he
      exact nodup_map_inj hn h1 h2 he
    refine ⟨files', hf', fun name => ?_⟩
    by_cases hx : ∃ d ∈ v.dataList, csvName pre d = name
    · obtain ⟨d, hm, hk⟩ := hx
      obtain ⟨text, ht⟩ := hall d hm
      have hg := (convertCsv_file hn hv name text).mpr ⟨d, hm, hk, ht⟩
      by_cases hid : d.msgId = id
      · right
        refine ⟨⟨d, hm, hid, hk⟩, text, hg, ?_⟩
        cases ho : oneRow d with
        | true =>
          right
          refine ⟨?_, csvFile_oneRow ho ht⟩
          cases hg' : files'.get? name with
          | none => rfl
          | some text' =>
            obtain ⟨d', hm', hk', -⟩ := (convertCsv_file hn' hf' name text').mp hg'
            obtain ⟨d2, hm2, hno, rfl⟩ := (hmem d').mp hm'
            rw [hname] at hk'
            obtain rfl := huniq d2 hm2 d hm (hk'.trans hk.symm)
            exact absurd ⟨hid, ho⟩ hno
        | false =>
          left
          obtain ⟨text', ht', hl⟩ := csvFile_lost (hi d hm hid) ht
          refine ⟨text', (convertCsv_file hn' hf' name text').mpr ⟨withoutRow i d, (hmem _).mpr ⟨d, hm, ?_, if_pos hid⟩,
            hk, ht'⟩, hl⟩
          rintro ⟨-, h2⟩
          rw [ho] at h2
          cases h2
      · left
        rw [hg]
        exact (convertCsv_file hn' hf' name text).mpr ⟨d, (hmem d).mpr ⟨d, hm, fun h => hid h.1, if_neg hid⟩, hk, ht⟩
    · left
      have h1 : files.get? name = none := by
        cases hg : files.get? name with
        | none => rfl
        | some text =>
          obtain ⟨d, hm, hk, -⟩ := (convertCsv_file hn hv name text).mp hg
          exact absurd ⟨d, hm, hk⟩ hx
      have h2 : files'.get? name = none := by
        cases hg : files'.get? name with
        | none => rfl
        | some text =>
          obtain ⟨d', hm', hk', -⟩ := (convertCsv_file hn' hf' name text).mp hg
          obtain ⟨d2, hm2, -, rfl⟩ := (hmem d').mp hm'
          rw [hname] at hk'
          exact absurd ⟨d2, hm2, hk'⟩ hx
      rw [h1, h2]

/-- **C110**: `extract_message` returns the same rows of the log with the lost sample, but for one that is missing; if
that was the only one, it raises AttributeError. The names with the multi ids are distinct. -/
theorem C110_lost_extract_partial {id : Nat} {v v' : ULog} (h : LostIn id v v')
    (hn : (v.dataList.map fun d => (d.name, d.multiId)).Nodup) {message : Str} {rows : List (Dict Str NpVal)}
    (hv : extractFrom v message none none = .ok rows) :
    (∃ rows', extractFrom v' message none none = .ok rows' ∧ (rows' = rows ∨ OneLess rows rows')) ∨
    extractFrom v' message none none = .error .attributeError ∧ rows.length = 1 := by
  rcases h.data with hd | ⟨i, hd, hi⟩
  · left
    refine ⟨rows, ?_, .inl rfl⟩
    unfold extractFrom getDataset at hv ⊢
    rw [hd]
    exact hv
  · have hfil : v'.dataList.filter (fun d => decide (d.name = message ∧ (d.multiId : Int) = 0))
        = withoutSample id i (v.dataList.filter (fun d => decide (d.name = message ∧ (d.multiId : Int) = 0))) := by
      rw [hd]
      unfold withoutSample
      rw [List.filter_map, List.filter_filter, List.filter_filter]
      congr 1
      apply List.filter_congr
      intro d _
      rw [Bool.and_comm]
      congr 1
      show decide ((if d.msgId = id then withoutRow i d else d).name = message ∧
        ((if d.msgId = id then withoutRow i d else d).multiId : Int) = 0) = _
      split <;> rfl
    cases hl : v.dataList.filter (fun d => decide (d.name = message ∧ (d.multiId : Int) = 0)) with
    | nil =>
      unfold extractFrom getDataset at hv
      rw [hl] at hv
      cases hv
    | cons d l =>
      have hmem : ∀ x ∈ d :: l, x ∈ v.dataList ∧ (x.name, x.multiId) = (message, 0) := by
        intro x hx
        rw [← hl] at hx
        obtain ⟨h1, h2⟩ := List.mem_filter.mp hx
        have h2 := of_decide_eq_true h2
        refine ⟨h1, ?_⟩
        rw [h2.1]
        congr 1
        omega
      have hone : l = [] := by
        have hnd : (d :: l).Nodup := by
          rw [← hl]
          exact List.Sublist.nodup List.filter_sublist (List.Pairwise.of_map _ (fun _ _ h he => h (congrArg (fun d : Dataset => (d.name, d.multiId)) he)) hn)
        cases l with
        | nil => rfl
        | cons x l =>
          obtain ⟨m1, e1⟩ := hmem d (List.mem_cons_self ..)
          obtain ⟨m2, e2⟩ := hmem x (List.mem_cons_of_mem _ (List.mem_cons_self ..))
          have := nodup_map_inj hn m1 m2 (e1.trans e2.symm)
          rw [this] at hnd
          exact absurd (List.mem_cons_self ..) (List.nodup_cons.mp hnd).1
      subst hone
      have hm := (hmem d (List.mem_cons_self ..)).1
      unfold extractFrom getDataset at hv ⊢
      rw [hl] at hv
      rw [hfil, hl]
      unfold withoutSample
      simp only [pyIndex, List.getElem?_cons_zero] at hv
      by_cases hid : d.msgId = id
      · obtain ⟨keys, hk, hv⟩ := except_bind_ok.mp hv
        obtain ⟨col, hcol, hv⟩ := except_bind_ok.mp hv
        obtain ⟨⟨s, e⟩, hw, hv⟩ := except_bind_ok.mp hv
        have hse : s = 0 ∧ e = col.length := by
          injection hw with hw
          injection hw with a b
          exact ⟨a.symm, b.symm⟩
        obtain ⟨rfl, rfl⟩ := hse
        cases ho : oneRow d with
        | true =>
          right
          have h1 : col.length = 1 := of_decide_eq_true (List.all_eq_true.mp ho _ (column_mem hcol))
          refine ⟨?_, (mapM_range_get hv).1.trans h1⟩
          rw [List.filter_cons_of_neg (by simp [hid, ho])]
          rfl
        | false =>
          left
          have hic : i < col.length := hi d hm hid _ (column_mem hcol)
          have hl' := mapM_one_less (g := extractRow (withoutRow i d) keys) hic hv
            (fun j => row_look (fun k => withoutRow_look i d k j) keys)
          refine ⟨rows.eraseIdx i, ?_, .inr ⟨i, by rw [(mapM_range_get hv).1]; exact hic, rfl⟩⟩
          rw [List.filter_cons_of_pos (by simp [ho])]
          simp only [List.filter_nil, List.map_cons, List.map_nil, if_pos hid, pyIndex, List.getElem?_cons_zero]
          rw [show (withoutRow i d).fields = d.fields from rfl, hk, withoutRow_column hcol]
          show (pyRange 0 (col.eraseIdx i).length).mapM (extractRow (withoutRow i d) keys) = _
          rw [List.length_eraseIdx_of_lt hic]
          exact hl'
      · left
        refine ⟨rows, ?_, .inl rfl⟩
        rw [List.filter_cons_of_pos (by simp [hid])]
        simp only [List.filter_nil, List.map_cons, List.map_nil, if_neg hid, pyIndex, List.getElem?_cons_zero]
        exact hv

namespace Sample

/-- a file with a topic that has characters, of which the second one in its sample is `c`, and a topic without -/
def textFile (c : UInt8) : Bytes :=
  header ++ encMsgs ((tyF, asc (py! "A:uint64_t timestamp;char[2] c;")) :: defs) ++
    encMsgs ([(tyA, [0, 5, 0] ++ asc (py! "A")), (tyA, [0, 3, 0] ++ asc (py! "a"))] ++
      (tyD, leEnc 2 5 ++ leEnc 8 110 ++ [65, c]) :: [da 111 7])

end Sample

open Sample in
/-- **C110**, where it is violated: one damaged character makes `ulog2csv` fail with ValueError, also for the topics
without damage. -/
theorem C110_raises :
    csvOf (get (load 20 {} (textFile 66))) = some [(py! "x_A_0.csv", py! "timestamp,c\n110,AB\n"),
      (py! "x_a_0.csv", py! "timestamp,x\n111,7\n")] ∧
    csvOf (get (load 20 {} (textFile 67))) = some [(py! "x_A_0.csv", py! "timestamp,c\n110,AC\n"),
      (py! "x_a_0.csv", py! "timestamp,x\n111,7\n")] ∧
    (∃ v, load 20 {} (textFile 200) = .ok v) ∧
    (∀ fmt, convertCsv fmt (py! "x") (py! ",") none none (get (load 20 {} (textFile 200))) = .error .valueError) := by
  refine ⟨by decide +kernel, by decide +kernel, ⟨get (load 20 {} (textFile 200)), by decide +kernel⟩, ?_⟩
  intro fmt
  have h : (get (load 20 {} (textFile 200))).dataList =
      [⟨0, 5, py! "A", [⟨py! "timestamp", .u64⟩, ⟨py! "c[0]", .char⟩, ⟨py! "c[1]", .char⟩], 0,
        [(py! "timestamp", [.int 110]), (py! "c[0]", [.int 65]), (py! "c[1]", [.int (-56)])]⟩,
       ⟨0, 3, py! "a", [⟨py! "timestamp", .u64⟩, ⟨py! "x", .i16⟩], 0,
        [(py! "timestamp", [.int 111]), (py! "x", [.int 7])]⟩] := by decide +kernel
  unfold convertCsv
  rw [h]
  rfl

open Sample in
/-- the files of the sample log, of the log with a damaged sample, and of the logs without one -/
example : csvOf (get (load 20 {} file)) = some [(py! "x_a_0.csv", py! "timestamp,x\n110,7\n115,-9\n"),
      (py! "x_b_1.csv", py! "timestamp,in[0].timestamp,in[0].x,in[1].timestamp,in[1].x\n120,1,2,3,4\n")] ∧
    csvOf (get (load 20 {} (damaged (da 110 99)))) = some [(py! "x_a_0.csv", py! "timestamp,x\n110,99\n115,-9\n"),
      (py! "x_b_1.csv", py! "timestamp,in[0].timestamp,in[0].x,in[1].timestamp,in[1].x\n120,1,2,3,4\n")] ∧
    csvOf (get (load 20 {} (without 9))) = some [(py! "x_a_0.csv", py! "timestamp,x\n110,7\n"),
      (py! "x_b_1.csv", py! "timestamp,in[0].timestamp,in[0].x,in[1].timestamp,in[1].x\n120,1,2,3,4\n")] ∧
    csvOf (get (load 20 {} (without 5))) = some [(py! "x_a_0.csv", py! "timestamp,x\n110,7\n115,-9\n")] ∧
    ((get (load 20 {} file)).dataList.map (csvName (py! "x"))).Nodup ∧
    ((get (load 20 {} file)).dataList.map fun d => (d.name, d.multiId)).Nodup ∧
    (∀ d ∈ (get (load 20 {} file)).dataList, d.msgId = 3 → ∀ f ∈ d.fields, f.type ≠ .char) ∧
    (extractFrom (get (load 20 {} (without 9))) (py! "a") none none).toOption
      = some [[(py! "timestamp", .int 110), (py! "x", .int 7)]] := by
  refine ⟨by decide +kernel, by decide +kernel, by decide +kernel, by decide +kernel, by decide +kernel,
    by decide +kernel, by decide +kernel, by decide +kernel⟩

end PyULog
