import Verif.Spec.CutTools
import Verif.Props.WriteCut
import Verif.Props.Rewritten
import Verif.Model.Ros2
/-
Property theorems: C106 (what the tools make of a file of `write_ulog` that is cut).
-/
namespace PyULog
open Spec

/-! ### the first rows of a dataset -/

theorem firstRows_cell {β : Type} (n : Nat) (d : Dataset) (k : Str) {i : Nat} (hi : i < n)
    (f : NpVal → Except PyErr β) :
    (dictGet (firstRows n d).data k >>= fun col => pyIndex col i >>= f)
      = (dictGet d.data k >>= fun col => pyIndex col i >>= f) := by
  unfold dictGet firstRows
  dsimp only
  rw [get?_map_snd]
  cases d.data.get? k with
  | none => rfl
  | some col =>
    show (pyIndex (col.take n) i >>= f) = (pyIndex col i >>= f)
    unfold pyIndex
    rw [List.getElem?_take_of_lt hi]

theorem firstRows_string (n : Nat) (d : Dataset) (field : Str) {i : Nat} (hi : i < n) (m index : Nat) :
    readStringData (firstRows n d) field i m index = readStringData d field i m index := by
  induction m generalizing index with
  | zero => rfl
  | succ m ih =>
    unfold readStringData
    rw [ih]
    exact firstRows_cell n d _ hi _

theorem firstRows_line (fmt : NpVal → Str) (delim : Str) (n : Nat) (d : Dataset) (keys : List Str)
    (sizes : Dict Str Int) {i : Nat} (hi : i < n) :
    csvLine fmt delim (firstRows n d) keys sizes i = csvLine fmt delim d keys sizes i := by
  unfold csvLine
  rw [mapM_congr_mem (g := csvCell fmt d sizes i)]
  intro k _
  unfold csvCell
  cases sizes.get? k with
  | none => exact firstRows_cell n d k hi _
  | some m => exact firstRows_string n d k hi _ _

theorem mapM_take {α β : Type} {f : α → Except PyErr β} {l : List α} {r : List β} (h : l.mapM f = .ok r) (n : Nat) :
    (l.take n).mapM f = .ok (r.take n) := by
  induction l generalizing r n with
  | nil => cases h; simp; rfl
  | cons a l ih =>
    rw [List.mapM_cons] at h
    obtain ⟨b, hb, h⟩ := except_bind_ok.mp h
    obtain ⟨bs, hbs, h⟩ := except_bind_ok.mp h
    cases h
    cases n with
    | zero => rfl
    | succ n => rw [List.take_succ_cons, List.take_succ_cons, List.mapM_cons, hb, ih hbs n]; rfl

theorem pyRange_take (n m : Nat) : pyRange 0 (min n m) = (pyRange 0 m).take n := by
  unfold pyRange
  rw [Nat.sub_zero, Nat.sub_zero, ← List.range_eq_range', ← List.range_eq_range', List.take_range]

/-- the rows of the cut dataset are read as those of the whole one -/
theorem mapM_rows {β : Type} {f g : Nat → Except PyErr β} {n m : Nat} (hfg : ∀ i, i < n → g i = f i) {r : List β}
    (h : (pyRange 0 m).mapM f = .ok r) : (pyRange 0 (min n m)).mapM g = .ok (r.take n) := by
  rw [mapM_congr_mem (g := f), pyRange_take]
  · exact mapM_take h n
  · intro i hi
    unfold pyRange at hi
    rw [List.mem_range'_1] at hi
    exact hfg i (by omega)

theorem dictGet_firstRows {n : Nat} {d : Dataset} {k : Str} {col : List NpVal} (h : dictGet d.data k = .ok col) :
    dictGet (firstRows n d).data k = .ok (col.take n) := by
  rw [dictGet_ok] at h ⊢
  unfold firstRows
  rw [get?_map_snd, h]
  rfl

theorem csvFile_firstRows {fmt : NpVal → Str} {delim : Str} {d : Dataset} {text : Str}
    (h : csvFile fmt delim none none d = .ok text) (n : Nat) :
    ∃ text', csvFile fmt delim none none (firstRows n d) = .ok text' ∧ FirstLines n text' text := by
  unfold csvFile at h
  obtain ⟨col, hcol, h⟩ := except_bind_ok.mp h
  obtain ⟨⟨keys, sizes⟩, hk, h⟩ := except_bind_ok.mp h
  obtain ⟨⟨s, e⟩, hw, h⟩ := except_bind_ok.mp h
  dsimp only at h
  obtain ⟨lines, hl, hx⟩ := except_bind_ok.mp h
  injection hx with hx
  have hse : s = 0 ∧ e = col.length := by
    injection hw with hw
    injection hw with a b
    exact ⟨a.symm, b.symm⟩
  obtain ⟨rfl, rfl⟩ := hse
  refine ⟨pyJoin delim keys ++ ['\n'] ++ (lines.take n).flatten, ?_, pyJoin delim keys ++ ['\n'], lines, hx.symm, rfl, ?_⟩
  · unfold csvFile
    rw [dictGet_firstRows hcol, show getFields (firstRows n d) = getFields d from rfl, hk]
    show ((pyRange 0 (col.take n).length).mapM (csvLine fmt delim (firstRows n d) keys sizes) >>= fun lines =>
      Except.ok (pyJoin delim keys ++ ['\n'] ++ lines.flatten)) = _
    rw [List.length_take, mapM_rows (fun i hi => firstRows_line fmt delim n d keys sizes hi) hl]
    rfl
  · intro l hm
    rcases List.mem_cons.mp hm with rfl | hm
    · simp
    · obtain ⟨i, _, hi⟩ := mapM_mem hl hm
      unfold csvLine at hi
      obtain ⟨cells, _, hi⟩ := except_bind_ok.mp hi
      injection hi with hi
      rw [← hi]
      simp

/-! ### files -/

theorem convertCsv_can {fmt : NpVal → Str} {pre delim : Str} {timeS timeE : Option Int} {u : ULog}
    (h : ∀ d ∈ u.dataList, ∃ text, csvFile fmt delim timeS timeE d = .ok text) :
    ∃ files, convertCsv fmt pre delim timeS timeE u = .ok files := by
  unfold convertCsv
  generalize ([] : Dict Str Str) = acc
  generalize u.dataList = l at h
  induction l generalizing acc with
  | nil => exact ⟨acc, rfl⟩
  | cons d l ih =>
    obtain ⟨text, ht⟩ := h d (List.mem_cons_self ..)
    obtain ⟨files, hf⟩ := ih (Dict.set acc (csvName pre d) text) fun x hx => h x (List.mem_cons_of_mem _ hx)
    refine ⟨files, ?_⟩
    rw [List.foldlM_cons, ht]
    exact hf

theorem convertCsv_file {fmt : NpVal → Str} {pre delim : Str} {timeS timeE : Option Int} {u : ULog}
    {files : Dict Str Str} (hn : (u.dataList.map (csvName pre)).Nodup)
    (h : convertCsv fmt pre delim timeS timeE u = .ok files) (name text : Str) :
    files.get? name = some text ↔ ∃ d ∈ u.dataList, csvName pre d = name ∧ csvFile fmt delim timeS timeE d = .ok text := by
  obtain ⟨texts, h1, h2⟩ := foldlM_files fmt pre delim timeS timeE u.dataList [] files
    (by simpa [Dict.keys] using hn) h
  rw [List.nil_append] at h2
  subst h2
  clear h
  generalize u.dataList = l at *
  induction l generalizing texts with
  | nil => cases h1; simp
  | cons d l ih =>
    rw [List.mapM_cons] at h1
    obtain ⟨t, ht, h1⟩ := except_bind_ok.mp h1
    obtain ⟨ts, hts, h1⟩ := except_bind_ok.mp h1
    cases h1
    rw [List.map_cons, List.nodup_cons] at hn
    rw [List.map_cons, List.zip_cons_cons]
    have ih' := ih ts hn.2 hts
    unfold Dict.get?
    split
    · rename_i hk
      constructor
      · intro he
        injection he with he
        exact ⟨d, List.mem_cons_self .., hk, he ▸ ht⟩
      · rintro ⟨x, hx, hxk, hxt⟩
        rcases List.mem_cons.mp hx with rfl | hx
        · rw [ht] at hxt; injection hxt with hxt; rw [hxt]
        · exact absurd (List.mem_map.mpr ⟨x, hx, hxk.trans hk.symm⟩) hn.1
    · rename_i hk
      rw [ih']
      constructor
      · rintro ⟨x, hx, hr⟩
        exact ⟨x, List.mem_cons_of_mem _ hx, hr⟩
      · rintro ⟨x, hx, hxk, hxt⟩
        rcases List.mem_cons.mp hx with rfl | hx
        · exact absurd hxk hk
        · exact ⟨x, hx, hxk, hxt⟩

/-! ### C106 -/

/-- **C106**: `ulog2csv` works on the cut file if it works on the whole one, and each file that it writes has the
first lines of the file of the same name, if no two datasets have the same file name. -/
theorem C106_csv_partial {t : Int} {w v : ULog} (h : LogUpTo t w v) {fmt : NpVal → Str} {pre delim : Str}
    {files : Dict Str Str} (hn : (v.dataList.map (csvName pre)).Nodup)
    (hv : convertCsv fmt pre delim none none v = .ok files) :
    ∃ part, convertCsv fmt pre delim none none w = .ok part ∧
      (∀ name, (part.get? name).isSome = true ↔ ∃ d ∈ w.dataList, csvName pre d = name) ∧
      ∀ name text, part.get? name = some text →
        ∃ n whole, 0 < n ∧ files.get? name = some whole ∧ FirstLines n text whole := by
  obtain ⟨n, hd, -⟩ := h.rows
  have hall : ∀ d ∈ v.dataList, ∃ text, csvFile fmt delim none none d = .ok text := by
    obtain ⟨texts, h1, -⟩ := foldlM_files fmt pre delim none none v.dataList [] files
      (by simpa [Dict.keys] using hn) hv
    exact mapM_elems h1
  have hw : ∀ d ∈ w.dataList, ∃ d0 ∈ v.dataList, 0 < n d0.msgId ∧ d = firstRows (n d0.msgId) d0 := by
    intro d hm
    rw [hd] at hm
    obtain ⟨d0, h0, rfl⟩ := List.mem_map.mp hm
    obtain ⟨h1, h2⟩ := List.mem_filter.mp h0
    exact ⟨d0, h1, of_decide_eq_true h2, rfl⟩
  have hcan : ∀ d ∈ w.dataList, ∃ text, csvFile fmt delim none none d = .ok text := by
    intro d hm
    obtain ⟨d0, h0, -, rfl⟩ := hw d hm
    obtain ⟨whole, ht⟩ := hall d0 h0
    obtain ⟨text, ht', -⟩ := csvFile_firstRows ht (n d0.msgId)
    exact ⟨text, ht'⟩
  obtain ⟨part, hp⟩ := convertCsv_can (pre := pre) hcan
  have hnw : (w.dataList.map (csvName pre)).Nodup := by
    rw [hd, List.map_map]
    exact List.Sublist.nodup (List.Sublist.map (csvName pre) List.filter_sublist) hn
  refine ⟨part, hp, ?_, ?_⟩
  · intro name
    constructor
    · intro hs
      obtain ⟨text, ht⟩ := Option.isSome_iff_exists.mp hs
      obtain ⟨d, hm, hk, -⟩ := (convertCsv_file hnw hp name text).mp ht
      exact ⟨d, hm, hk⟩
    · rintro ⟨d, hm, hk⟩
      obtain ⟨text, ht⟩ := hcan d hm
      exact Option.isSome_iff_exists.mpr ⟨text, (convertCsv_file hnw hp name text).mpr ⟨d, hm, hk, ht⟩⟩
  · intro name text ht
    obtain ⟨d, hm, hk, hx⟩ := (convertCsv_file hnw hp name text).mp ht
    obtain ⟨d0, h0, hpos, rfl⟩ := hw d hm
    obtain ⟨whole, hwh⟩ := hall d0 h0
    obtain ⟨text', ht', hf⟩ := csvFile_firstRows hwh (n d0.msgId)
    rw [ht'] at hx
    injection hx with hx
    subst hx
    exact ⟨_, whole, hpos, (convertCsv_file hn hv name whole).mpr ⟨d0, h0, hk, hwh⟩, hf⟩

/-- **C106**: `extract_message` finds the first rows of the message, or raises AttributeError since no row of it is
left. The names with the multi ids are distinct. -/
theorem C106_extract_partial {t : Int} {w v : ULog} (h : LogUpTo t w v)
    (hn : (v.dataList.map fun d => (d.name, d.multiId)).Nodup) {message : Str} {rows : List (Dict Str NpVal)}
    (hv : extractFrom v message none none = .ok rows) :
    (extractFrom w message none none = .error .attributeError ∧
      ∀ d ∈ w.dataList, ¬ (d.name = message ∧ d.multiId = 0)) ∨
    ∃ n, 0 < n ∧ extractFrom w message none none = .ok (rows.take n) := by
  obtain ⟨n, hd, -⟩ := h.rows
  have hfil : ∀ l : List Dataset, (l.map fun d => (d.name, d.multiId)).Nodup →
      l.filter (fun d => decide (d.name = message ∧ (d.multiId : Int) = 0)) = [] ∨
      ∃ d, l.filter (fun d => decide (d.name = message ∧ (d.multiId : Int) = 0)) = [d] := by
    intro l
    induction l with
    | nil => intro _; exact .inl rfl
    | cons d l ih =>
      intro hl
      rw [List.map_cons, List.nodup_cons] at hl
      by_cases hc : d.name = message ∧ (d.multiId : Int) = 0
      · right
        refine ⟨d, ?_⟩
        rw [List.filter_cons_of_pos (by simpa using hc)]
        congr 1
        rw [List.filter_eq_nil_iff]
        intro x hx hxc
        have hxc := of_decide_eq_true hxc
        refine hl.1 (List.mem_map.mpr ⟨x, hx, ?_⟩)
        rw [hxc.1, hc.1]
        congr 1
        omega
      · rw [List.filter_cons_of_neg (by simpa using hc)]
        exact ih hl.2
  have hwf : w.dataList.filter (fun d => decide (d.name = message ∧ (d.multiId : Int) = 0))
      = ((v.dataList.filter (fun d => decide (d.name = message ∧ (d.multiId : Int) = 0))).filter
          fun d => decide (0 < n d.msgId)).map (fun d => firstRows (n d.msgId) d) := by
    rw [hd, List.filter_map, List.filter_filter, List.filter_filter]
    congr 1
    apply List.filter_congr
    intro d _
    exact Bool.and_comm _ _
  rcases hfil v.dataList hn with he | ⟨d, he⟩
  · have : extractFrom v message none none = .error .attributeError := by
      unfold extractFrom getDataset
      rw [he]
      rfl
    rw [this] at hv
    cases hv
  · rw [he] at hwf
    by_cases hp : 0 < n d.msgId
    · right
      refine ⟨n d.msgId, hp, ?_⟩
      rw [List.filter_cons_of_pos (by simpa using hp)] at hwf
      have hgw : getDataset w message = .ok (firstRows (n d.msgId) d) := by
        unfold getDataset
        rw [hwf]
        rfl
      have hgv : getDataset v message = .ok d := by
        unfold getDataset
        rw [he]
        rfl
      unfold extractFrom at hv ⊢
      rw [hgv] at hv
      rw [hgw]
      dsimp only at hv ⊢
      obtain ⟨keys, hk, hv⟩ := except_bind_ok.mp hv
      obtain ⟨col, hcol, hv⟩ := except_bind_ok.mp hv
      obtain ⟨⟨s, e⟩, hw, hv⟩ := except_bind_ok.mp hv
      have hse : s = 0 ∧ e = col.length := by
        injection hw with hw
        injection hw with a b
        exact ⟨a.symm, b.symm⟩
      obtain ⟨rfl, rfl⟩ := hse
      rw [show (firstRows (n d.msgId) d).fields = d.fields from rfl, hk, dictGet_firstRows hcol]
      show (pyRange 0 (col.take (n d.msgId)).length).mapM (extractRow (firstRows (n d.msgId) d) keys) = _
      rw [List.length_take]
      refine mapM_rows ?_ hv
      intro i hi
      unfold extractRow
      rw [mapM_congr_mem]
      intro k _
      exact firstRows_cell _ d k hi _
    · left
      rw [List.filter_cons_of_neg (by simpa using hp)] at hwf
      refine ⟨?_, ?_⟩
      · unfold extractFrom getDataset
        rw [hwf]
        rfl
      · intro x hx hc
        have := List.filter_eq_nil_iff.mp hwf x hx
        refine this ?_
        simp [hc.1, hc.2]

/-- **C106**: `ulog_params` prints the same parameters for the cut file; of their later changes the first ones. With
the option for initial values, and in format `qgc`, the text is the same. -/
theorem C106_params {t : Int} {w v : ULog} (h : LogUpTo t w v) (o : ParamOpts) :
    selectParams o w = selectParams o v ∧ (∀ key, changesOf w key <+: changesOf v key) ∧
    ((o.initial = true ∨ o.default ≠ none) ∧ o.timestamps = false ∨ o.format = py! "qgc" →
      ∀ fmt, paramsText fmt o w = paramsText fmt o v) := by
  have hd : ({ definitionsOf w with lastTs := 0 } : ULog) = { definitionsOf v with lastTs := 0 } := h.definitions
  have h1 : w.initialParams = v.initialParams := (congrArg (fun x : ULog => x.initialParams) hd :)
  have h2 : w.defaultParams = v.defaultParams := (congrArg (fun x : ULog => x.defaultParams) hd :)
  have h3 : w.compat = v.compat := (congrArg (fun x : ULog => x.compat) hd :)
  have hs : selectParams o w = selectParams o v := by
    unfold selectParams getDefaults hasDefaultParameters getDefaultParameters
    rw [h1, h2, h3]
  refine ⟨hs, ?_, ?_⟩
  · intro key
    obtain ⟨rest, hr⟩ := h.changed
    unfold changesOf
    rw [← hr, List.filterMap_append]
    exact List.prefix_append _ _
  · intro ho fmt
    have ht : ∀ key x, paramText fmt o w key x = paramText fmt o v key x := by
      intro key x
      unfold paramText
      rcases ho with ⟨hi, hts⟩ | hq
      · have hb : (o.initial || o.default.isSome) = true := by
          rcases hi with hi | hi
          · rw [hi]; rfl
          · cases hde : o.default with
            | none => exact absurd hde hi
            | some x => simp
        unfold paramCsv paramOctave
        simp only [hb, hts, if_true]
        rfl
      · rw [hq]
        rfl
    unfold paramsText
    rw [hs]
    simp only [ht]

/-- **C106**: `ulog_info --message` prints the same for the cut file. -/
theorem C106_message {t : Int} {w v : ULog} (h : LogUpTo t w v) (newline : Bool) (name : Str) :
    showMessage newline w name = showMessage newline v name := by
  have hd : ({ definitionsOf w with lastTs := 0 } : ULog) = { definitionsOf v with lastTs := 0 } := h.definitions
  have h1 : w.infoMulti = v.infoMulti := (congrArg (fun x : ULog => x.infoMulti) hd :)
  unfold showMessage
  rw [h1]

/-- **C106**: `ulog_messages` prints the first lines for the cut file, for a log without events that has its messages
in the order of time, as a written log has. -/
theorem C106_messages_partial {t : Int} {w v : ULog} (h : LogUpTo t w v)
    (hs : v.logged.Pairwise (fun a b => a.ts ≤ b.ts)) {lines : List Str}
    (hv : messageLines v (.ok []) = .ok lines) :
    ∃ part, messageLines w (.ok []) = .ok part ∧ part <+: lines := by
  have hd : ({ definitionsOf w with lastTs := 0 } : ULog) = { definitionsOf v with lastTs := 0 } := h.definitions
  have h1 : w.info = v.info := (congrArg (fun x : ULog => x.info) hd :)
  obtain ⟨rest, hr, -, -⟩ := h.logged
  unfold messageLines allMessages at hv ⊢
  rw [h1]
  split at hv
  · rename_i hp
    rw [if_pos hp]
    have hsort : ∀ l : List LogMsg, l.Pairwise (fun a b => a.ts ≤ b.ts) → ∀ p : Nat × Str × Str → Bool,
        ssort (fun (a b : Nat × Str × Str) => decide (a.1 ≤ b.1))
          ((l.map fun m => (m.ts, logLevelStr m.level, m.msg)).filter p)
        = (l.map fun m => (m.ts, logLevelStr m.level, m.msg)).filter p := by
      intro l hl p
      apply ssort_of_sorted
      apply List.Pairwise.filter
      rw [List.pairwise_map]
      exact hl.imp fun hab => decide_eq_true hab
    by_cases hm : ∃ m ∈ v.logged.map (fun m => (m.ts, logLevelStr m.level, m.msg)), m.2.2 = []
    · rw [show (Except.ok [] >>= fun ev => mergeMessages (v.logged.map fun m => (m.ts, logLevelStr m.level, m.msg)) ev
        >>= fun all => Except.ok (ssort (fun (a b : Nat × Str × Str) => decide (a.1 ≤ b.1)) all))
        = (mergeMessages (v.logged.map fun m => (m.ts, logLevelStr m.level, m.msg)) [] >>= fun all =>
          Except.ok (ε := PyErr) (ssort (fun (a b : Nat × Str × Str) => decide (a.1 ≤ b.1)) all)) from rfl,
        merge_error hm] at hv
      cases hv
    · have hm' : ∀ m ∈ v.logged.map (fun m => (m.ts, logLevelStr m.level, m.msg)), m.2.2 ≠ [] :=
        fun m hx he => hm ⟨m, hx, he⟩
      have hmw : ∀ m ∈ w.logged.map (fun m => (m.ts, logLevelStr m.level, m.msg)), m.2.2 ≠ [] := by
        intro m hx
        refine hm' m ?_
        rw [hr, List.map_append]
        exact List.mem_append_left _ hx
      have e1 := merge_ok (ev := []) hm'
      have e2 := merge_ok (ev := []) hmw
      have hs' : w.logged.Pairwise (fun a b => a.ts ≤ b.ts) := by
        rw [hr] at hs
        exact (List.pairwise_append.mp hs).1
      simp only [ok_bind, e1, e2, List.nil_append, hsort _ hs, hsort _ hs'] at hv ⊢
      injection hv with hv
      refine ⟨_, rfl, ?_⟩
      rw [← hv, hr, List.map_append, List.filter_append, List.map_append]
      exact List.prefix_append _ _
  · rename_i hp
    rw [if_neg hp]
    injection hv with hv
    refine ⟨_, rfl, ?_⟩
    rw [← hv, hr, List.map_append, List.map_append]
    exact List.prefix_append _ _

/-! ### where the tools show something else -/

namespace Sample

/-- a dataset with one row: a time and a value -/
def oneRow (id multi : Nat) (name : Str) (time value : Int) : Dataset :=
  ⟨multi, id, name, [⟨py! "timestamp", .u64⟩, ⟨py! "x", .u8⟩], 0,
    [(py! "timestamp", [.int time]), (py! "x", [.int value])]⟩

/-- id 0 is before the cut, id 1 behind it -/
theorem cut_between {l k : List Dataset} (hk : k = l.filter fun d => decide (d.msgId = 0))
    (hl : ∀ d ∈ l, ∃ multi name value, d = oneRow 0 multi name 10 value ∨ d = oneRow 1 multi name 20 value) :
    LogUpTo 15 { dataList := k } { dataList := l } where
  definitions := rfl
  rows := by
    refine ⟨fun i => if i = 0 then 1 else 0, ?_, ?_⟩
    · show k = _
      rw [hk]
      clear hk
      induction l with
      | nil => rfl
      | cons d l ih =>
        have ih := ih fun x hx => hl x (List.mem_cons_of_mem _ hx)
        obtain ⟨multi, name, value, rfl | rfl⟩ := hl d (List.mem_cons_self ..)
        · rw [List.filter_cons_of_pos (by rfl), ih, List.filter_cons_of_pos (by rfl)]
          rfl
        · rw [List.filter_cons_of_neg (by simp [oneRow]), ih, List.filter_cons_of_neg (by simp [oneRow])]
    · intro d hd
      obtain ⟨multi, name, value, rfl | rfl⟩ := hl d hd
      · refine ⟨Nat.le_refl _, fun i hi => ?_⟩
        have hi : i < 1 := hi
        obtain rfl : i = 0 := by omega
        exact ⟨fun _ => (by decide : (10 : Int) ≤ 15), fun h => absurd h (by simp [oneRow])⟩
      · refine ⟨Nat.zero_le _, fun i hi => ?_⟩
        have hi : i < 1 := hi
        obtain rfl : i = 0 := by omega
        exact ⟨fun h => absurd h (by simp [oneRow]), fun _ => (by decide : (15 : Int) ≤ 20)⟩
  logged := ⟨[], rfl, ⟨fun _ h => (by cases h), fun _ h => (by cases h)⟩⟩
  tagged := fun _ => ⟨[], rfl, ⟨fun _ h => (by cases h), fun _ h => (by cases h)⟩⟩
  tags := ⟨List.nodup_nil, fun _ h => (by cases h)⟩
  dropouts := List.prefix_refl _
  changed := List.prefix_refl _
  last := ⟨Nat.le_refl _, Nat.le_refl _⟩

end Sample

/-- **C106**, where it is violated: the ROS 2 topic of the first instance has another name when the second instance
is cut off; of two topics with the same csv file name, the other one is found in the file; of two subscriptions of
one topic, `extract_message` takes the other one. -/
theorem C106_different :
    (∃ w v d, LogUpTo 15 w v ∧ d ∈ w.dataList ∧ d ∈ v.dataList ∧
      rosTopic w.dataList d = py! "/px4/imu" ∧ rosTopic v.dataList d = py! "/px4/imu_0") ∧
    (∃ w v, LogUpTo 15 w v ∧
      Sample.csvOf w = some [(py! "x_a_b_0.csv", py! "timestamp,x\n10,1\n")] ∧
      Sample.csvOf v = some [(py! "x_a_b_0.csv", py! "timestamp,x\n20,2\n")]) ∧
    ∃ w v, LogUpTo 15 w v ∧
      (extractFrom w (py! "imu") none none).toOption = some [[(py! "timestamp", .int 10), (py! "x", .int 1)]] ∧
      (extractFrom v (py! "imu") none none).toOption = some [[(py! "timestamp", .int 20), (py! "x", .int 2)]] := by
  refine ⟨⟨{ dataList := [Sample.oneRow 0 0 (py! "imu") 10 1] },
      { dataList := [Sample.oneRow 0 0 (py! "imu") 10 1, Sample.oneRow 1 1 (py! "imu") 20 2] },
      Sample.oneRow 0 0 (py! "imu") 10 1, Sample.cut_between (by decide) ?_, by decide, by decide, by decide +kernel,
      by decide +kernel⟩,
    ⟨{ dataList := [Sample.oneRow 0 0 (py! "a/b") 10 1] },
      { dataList := [Sample.oneRow 0 0 (py! "a/b") 10 1, Sample.oneRow 1 0 (py! "a_b") 20 2] },
      Sample.cut_between (by decide) ?_, by decide +kernel, by decide +kernel⟩,
    ⟨{ dataList := [Sample.oneRow 0 0 (py! "imu") 10 1] },
      { dataList := [Sample.oneRow 1 0 (py! "imu") 20 2, Sample.oneRow 0 0 (py! "imu") 10 1] },
      Sample.cut_between (by decide) ?_, by decide +kernel, by decide +kernel⟩⟩
  · intro d hd
    simp only [List.mem_cons, List.not_mem_nil, or_false] at hd
    rcases hd with rfl | rfl
    · exact ⟨_, _, _, .inl rfl⟩
    · exact ⟨_, _, _, .inr rfl⟩
  · intro d hd
    simp only [List.mem_cons, List.not_mem_nil, or_false] at hd
    rcases hd with rfl | rfl
    · exact ⟨_, _, _, .inl rfl⟩
    · exact ⟨_, _, _, .inr rfl⟩
  · intro d hd
    simp only [List.mem_cons, List.not_mem_nil, or_false] at hd
    rcases hd with rfl | rfl
    · exact ⟨_, _, _, .inr rfl⟩
    · exact ⟨_, _, _, .inl rfl⟩

/-! ### non-vacuity -/

/-- a log with two topics that is cut before the second one -/
example : ∃ w v : ULog, LogUpTo 15 w v ∧ (v.dataList.map (csvName (py! "x"))).Nodup ∧
    (v.dataList.map fun d => (d.name, d.multiId)).Nodup ∧
    Sample.csvOf v = some [(py! "x_imu_0.csv", py! "timestamp,x\n10,1\n"), (py! "x_gps_0.csv", py! "timestamp,x\n20,2\n")] ∧
    Sample.csvOf w = some [(py! "x_imu_0.csv", py! "timestamp,x\n10,1\n")] ∧
    (extractFrom v (py! "imu") none none).toOption.isSome = true := by
  refine ⟨{ dataList := [Sample.oneRow 0 0 (py! "imu") 10 1] },
      { dataList := [Sample.oneRow 0 0 (py! "imu") 10 1, Sample.oneRow 1 0 (py! "gps") 20 2] },
      Sample.cut_between (by decide) ?_, by decide +kernel, by decide +kernel, by decide +kernel, by decide +kernel,
      by decide +kernel⟩
  intro d hd
  simp only [List.mem_cons, List.not_mem_nil, or_false] at hd
  rcases hd with rfl | rfl
  · exact ⟨_, _, _, .inl rfl⟩
  · exact ⟨_, _, _, .inr rfl⟩

/-- the cut file of a log with two messages, of which one is left -/
example : ∃ (w v : ULog) (b c : Bytes), writeUlog Sample.small = .ok b ∧ writeUlog (withoutRows Sample.small) = .ok c ∧
    load 9999 { depth := 5 } b = .ok v ∧ load 9999 { depth := 5 } (b.take (c.length + 30)) = .ok w ∧
    (∃ t, LogUpTo t w v) ∧ v.logged.Pairwise (fun a b => a.ts ≤ b.ts) ∧
    (messageLines v (.ok [])).toOption.map (·.length) = some 2 ∧
    (messageLines w (.ok [])).toOption.map (·.length) = some 1 := by
  obtain ⟨b, hb⟩ := writeUlog_total Sample.small_writable Sample.small_encodable
  have hcheck : ((writeUlog Sample.small).toOption.bind fun b => (writeUlog (withoutRows Sample.small)).toOption.bind fun c =>
      match load 9999 { depth := 5 } b, load 9999 { depth := 5 } (b.take (c.length + 30)) with
      | .ok v, .ok w => some (decide (b.length < 9999 ∧ v.logged.Pairwise (fun a b => a.ts ≤ b.ts) ∧
          (messageLines v (.ok [])).toOption.map (·.length) = some 2 ∧
          (messageLines w (.ok [])).toOption.map (·.length) = some 1))
      | _, _ => none) = some true := by decide +kernel
  rw [hb] at hcheck
  cases hc : writeUlog (withoutRows Sample.small) with
  | error e => rw [hc] at hcheck; cases hcheck
  | ok c =>
    rw [hc] at hcheck
    simp only [Except.toOption, Option.bind_some] at hcheck
    cases hv : load 9999 { depth := 5 } b with
    | raised e => rw [hv] at hcheck; cases hcheck
    | outOfFuel => rw [hv] at hcheck; cases hcheck
    | ok v =>
      cases hw : load 9999 { depth := 5 } (b.take (c.length + 30)) with
      | raised e => rw [hv, hw] at hcheck; cases hcheck
      | outOfFuel => rw [hv, hw] at hcheck; cases hcheck
      | ok w =>
        rw [hv, hw] at hcheck
        obtain ⟨hlen, h1, h2, h3⟩ := of_decide_eq_true (Option.some.inj hcheck)
        obtain ⟨_, v', _, _, hv', _, hk⟩ := C105_cut (cfg := { depth := 5 }) Sample.small_writable (by decide) hb hc
          rfl rfl rfl hlen (Nat.le_trans (Nat.le_of_lt hlen) (by decide))
        rw [hv] at hv'
        obtain ⟨w', t, hw', hl, _⟩ := hk (c.length + 30) (by omega)
        rw [hw] at hw'
        injection hv' with hv'
        injection hw' with hw'
        subst hv'
        subst hw'
        exact ⟨w, v, b, c, hb, rfl, hv, hw, ⟨t, hl⟩, h1, h2, h3⟩

end PyULog
