import Verif.Model.CsvLeft
import Verif.Props.Csv
import Verif.Props.Names
import Verif.Props.RoundTrip
/-
Property theorems: C85 (what a failing csv conversion leaves).
-/
namespace PyULog
open Spec

/-- cells of a row that was not finished: each is followed by the delimiter -/
def Spec.begunRow (delim : Str) (cells : List Str) : Str := (cells.map (· ++ delim)).flatten

theorem lineLeft_ok {fmt : NpVal → Str} {delim : Str} {d : Dataset} {sizes : Dict Str Int} {row : Nat} :
    ∀ {keys : List Str} {cells : List Str}, keys.mapM (csvCell fmt d sizes row) = .ok cells →
      lineLeft fmt delim d sizes row keys = (csvRow delim cells, none)
  | [], cells, h => by
    cases h
    rfl
  | k :: ks, cells, h => by
    rw [List.mapM_cons] at h
    obtain ⟨c, h1, h⟩ := except_bind_ok.mp h
    obtain ⟨cs, h2, h⟩ := except_bind_ok.mp h
    cases h
    have hlen := (mapM_inv h2).1
    rw [lineLeft, h1]
    dsimp only
    rw [lineLeft_ok h2]
    unfold csvRow
    cases ks with
    | nil =>
      cases cs with
      | nil => simp
      | cons _ _ => simp at hlen
    | cons k2 ks =>
      cases cs with
      | nil => simp at hlen
      | cons c2 cs => simp

theorem lineLeft_error {fmt : NpVal → Str} {delim : Str} {d : Dataset} {sizes : Dict Str Int} {row : Nat} {e : PyErr} :
    ∀ {keys : List Str}, keys.mapM (csvCell fmt d sizes row) = .error e →
      ∃ ks k rest cells, keys = ks ++ k :: rest ∧ ks.mapM (csvCell fmt d sizes row) = .ok cells ∧
        csvCell fmt d sizes row k = .error e ∧
        lineLeft fmt delim d sizes row keys = (begunRow delim cells, some e)
  | [], h => by cases h
  | k :: ks, h => by
    rw [List.mapM_cons] at h
    cases h1 : csvCell fmt d sizes row k with
    | error e' =>
      rw [h1] at h
      cases h
      refine ⟨[], k, ks, [], rfl, rfl, h1, ?_⟩
      rw [lineLeft, h1]
      rfl
    | ok c =>
      rw [h1, ok_bind] at h
      cases h2 : ks.mapM (csvCell fmt d sizes row) with
      | ok cs =>
        rw [h2] at h
        cases h
      | error e' =>
        rw [h2] at h
        cases h
        obtain ⟨as, a, rest, cells, e1, e2, e3, e4⟩ := lineLeft_error (delim := delim) h2
        refine ⟨k :: as, a, rest, c :: cells, by rw [e1]; rfl, ?_, e3, ?_⟩
        · rw [List.mapM_cons, h1, ok_bind, e2]
          rfl
        · rw [lineLeft, h1]
          dsimp only
          rw [e4, if_neg (by rw [e1]; simp)]
          unfold begunRow
          simp

theorem csvLine_cells {fmt : NpVal → Str} {delim : Str} {d : Dataset} {keys : List Str} {sizes : Dict Str Int} {row : Nat} :
    csvLine fmt delim d keys sizes row = (keys.mapM (csvCell fmt d sizes row)).map (csvRow delim) := by
  unfold csvLine
  cases keys.mapM (csvCell fmt d sizes row) with
  | error e => rfl
  | ok cells =>
    show Except.ok _ = Except.ok _
    unfold csvRow
    rw [pyJoin_eq]

/-- the rows that were written before the end or the exception -/
theorem rowsLeft_cases {fmt : NpVal → Str} {delim : Str} {d : Dataset} {keys : List Str} {sizes : Dict Str Int} :
    ∀ (is : List Nat),
      (∃ rows, is.mapM (fun i => keys.mapM (csvCell fmt d sizes i)) = .ok rows ∧
        rowsLeft fmt delim d keys sizes is = ((rows.map (csvRow delim)).flatten, none)) ∨
      ∃ done i rest rows ks k rest' cells e, is = done ++ i :: rest ∧
        done.mapM (fun i => keys.mapM (csvCell fmt d sizes i)) = .ok rows ∧ keys = ks ++ k :: rest' ∧
        ks.mapM (csvCell fmt d sizes i) = .ok cells ∧ csvCell fmt d sizes i k = .error e ∧
        is.mapM (csvLine fmt delim d keys sizes) = .error e ∧
        rowsLeft fmt delim d keys sizes is = ((rows.map (csvRow delim)).flatten ++ begunRow delim cells, some e)
  | [] => .inl ⟨[], rfl, rfl⟩
  | i :: is => by
    cases h : keys.mapM (csvCell fmt d sizes i) with
    | error e =>
      right
      obtain ⟨ks, k, rest, cells, e1, e2, e3, e4⟩ := lineLeft_error (delim := delim) h
      refine ⟨[], i, is, [], ks, k, rest, cells, e, rfl, rfl, e1, e2, e3, ?_, ?_⟩
      · rw [List.mapM_cons, csvLine_cells, h]
        rfl
      · rw [rowsLeft, e4]
        rfl
    | ok cells =>
      have hl := lineLeft_ok (delim := delim) h
      rcases rowsLeft_cases (delim := delim) is with ⟨rows, h1, h2⟩ | ⟨done, j, rest, rows, ks, k, rest', cs, e, h1, h2, h3, h4, h5, h6, h7⟩
      · left
        refine ⟨cells :: rows, ?_, ?_⟩
        · rw [List.mapM_cons, h, ok_bind, h1]
          rfl
        · rw [rowsLeft, hl]
          dsimp only
          rw [h2]
          rfl
      · right
        refine ⟨i :: done, j, rest, cells :: rows, ks, k, rest', cs, e, by rw [h1]; rfl, ?_, h3, h4, h5, ?_, ?_⟩
        · rw [List.mapM_cons, h, ok_bind, h2]
          rfl
        · rw [List.mapM_cons, csvLine_cells, h]
          show (is.mapM (csvLine fmt delim d keys sizes) >>= _) = _
          rw [h6]
          rfl
        · rw [rowsLeft, hl]
          dsimp only
          rw [h7]
          simp

theorem mapM_lines {fmt : NpVal → Str} {delim : Str} {d : Dataset} {keys : List Str} {sizes : Dict Str Int} {rows : List (List Str)} :
    ∀ {is : List Nat}, is.mapM (fun i => keys.mapM (csvCell fmt d sizes i)) = .ok rows →
      is.mapM (csvLine fmt delim d keys sizes) = .ok (rows.map (csvRow delim)) := by
  intro is
  induction is generalizing rows with
  | nil => intro h; cases h; rfl
  | cons i is ih =>
    intro h
    rw [List.mapM_cons] at h
    obtain ⟨c, h1, h⟩ := except_bind_ok.mp h
    obtain ⟨cs, h2, h⟩ := except_bind_ok.mp h
    cases h
    rw [List.mapM_cons, csvLine_cells, h1]
    show (is.mapM (csvLine fmt delim d keys sizes) >>= _) = _
    rw [ih h2]
    rfl

/-- **C85**, one file, no exception: the file is complete exactly when the conversion of the dataset
succeeds. -/
theorem C85_complete {fmt : NpVal → Str} {delim : Str} {timeS timeE : Option Int} {d : Dataset} {t : Str} :
    fileLeft fmt delim timeS timeE d = (some t, none) ↔ csvFile fmt delim timeS timeE d = .ok t := by
  unfold fileLeft csvFile
  cases h1 : dictGet d.data (py! "timestamp") with
  | error e => exact ⟨fun h => (by cases h), fun h => (by cases h)⟩
  | ok column =>
    rw [ok_bind]
    dsimp only
    cases h2 : getFields d with
    | error e => exact ⟨fun h => (by cases h), fun h => (by cases h)⟩
    | ok ks =>
      rw [ok_bind]
      dsimp only
      cases h3 : window column timeS timeE with
      | error e => exact ⟨fun h => (by cases h), fun h => (by cases h)⟩
      | ok se =>
        rw [ok_bind]
        dsimp only
        rcases rowsLeft_cases (fmt := fmt) (delim := delim) (d := d) (keys := ks.1) (sizes := ks.2) (pyRange se.1 se.2) with
          ⟨rows, e1, e2⟩ | ⟨_, _, _, _, _, _, _, _, e, _, _, _, _, _, e6, e7⟩
        · rw [e2, mapM_lines e1, ok_bind]
          constructor
          · intro h
            rw [← Option.some.inj (congrArg Prod.fst h)]
          · intro h
            rw [← Except.ok.inj h]
        · rw [e7, e6]
          exact ⟨fun h => (by cases (congrArg Prod.snd h)), fun h => (by cases h)⟩

/-- **C85**, one file, exception: it is the one of the conversion, and the file is one of these. It does not
exist (the dataset has no timestamp); it is empty (the fields cannot be arranged in columns); it has the
header only (the window is not reached); or it has the header, the lines of all rows before the failing one,
and the cells of this row before the failing one. -/
theorem C85_left {fmt : NpVal → Str} {delim : Str} {timeS timeE : Option Int} {d : Dataset} {e : PyErr} :
    csvFile fmt delim timeS timeE d = .error e ↔
      (dictGet d.data (py! "timestamp") = .error e ∧ fileLeft fmt delim timeS timeE d = (none, some e)) ∨
      ∃ column, d.data.get? (py! "timestamp") = some column ∧
        ((getFields d = .error e ∧ fileLeft fmt delim timeS timeE d = (some [], some e)) ∨
        ∃ keys sizes, getFields d = .ok (keys, sizes) ∧
          ((window column timeS timeE = .error e ∧
            fileLeft fmt delim timeS timeE d = (some (csvRow delim keys), some e)) ∨
          ∃ s n done i rest rows ks k rest' cells, window column timeS timeE = .ok (s, n) ∧
            pyRange s n = done ++ i :: rest ∧ keys = ks ++ k :: rest' ∧
            done.mapM (fun i => keys.mapM (csvCell fmt d sizes i)) = .ok rows ∧
            ks.mapM (csvCell fmt d sizes i) = .ok cells ∧ csvCell fmt d sizes i k = .error e ∧
            fileLeft fmt delim timeS timeE d =
              (some (csvRow delim keys ++ (rows.map (csvRow delim)).flatten ++ begunRow delim cells), some e))) := by
  have hrow : ∀ keys : List Str, pyJoin delim keys ++ ['\n'] = csvRow delim keys := fun keys => by
    unfold csvRow
    rw [pyJoin_eq]
  unfold fileLeft csvFile
  cases h1 : dictGet d.data (py! "timestamp") with
  | error e' =>
    have h0 : d.data.get? (py! "timestamp") = none := by
      unfold dictGet at h1
      split at h1
      · cases h1
      · assumption
    constructor
    · intro h
      cases h
      exact .inl ⟨rfl, rfl⟩
    · rintro (⟨h, _⟩ | ⟨c, hc, _⟩)
      · cases h; rfl
      · rw [h0] at hc; cases hc
  | ok column =>
    have h0 : d.data.get? (py! "timestamp") = some column := by
      unfold dictGet at h1
      split at h1
      · cases h1; assumption
      · cases h1
    rw [ok_bind]
    dsimp only
    cases h2 : getFields d with
    | error e' =>
      constructor
      · intro h
        cases h
        exact .inr ⟨column, h0, .inl ⟨rfl, rfl⟩⟩
      · rintro (⟨h, _⟩ | ⟨c, _, ⟨h, _⟩ | ⟨_, _, h, _⟩⟩)
        · cases h
        · cases h; rfl
        · cases h
    | ok ks =>
      rw [ok_bind]
      dsimp only
      cases h3 : window column timeS timeE with
      | error e' =>
        constructor
        · intro h
          cases h
          exact .inr ⟨column, h0, .inr ⟨ks.1, ks.2, rfl, .inl ⟨h3, by rw [hrow]⟩⟩⟩
        · rintro (⟨h, _⟩ | ⟨c, hc, ⟨h, _⟩ | ⟨_, _, _, ⟨h, _⟩ | ⟨_, _, _, _, _, _, _, _, _, _, h, _⟩⟩⟩)
          · cases h
          · cases h
          · rw [h0] at hc
            cases hc
            rw [h3] at h
            cases h
            rfl
          · rw [h0] at hc
            cases hc
            rw [h3] at h
            cases h
      | ok se =>
        rw [ok_bind]
        dsimp only
        rcases rowsLeft_cases (fmt := fmt) (delim := delim) (d := d) (keys := ks.1) (sizes := ks.2) (pyRange se.1 se.2) with
          ⟨rows, e1, e2⟩ | ⟨done, i, rest, rows, as, a, rest', cells, e', f1, f2, f3, f4, f5, f6, f7⟩
        · rw [e2, mapM_lines e1, ok_bind]
          constructor
          · intro h; cases h
          · rintro (⟨h, _⟩ | ⟨c, hc, ⟨h, _⟩ | ⟨_, _, _, ⟨h, _⟩ | ⟨_, _, _, _, _, _, _, _, _, _, _, _, _, _, _, _, h⟩⟩⟩)
            · cases h
            · cases h
            · rw [h0] at hc
              cases hc
              rw [h3] at h
              cases h
            · cases (congrArg Prod.snd h)
        · rw [f7, f6]
          constructor
          · intro h
            cases h
            exact .inr ⟨column, h0, .inr ⟨ks.1, ks.2, rfl, .inr ⟨se.1, se.2, done, i, rest, rows, as, a, rest', cells,
              h3, f1, f3, f2, f4, f5, by rw [hrow, List.append_assoc]⟩⟩⟩
          · rintro (⟨h, _⟩ | ⟨c, hc, ⟨h, _⟩ | ⟨_, _, _, ⟨h, _⟩ | ⟨_, _, _, _, _, _, _, _, _, _, _, _, _, _, _, _, h⟩⟩⟩)
            · cases h
            · cases h
            · rw [h0] at hc
              cases hc
              rw [h3] at h
              cases h
            · have := Option.some.inj (congrArg Prod.snd h)
              rw [this]
              rfl

/-! ### all files -/

theorem convert_step {fmt : NpVal → Str} {pre delim : Str} {timeS timeE : Option Int} :
    ∀ (ds : List Dataset) (files : Dict Str Str),
      (∃ r, ds.foldlM (fun files d => do
          let text ← csvFile fmt delim timeS timeE d
          .ok (files.set (csvName pre d) text)) files = .ok r ∧ filesLeft fmt pre delim timeS timeE ds files = (r, none)) ∨
      ∃ e done d rest r, ds = done ++ d :: rest ∧ ds.foldlM (fun files d => do
          let text ← csvFile fmt delim timeS timeE d
          .ok (files.set (csvName pre d) text)) files = .error e ∧
        done.foldlM (fun files d => do
          let text ← csvFile fmt delim timeS timeE d
          .ok (files.set (csvName pre d) text)) files = .ok r ∧ csvFile fmt delim timeS timeE d = .error e ∧
        filesLeft fmt pre delim timeS timeE ds files = ((fileLeft fmt delim timeS timeE d).1.elim r (r.set (csvName pre d)), some e)
  | [], files => .inl ⟨files, rfl, rfl⟩
  | d :: ds, files => by
    rw [List.foldlM_cons]
    cases h : csvFile fmt delim timeS timeE d with
    | error e =>
      right
      refine ⟨e, [], d, ds, files, rfl, rfl, rfl, h, ?_⟩
      have hl := C85_left.mp h
      have : (∃ t, fileLeft fmt delim timeS timeE d = (some t, some e)) ∨ fileLeft fmt delim timeS timeE d = (none, some e) := by
        rcases hl with ⟨_, h⟩ | ⟨_, _, ⟨_, h⟩ | ⟨_, _, _, ⟨_, h⟩ | ⟨_, _, _, _, _, _, _, _, _, _, _, _, _, _, _, _, h⟩⟩⟩
        · exact .inr h
        · exact .inl ⟨_, h⟩
        · exact .inl ⟨_, h⟩
        · exact .inl ⟨_, h⟩
      rcases this with ⟨t, h⟩ | h
      · rw [filesLeft, h]
        rfl
      · rw [filesLeft, h]
        rfl
    | ok t =>
      have hl := C85_complete.mpr h
      rcases convert_step ds (files.set (csvName pre d) t) with ⟨r, h1, h2⟩ | ⟨e, done, x, rest, r, h1, h2, h3, h4, h5⟩
      · left
        refine ⟨r, h1, ?_⟩
        rw [filesLeft, hl]
        exact h2
      · right
        refine ⟨e, d :: done, x, rest, r, by rw [h1]; rfl, h2, ?_, h4, ?_⟩
        · rw [List.foldlM_cons, h]
          exact h3
        · rw [filesLeft, hl]
          exact h5

/-- **C85**, no exception: all files are complete. -/
theorem C85_all {fmt : NpVal → Str} {pre delim : Str} {timeS timeE : Option Int} {u : ULog} {files : Dict Str Str} :
    convertLeft fmt pre delim timeS timeE u = (files, none) ↔ convertCsv fmt pre delim timeS timeE u = .ok files := by
  unfold convertLeft convertCsv
  rcases convert_step u.dataList [] with ⟨r, h1, h2⟩ | ⟨e, done, d, rest, r, _, h1, _, _, h2⟩
  · rw [h1, h2]
    exact ⟨fun h => congrArg Except.ok (congrArg Prod.fst h), fun h => by rw [Except.ok.inj h]⟩
  · rw [h1, h2]
    exact ⟨fun h => (by cases (congrArg Prod.snd h)), fun h => (by cases h)⟩

/-- **C85**, exception: the datasets before the failing one have complete files, as if the log ended there. Besides
these there is at most the file of the failing dataset, with the text of `C85_left`. It replaces the file of an earlier
dataset with the same file name. -/
theorem C85_files {fmt : NpVal → Str} {pre delim : Str} {timeS timeE : Option Int} {u : ULog} {e : PyErr} :
    convertCsv fmt pre delim timeS timeE u = .error e ↔
      ∃ done d rest files, u.dataList = done ++ d :: rest ∧
        convertCsv fmt pre delim timeS timeE { u with dataList := done } = .ok files ∧
        csvFile fmt delim timeS timeE d = .error e ∧
        convertLeft fmt pre delim timeS timeE u =
          ((fileLeft fmt delim timeS timeE d).1.elim files (files.set (csvName pre d)), some e) := by
  unfold convertLeft convertCsv
  rcases convert_step (fmt := fmt) (pre := pre) (delim := delim) (timeS := timeS) (timeE := timeE) u.dataList [] with
    ⟨r, h1, h2⟩ | ⟨e', done, d, rest, r, h0, h1, h3, h4, h2⟩
  · rw [h1, h2]
    constructor
    · intro h; cases h
    · rintro ⟨_, _, _, _, _, _, _, h⟩
      cases (congrArg Prod.snd h)
  · rw [h1, h2]
    constructor
    · intro h
      cases h
      exact ⟨done, d, rest, r, h0, h3, h4, rfl⟩
    · rintro ⟨_, _, _, _, _, _, _, h⟩
      have := Option.some.inj (congrArg Prod.snd h)
      rw [this]

/-! ### whole lines -/

theorem whereTrue_lt {mask : List Bool} {i : Nat} (h : i ∈ whereTrue mask) : i < mask.length := by
  unfold whereTrue at h
  exact List.mem_range.mp (List.mem_filter.mp h).1

theorem windowBound_le {column : List NpVal} {dflt : Nat} {b : Option Int} {i : Nat} (hd : dflt ≤ column.length)
    (h : windowBound column dflt b = .ok i) : i ≤ column.length := by
  have key : ∀ t, firstReached column t = .ok i → i ≤ column.length := by
    intro t h
    unfold firstReached at h
    obtain ⟨bound, _, h⟩ := except_bind_ok.mp h
    unfold pyIndex at h
    split at h
    · cases h
      rename_i h
      have := whereTrue_lt (List.mem_of_getElem? h)
      rw [List.length_map] at this
      omega
    · cases h
  unfold windowBound at h
  split at h
  · split at h
    · exact key _ h
    · cases h; exact hd
  · cases h; exact hd

/-- **C85** for datasets whose texts are ASCII: the file that is left consists of whole lines, whatever the window.
Missing: other characters, which leave a begun line (`C85_begun`). -/
theorem C85_whole_partial {fmt : NpVal → Str} {delim : Str} {timeS timeE : Option Int} {d : Dataset} {cols : List CsvCol}
    {n : Nat} (hd : CsvData d cols n) (hok : ∀ c ∈ cols, c.Ok) (hnd : (titles cols).Nodup)
    (hts : py! "timestamp" ∈ titles cols) (hcol : ∃ column, d.data.get? (py! "timestamp") = some column ∧ column.length = n) :
    ∃ rows, (fileLeft fmt delim timeS timeE d).1 = some (csvRow delim (csvHeader cols) ++ (rows.map (csvRow delim)).flatten) ∧
      (∀ row ∈ rows, row.length = (csvHeader cols).length) ∧
      ((fileLeft fmt delim timeS timeE d).2 ≠ none → rows = []) := by
  obtain ⟨column, hc1, hc2⟩ := hcol
  obtain ⟨sizes, h1, h2⟩ := C30_columns d cols hd.fields hok hnd hts
  have hrow : ∀ keys : List Str, pyJoin delim keys ++ ['\n'] = csvRow delim keys := fun keys => by
    unfold csvRow
    rw [pyJoin_eq]
  unfold fileLeft dictGet
  rw [hc1, h1]
  dsimp only
  cases h3 : window column timeS timeE with
  | error e => exact ⟨[], by rw [hrow]; simp, by simp, by simp⟩
  | ok se =>
    dsimp only
    have hle : se.2 ≤ n := by
      unfold window at h3
      obtain ⟨s, _, h3⟩ := except_bind_ok.mp h3
      obtain ⟨e, h4, h3⟩ := except_bind_ok.mp h3
      have := windowBound_le (Nat.le_refl _) h4
      cases h3
      omega
    rcases rowsLeft_cases (fmt := fmt) (delim := delim) (d := d) (keys := csvHeader cols) (sizes := sizes) (pyRange se.1 se.2) with
      ⟨rows, e1, e2⟩ | ⟨done, i, rest, rows, ks, k, rest', cells, e, f1, _, f3, _, f5, _⟩
    · refine ⟨rows, by rw [e2, hrow], ?_, by rw [e2]; simp⟩
      intro row hr
      obtain ⟨i, _, hi⟩ := mapM_mem e1 hr
      exact (mapM_inv hi).1
    · have hi : i ∈ pyRange se.1 se.2 := by rw [f1]; simp
      have hi' : i < n := by
        unfold pyRange at hi
        rw [List.mem_range'_1] at hi
        omega
      have hk : k ∈ csvHeader cols := by rw [f3]; simp
      rw [csvCell_spec fmt hd h2 (mem_csvHeader hts hk) hi'] at f5
      cases f5

/-- the hypotheses of `C85_whole_partial` are met by the dataset of the csv examples -/
example : ∃ d cols n, CsvData d cols n ∧ (∀ c ∈ cols, c.Ok) ∧ (titles cols).Nodup ∧ py! "timestamp" ∈ titles cols ∧
    (∃ column, d.data.get? (py! "timestamp") = some column ∧ column.length = n) ∧ n = 2 :=
  ⟨_, Sample.csvCols, 2, Sample.csv_data, Sample.csvCols_ok.1, Sample.csvCols_ok.2.1, Sample.csvCols_ok.2.2,
    ⟨_, rfl, rfl⟩, rfl⟩

/-- two datasets with a text of two bytes; the second sample of the second one has a byte of 200 -/
def Sample.texts (c : UInt8) : Bytes := Sample.header ++
  encMsgs [(tyF, Sample.asc (py! "a:uint64_t timestamp;char[2] s;")), (tyF, Sample.asc (py! "b:uint64_t timestamp;char[2] s;"))] ++
  encMsgs [(tyA, [0, 0, 0] ++ Sample.asc (py! "a")), (tyA, [0, 1, 0] ++ Sample.asc (py! "b")),
    (tyD, [0, 0, 5, 0, 0, 0, 0, 0, 0, 0, 104, 105]), (tyD, [1, 0, 7, 0, 0, 0, 0, 0, 0, 0, 111, 107]),
    (tyD, [1, 0, 8, 0, 0, 0, 0, 0, 0, 0, c, 107])]

/-- The failing part of **C85**: a byte of 128 or more in a text leaves a line that is not finished. The other files and
the lines before it are complete. -/
theorem C85_begun : ∃ bs u, load 20 {} bs = .ok u ∧
    convertLeft Sample.fmt (py! "log") (py! ",") none none u =
      ([(py! "log_a_0.csv", py! "timestamp,s\n5,hi\n"), (py! "log_b_0.csv", py! "timestamp,s\n7,ok\n8,")], some .valueError) := by
  refine ⟨Sample.texts 200, Sample.get (load 20 {} (Sample.texts 200)), ?_, ?_⟩ <;> decide +kernel

/-- the same log without that byte: both files are complete -/
example : convertLeft Sample.fmt (py! "log") (py! ",") none none (Sample.get (load 20 {} (Sample.texts 111))) =
    ([(py! "log_a_0.csv", py! "timestamp,s\n5,hi\n"), (py! "log_b_0.csv", py! "timestamp,s\n7,ok\n8,ok\n")], none) := by
  decide +kernel

/-- a window that starts after the last sample leaves the header of the first dataset -/
example : convertLeft Sample.fmt (py! "log") (py! ",") (some 1) none (Sample.get (load 20 {} (Sample.texts 111))) =
    ([(py! "log_a_0.csv", py! "timestamp,s\n")], some .indexError) := by
  decide +kernel

end PyULog
