import Verif.Lemmas.CsvError
import Verif.Lemmas.LoadedFits
/-
C96: when ulog2csv and extract_message raise an exception, and which one.
-/
namespace PyULog
open Spec

/-- a bound has no row exactly if no timestamp reaches it -/
theorem boundRow_none {column : List NpVal} {dflt : Nat} {b : Option Int} :
    boundRow column dflt b = none ↔ NotReached column b := by
  unfold boundRow NotReached
  cases b with
  | none => exact ⟨fun h => (by cases h), fun ⟨_, h, _⟩ => (by cases h)⟩
  | some t =>
    dsimp only
    by_cases h0 : t = 0
    · rw [if_pos h0]
      constructor
      · intro h; cases h
      · rintro ⟨t', h, h', _⟩
        cases h
        exact absurd h0 h'
    · rw [if_neg h0, List.findIdx?_eq_none_iff]
      constructor
      · intro h
        exact ⟨t, rfl, h0, fun v hv => of_decide_eq_false (h v hv)⟩
      · rintro ⟨t', h, _, h'⟩
        cases h
        exact fun v hv => decide_eq_false (h' v hv)

/-- the window, for bounds that are compared exactly -/
theorem window_row {column : List NpVal} {timeS timeE : Option Int} (xS : ExactColumn column timeS)
    (xE : ExactColumn column timeE) :
    (∀ e, window column timeS timeE = .error e ↔ e = .indexError ∧ (NotReached column timeS ∨ NotReached column timeE)) ∧
    (∀ s n, window column timeS timeE = .ok (s, n) ↔
      boundRow column 0 timeS = some s ∧ boundRow column column.length timeE = some n) := by
  unfold window
  rw [windowBound_row 0 xS, windowBound_row column.length xE, ← boundRow_none (dflt := 0),
    ← boundRow_none (dflt := column.length) (b := timeE)]
  cases boundRow column 0 timeS with
  | none =>
    refine ⟨fun e => ⟨fun h => ?_, fun h => ?_⟩, fun s n => ⟨fun h => (by cases h), fun h => (by cases h.1)⟩⟩
    · cases h; exact ⟨rfl, .inl rfl⟩
    · rw [h.1]; rfl
  | some s =>
    cases boundRow column column.length timeE with
    | none =>
      refine ⟨fun e => ⟨fun h => ?_, fun h => ?_⟩, fun s n => ⟨fun h => (by cases h), fun h => (by cases h.2)⟩⟩
      · cases h; exact ⟨rfl, .inr rfl⟩
      · rw [h.1]; rfl
    | some n =>
      refine ⟨fun e => ⟨fun h => (by cases h), fun h => ?_⟩, fun s' n' => ⟨fun h => ?_, fun h => ?_⟩⟩
      · rcases h.2 with h | h <;> cases h
      · cases h; exact ⟨rfl, rfl⟩
      · cases h.1; cases h.2; rfl

theorem pyRemove_cases {α : Type} [DecidableEq α] (l : List α) (x : α) :
    (x ∉ l ∧ pyRemove l x = .error .valueError) ∨ (x ∈ l ∧ ∃ r, pyRemove l x = .ok r ∧ ∀ y, (y = x ∨ y ∈ r) ↔ y ∈ l) := by
  unfold pyRemove
  by_cases h : x ∈ l
  · rw [if_pos h]
    refine .inr ⟨h, _, rfl, fun y => ?_⟩
    by_cases hy : y = x
    · rw [hy]; exact ⟨fun _ => h, fun _ => .inl rfl⟩
    · rw [List.mem_erase_of_ne hy]
      exact ⟨fun h => h.resolve_left hy, .inr⟩
  · rw [if_neg h]
    exact .inl ⟨h, rfl⟩

theorem timestampFirst_cases (keys : List Str) :
    (py! "timestamp" ∉ keys ∧ timestampFirst keys = .error .valueError) ∨
    (py! "timestamp" ∈ keys ∧ ∃ r, timestampFirst keys = .ok r ∧ ∀ k, k ∈ r ↔ k ∈ keys) := by
  unfold timestampFirst
  rcases pyRemove_cases keys (py! "timestamp") with ⟨h, h'⟩ | ⟨h, r, h', hm⟩
  · rw [h']; exact .inl ⟨h, rfl⟩
  · rw [h']
    refine .inr ⟨h, _, rfl, fun k => ?_⟩
    rw [List.mem_cons]
    exact hm k

/-- the fields of a dataset -/
theorem getFields_cases (d : Dataset) :
    (∀ e, getFields d = .error e → e = .valueError ∧
      ((∃ f ∈ d.fields, ∃ a b, TextPart f a b ∧ ∀ n, ¬ IntText b n) ∨ ¬ HasHeader d.fields (py! "timestamp"))) ∧
    (∀ keys sizes, getFields d = .ok (keys, sizes) →
      (∀ k, k ∈ keys ↔ HasHeader d.fields k) ∧ HasHeader d.fields (py! "timestamp") ∧
      (∀ k, sizes.get? k = none ↔ ¬ IsTextName d.fields k) ∧
      (∀ k j, readIn sizes k j ↔ ∃ n, HasPart d.fields k n ∧ (j : Int) ≤ n) ∧
      (∀ f ∈ d.fields, ∀ a b, TextPart f a b → ∃ n, IntText b n)) := by
  unfold getFields
  cases h : csvFields d.fields [] [] with
  | error e =>
    refine ⟨fun e' h' => ?_, fun keys sizes h' => (by cases h')⟩
    cases h'
    obtain ⟨h1, h2⟩ := csvFields_error h
    exact ⟨h1, .inl h2⟩
  | ok ks =>
    obtain ⟨keys, sizes⟩ := ks
    obtain ⟨h1, h2, h3, h4⟩ := csvFields_found h
    have h1' : ∀ k, k ∈ keys ↔ HasHeader d.fields k := fun k => by rw [h1]; simp
    rw [ok_bind]
    dsimp only
    rcases timestampFirst_cases keys with ⟨ht, h'⟩ | ⟨ht, r, h', hm⟩
    · rw [h']
      refine ⟨fun e' h' => ?_, fun keys' sizes' h' => (by cases h')⟩
      cases h'
      exact ⟨rfl, .inr fun hc => ht ((h1' _).mpr hc)⟩
    · rw [h']
      refine ⟨fun e' h' => (by cases h'), fun keys' sizes' h' => ?_⟩
      cases h'
      refine ⟨fun k => ?_, (h1' _).mp ht, fun k => ?_, fun k j => ?_, h4⟩
      · rw [hm, h1']
      · rw [h2]
        exact ⟨fun h => h.2, fun h => ⟨rfl, h⟩⟩
      · rw [h3]
        refine ⟨fun h => h.resolve_left ?_, .inr⟩
        rintro ⟨m, hm, _⟩
        cases hm

/-- **C96**, a file of ulog2csv: an exception has one of the listed reasons, and one of these reasons is enough for an
exception. The bounds of the window are compared with the timestamps exactly (`C29_column` says when). -/
theorem C96_file {fmt : NpVal → Str} {delim : Str} {timeS timeE : Option Int} {d : Dataset}
    (hx : ∀ column, d.data.get? (py! "timestamp") = some column → ExactColumn column timeS ∧ ExactColumn column timeE) :
    (∀ e, csvFile fmt delim timeS timeE d = .error e → CsvObstacle timeS timeE d e) ∧
    (∀ e, CsvObstacle timeS timeE d e → ∃ e', csvFile fmt delim timeS timeE d = .error e') := by
  unfold csvFile dictGet
  cases hc : d.data.get? (py! "timestamp") with
  | none =>
    refine ⟨fun e h => ?_, fun e _ => ⟨_, rfl⟩⟩
    cases h
    exact .noTime hc
  | some column =>
    obtain ⟨xS, xE⟩ := hx column hc
    obtain ⟨g1, g2⟩ := getFields_cases d
    obtain ⟨w1, w2⟩ := window_row xS xE
    dsimp only
    rw [ok_bind]
    cases hg : getFields d with
    | error e =>
      refine ⟨fun e' h => ?_, fun e' _ => ⟨e, rfl⟩⟩
      cases h
      obtain ⟨rfl, h | h⟩ := g1 e hg
      · obtain ⟨f, hf, a, b, h1, h2⟩ := h
        exact .index hf h1 h2
      · exact .noHeader h
    | ok ks =>
      obtain ⟨keys, sizes⟩ := ks
      obtain ⟨k1, k2, k3, k4, k5⟩ := g2 keys sizes hg
      rw [ok_bind]
      dsimp only
      cases hw : window column timeS timeE with
      | error e =>
        refine ⟨fun e' h => ?_, fun e' _ => ⟨e, rfl⟩⟩
        cases h
        obtain ⟨rfl, h⟩ := (w1 e).mp hw
        exact .bound hc h
      | ok sn =>
        obtain ⟨s, n⟩ := sn
        obtain ⟨b1, b2⟩ := (w2 s n).mp hw
        rw [ok_bind]
        dsimp only
        have hcell : ∀ i k e, csvCell fmt d sizes i k = .error e ↔ CsvCellObstacle d i k e :=
          fun i k e => csvCell_error (k3 k) (k4 k)
        have hrange : ∀ i, i ∈ pyRange s n ↔ RowInWindow column timeS timeE i := by
          intro i
          unfold pyRange RowInWindow
          rw [List.mem_range'_1, b1, b2]
          constructor
          · intro h
            exact ⟨s, n, rfl, rfl, h.1, by omega⟩
          · rintro ⟨s', n', h1, h2, h3, h4⟩
            cases h1
            cases h2
            omega
        constructor
        · intro e h
          rcases except_bind_error.mp h with h | ⟨_, _, h⟩
          · obtain ⟨i, hi, h⟩ := mapM_errMem h
            unfold csvLine at h
            rcases except_bind_error.mp h with h | ⟨_, _, h⟩
            · obtain ⟨k, hk, h⟩ := mapM_errMem h
              exact .cell hc ((hrange i).mp hi) ((k1 k).mp hk) ((hcell i k e).mp h)
            · cases h
          · cases h
        · intro e h
          cases h with
          | noTime h => rw [hc] at h; cases h
          | index hf ht hno =>
            obtain ⟨m, hm⟩ := k5 _ hf _ _ ht
            exact absurd hm (hno m)
          | noHeader h => exact absurd k2 h
          | bound h hn =>
            rw [hc] at h
            cases h
            rw [(w1 .indexError).mpr ⟨rfl, hn⟩] at hw
            cases hw
          | cell h hr hk ho =>
            rw [hc] at h
            cases h
            cases hl : (pyRange s n).mapM (csvLine fmt delim d keys sizes) with
            | error e' => exact ⟨e', rfl⟩
            | ok lines =>
              exfalso
              obtain ⟨line, hline⟩ := mapM_can.mp ⟨lines, hl⟩ _ ((hrange _).mpr hr)
              unfold csvLine at hline
              obtain ⟨cells, hcells, _⟩ := except_bind_ok.mp hline
              obtain ⟨c, hc'⟩ := mapM_can.mp ⟨cells, hcells⟩ _ ((k1 _).mpr hk)
              rw [(hcell _ _ _).mpr ho] at hc'
              cases hc'

/-- **C96**, ulog2csv: all files are written exactly if no dataset has such a reason -/
theorem C96_convert {fmt : NpVal → Str} {pre delim : Str} {timeS timeE : Option Int} {u : ULog}
    (hx : ∀ d ∈ u.dataList, ∀ column, d.data.get? (py! "timestamp") = some column →
      ExactColumn column timeS ∧ ExactColumn column timeE) :
    (∀ e, convertCsv fmt pre delim timeS timeE u = .error e → ∃ d ∈ u.dataList, CsvObstacle timeS timeE d e) ∧
    ((∃ files, convertCsv fmt pre delim timeS timeE u = .ok files) ↔
      ∀ d ∈ u.dataList, ∀ e, ¬ CsvObstacle timeS timeE d e) := by
  have hbad : ∀ e, convertCsv fmt pre delim timeS timeE u = .error e → ∃ d ∈ u.dataList, CsvObstacle timeS timeE d e := by
    intro e h
    obtain ⟨done, d, rest, files, h1, h2, h3, h4⟩ := C85_files.mp h
    have hd : d ∈ u.dataList := by rw [h1]; simp
    exact ⟨d, hd, (C96_file (hx d hd)).1 e h3⟩
  refine ⟨hbad, ?_, ?_⟩
  · rintro ⟨files, h⟩ d hd e ho
    obtain ⟨e', he⟩ := (C96_file (fmt := fmt) (delim := delim) (hx d hd)).2 e ho
    -- a dataset that fails lets the fold fail
    have key : ∀ (l : List Dataset) (acc files : Dict Str Str), d ∈ l →
        l.foldlM (fun files d => do
          let text ← csvFile fmt delim timeS timeE d
          .ok (files.set (csvName pre d) text)) acc ≠ Except.ok files := by
      intro l
      induction l with
      | nil => intro _ _ h; cases h
      | cons x xs ih =>
        intro acc files hm h
        rw [List.foldlM_cons] at h
        obtain ⟨acc', h1, h2⟩ := except_bind_ok.mp h
        rcases List.mem_cons.mp hm with rfl | hm
        · rw [he] at h1
          cases h1
        · exact ih acc' files hm h2
    exact key _ _ _ hd h
  · intro h
    cases hr : convertCsv fmt pre delim timeS timeE u with
    | ok files => exact ⟨files, rfl⟩
    | error e =>
      obtain ⟨d, hd, ho⟩ := hbad e hr
      exact absurd ho (h d hd e)

/-- **C96**, extract_message: an exception has one of the listed reasons, and one of these reasons is enough for an
exception -/
theorem C96_extract {u : ULog} {message : Str} {timeS timeE : Option Int}
    (hx : ∀ d column, getDataset u message = .ok d → d.data.get? (py! "timestamp") = some column →
      ExactColumn column timeS ∧ ExactColumn column timeE) :
    (∀ e, extractFrom u message timeS timeE = .error e → ExtractObstacle u message timeS timeE e) ∧
    (∀ e, ExtractObstacle u message timeS timeE e → ∃ e', extractFrom u message timeS timeE = .error e') := by
  unfold extractFrom
  cases hd : getDataset u message with
  | error e =>
    obtain ⟨_, hno⟩ := (C25_not_found u message 0 e).mp hd
    refine ⟨fun e h => ?_, fun e _ => ⟨_, rfl⟩⟩
    cases h
    exact .noTopic fun d hd hc => hno d hd ⟨hc.1, by omega⟩
  | ok d =>
    have same : ∀ {d'}, getDataset u message = .ok d' → d' = d := fun h => by
      rw [hd] at h; exact (Except.ok.inj h).symm
    dsimp only
    rcases timestampFirst_cases (d.fields.map (·.name)) with ⟨ht, h'⟩ | ⟨ht, keys, h', hm⟩
    · rw [h']
      refine ⟨fun e h => ?_, fun e _ => ⟨_, rfl⟩⟩
      cases h
      exact .noField hd ht
    · rw [h']
      simp only [ok_bind]
      unfold dictGet
      cases hc : d.data.get? (py! "timestamp") with
      | none =>
        refine ⟨fun e h => ?_, fun e _ => ⟨_, rfl⟩⟩
        cases h
        exact .noTime hd hc
      | some column =>
        obtain ⟨xS, xE⟩ := hx d column hd hc
        obtain ⟨w1, w2⟩ := window_row xS xE
        simp only [ok_bind]
        cases hw : window column timeS timeE with
        | error e =>
          refine ⟨fun e' h => ?_, fun e' _ => ⟨e, rfl⟩⟩
          cases h
          obtain ⟨rfl, h⟩ := (w1 e).mp hw
          exact .bound hd hc h
        | ok sn =>
          obtain ⟨s, n⟩ := sn
          obtain ⟨b1, b2⟩ := (w2 s n).mp hw
          simp only [ok_bind]
          have hcell : ∀ i k e, (dictGet d.data k >>= fun col => pyIndex col i >>= fun v => pure (k, v)) = Except.error e ↔
              ReadObstacle d k i e := by
            intro i k e
            rw [← readAt_iff.2]
            cases dictGet d.data k with
            | error e' => exact ⟨fun h => by cases h; rfl, fun h => by cases h; rfl⟩
            | ok col =>
              simp only [ok_bind]
              cases pyIndex col i with
              | error e' => exact ⟨fun h => by cases h; rfl, fun h => by cases h; rfl⟩
              | ok v => exact ⟨fun h => (by cases h), fun h => (by cases h)⟩
          have hrange : ∀ i, i ∈ pyRange s n ↔ RowInWindow column timeS timeE i := by
            intro i
            unfold pyRange RowInWindow
            rw [List.mem_range'_1, b1, b2]
            constructor
            · intro h
              exact ⟨s, n, rfl, rfl, h.1, by omega⟩
            · rintro ⟨s', n', h1, h2, h3, h4⟩
              cases h1
              cases h2
              omega
          have hkeys : ∀ k, k ∈ keys ↔ ∃ f ∈ d.fields, f.name = k := by
            intro k
            rw [hm, List.mem_map]
          constructor
          · intro e h
            obtain ⟨i, hi, h⟩ := mapM_errMem h
            unfold extractRow at h
            rcases except_bind_error.mp h with h | ⟨_, _, h⟩
            · obtain ⟨k, hk, h⟩ := mapM_errMem h
              obtain ⟨f, hf, rfl⟩ := (hkeys k).mp hk
              exact .cell hd hc ((hrange i).mp hi) hf ((hcell i _ e).mp h)
            · cases h
          · intro e h
            cases h with
            | noTopic h =>
              have := (C25_not_found u message 0 .indexError).mpr ⟨rfl, fun d' hd' hc' => h d' hd' ⟨hc'.1, by omega⟩⟩
              rw [hd] at this
              cases this
            | noField h hn => cases same h; exact absurd ht hn
            | noTime h hn => cases same h; rw [hc] at hn; cases hn
            | bound h hc' hn =>
              cases same h
              rw [hc] at hc'
              cases hc'
              rw [(w1 .indexError).mpr ⟨rfl, hn⟩] at hw
              cases hw
            | cell h hc' hr hf ho =>
              cases same h
              rw [hc] at hc'
              cases hc'
              cases hl : (pyRange s n).mapM (extractRow d keys) with
              | error e' => exact ⟨e', rfl⟩
              | ok lines =>
                exfalso
                obtain ⟨line, hline⟩ := mapM_can.mp ⟨lines, hl⟩ _ ((hrange _).mpr hr)
                unfold extractRow at hline
                obtain ⟨cells, hcells, _⟩ := except_bind_ok.mp hline
                obtain ⟨c, hc'⟩ := mapM_can.mp ⟨cells, hcells⟩ _ ((hkeys _).mpr ⟨_, hf, rfl⟩)
                rw [(hcell _ _ _).mpr ho] at hc'
                cases hc'
/-- the texts of a dataset that consists of columns -/
theorem parts_of_cols {d : Dataset} {cols : List CsvCol} (hf : d.fields = cols.flatMap (·.fields)) (hok : ∀ c ∈ cols, c.Ok)
    {f : FieldData} (h : f ∈ d.fields) {k index : Str} (ht : TextPart f k index) :
    ∃ n j, CsvCol.text k n ∈ cols ∧ j < n ∧ index = natDec j := by
  rw [hf] at h
  obtain ⟨c, hc, h⟩ := List.mem_flatMap.mp h
  have hcok := hok c hc
  cases c with
  | scalar g =>
    cases List.mem_singleton.mp h
    exact absurd ⟨k, index, ht.2.2.1⟩ (hcok.2 ht.2.1)
  | pad g =>
    cases List.mem_singleton.mp h
    exact absurd hcok ht.1
  | text name n =>
    obtain ⟨j, hj, rfl⟩ := List.mem_map.mp h
    have h1 := (arrayPattern_iff.mpr ht.2.2)
    rw [arrayPattern_elem hcok.2.2] at h1
    cases h1
    exact ⟨n, j, hc, List.mem_range.mp hj, rfl⟩

theorem textPart_elem {d : Dataset} {cols : List CsvCol} (hf : d.fields = cols.flatMap (·.fields)) (hok : ∀ c ∈ cols, c.Ok)
    {k : Str} {n j : Nat} (h : CsvCol.text k n ∈ cols) (hj : j < n) :
    (⟨elemName k j, .char⟩ : FieldData) ∈ d.fields ∧ TextPart ⟨elemName k j, .char⟩ k (natDec j) := by
  refine ⟨?_, ?_, rfl, arrayPattern_iff.mp (arrayPattern_elem (hok _ h).2.2)⟩
  · rw [hf]
    exact List.mem_flatMap.mpr ⟨_, h, List.mem_map.mpr ⟨j, List.mem_range.mpr hj, rfl⟩⟩
  · obtain ⟨_, h2, _⟩ := hok _ h
    unfold Padding elemName
    intro hc
    apply h2
    have hlen : (py! "_padding").length ≤ k.length ∨ k.length < (py! "_padding").length := by omega
    rcases hlen with hl | hl
    · exact List.prefix_of_prefix_length_le hc (by rw [List.append_assoc, List.append_assoc]; exact List.prefix_append _ _) hl
    · -- the bracket would be part of the prefix
      exfalso
      obtain ⟨t, ht⟩ := hc
      have := congrArg (fun l => l[k.length]?) ht
      simp only at this
      rw [List.getElem?_append_left (by omega), List.append_assoc, List.append_assoc,
        List.getElem?_append_right (Nat.le_refl _), Nat.sub_self] at this
      have hm : '[' ∈ py! "_padding" := List.mem_of_getElem? this
      revert hm
      decide

/-- **C96**, for the datasets of a loaded log whose fields are named and whose texts are complete: ulog2csv fails only if a
bound of the window is not reached, or at a byte of 128 or more in a text. -/
theorem C96_loaded {fuel : Nat} {cfg : Cfg} {bs : Bytes} {u : ULog} (h : load fuel cfg bs = .ok u) {d : Dataset}
    (hd : d ∈ u.dataList) {cols : List CsvCol} (hf : d.fields = cols.flatMap (·.fields)) (hok : ∀ c ∈ cols, c.Ok)
    (hnm : ∀ f ∈ d.fields, f.name ≠ []) {t : BT} (hts : CsvCol.scalar ⟨py! "timestamp", t⟩ ∈ cols)
    (timeS timeE : Option Int) (e : PyErr) :
    CsvObstacle timeS timeE d e ↔ ∃ column, d.data.get? (py! "timestamp") = some column ∧
      ((e = .indexError ∧ (NotReached column timeS ∨ NotReached column timeE)) ∨
       (e = .valueError ∧ ∃ i k n j, RowInWindow column timeS timeE i ∧ CsvCol.text k n ∈ cols ∧ j < n ∧
        (∀ j' < j, ∃ c : Int, ReadAt d (elemName k j') i (.int c) ∧ 0 < c ∧ c < 128) ∧
        ∃ c : Int, ReadAt d (elemName k j) i (.int c) ∧ c < 0)) := by
  obtain ⟨n, hn, hlen, hcol⟩ := (loaded_data h hd).rows
  have htf : (⟨py! "timestamp", t⟩ : FieldData) ∈ d.fields := by
    rw [hf]
    exact List.mem_flatMap.mpr ⟨_, hts, List.mem_singleton.mpr rfl⟩
  obtain ⟨column, hc, hcl, _⟩ := hcol _ htf (hnm _ htf)
  have hrow : ∀ {i}, RowInWindow column timeS timeE i → i < n := by
    rintro i ⟨s, m, _, h2, _, h4⟩
    have := boundRow_le h2
    omega
  have hint : ∀ j : Nat, IntText (natDec j) (j : Int) := fun j => (C61_int _ _).mp (pyInt_natDec j)
  have hint' : ∀ {j : Nat} {m : Int}, IntText (natDec j) m → m = j := fun {j m} hm => by
    have := (C61_int _ _).mpr hm
    rw [pyInt_natDec] at this
    exact (Except.ok.inj this).symm
  have hhead : HasHeader d.fields (py! "timestamp") := by
    refine .inl ⟨_, htf, (hok _ hts).1, fun a b ht => ?_, rfl⟩
    exact absurd ⟨a, b, ht.2.2.1⟩ ((hok _ hts).2 ht.2.1)
  -- columns of fields can be read
  have hread : ∀ {f}, f ∈ d.fields → ∀ {i e}, i < n → ¬ ReadObstacle d f.name i e := by
    intro f hf' i e hi ho
    obtain ⟨col, h1, h2, _⟩ := hcol f hf' (hnm f hf')
    cases ho with
    | missing h3 => rw [h1] at h3; cases h3
    | short h3 h4 => rw [h1] at h3; cases h3; omega
  constructor
  · intro ho
    refine ⟨column, hc, ?_⟩
    cases ho with
    | noTime h => rw [hc] at h; cases h
    | index hf' ht hno =>
      obtain ⟨m, j, _, _, rfl⟩ := parts_of_cols hf hok hf' ht
      exact absurd (hint j) (hno _)
    | noHeader h => exact absurd hhead h
    | bound h hb => rw [hc] at h; cases h; exact .inl ⟨rfl, hb⟩
    | @cell _ _ name _ h hr hk ho =>
      rw [hc] at h
      cases h
      have hi := hrow hr
      cases ho with
      | plain hno ho =>
        exfalso
        rcases hk with ⟨f, hf', _, _, rfl⟩ | ⟨f, hf', index, ht, _⟩
        · exact hread hf' hi ho
        · exact hno ⟨f, hf', index, ht⟩
      | @text j' _ _ hp hle hb ho =>
        obtain ⟨f, hf', index, ht, hm⟩ := hp
        obtain ⟨m, j, htext, hj, rfl⟩ := parts_of_cols hf hok hf' ht
        cases hint' hm
        have hj' : j' < m := by omega
        obtain ⟨hmem, _⟩ := textPart_elem hf hok htext hj'
        obtain ⟨col, h1, h2, h3⟩ := hcol _ hmem (hnm _ hmem)
        have hchar : ∀ {v i}, ReadAt d (elemName name j') i v → ∃ k : Int, v = .int k ∧ k < 128 := by
          rintro v i ⟨col', h4, h5⟩
          rw [h1] at h4
          cases h4
          have := h3 v (List.mem_of_getElem? h5)
          rwa [if_pos rfl] at this
        cases ho with
        | read ho => exact absurd ho (hread hmem hi)
        | negative hr' hneg => exact .inr ⟨rfl, _, _, m, j', hr, htext, hj', hb, _, hr', hneg⟩
        | float hr' hno _ =>
          obtain ⟨k, hk, _⟩ := hchar hr'
          exact absurd hk (hno k)
        | large hr' hbig =>
          obtain ⟨k, hk, _⟩ := hchar hr'
          cases hk
          omega
  · rintro ⟨column', hc', ⟨rfl, hb⟩ | ⟨rfl, i, k, m, j, hr, htext, hj, hb, c, hread', hneg⟩⟩
    · exact .bound hc' hb
    · obtain ⟨hmem, hpart⟩ := textPart_elem hf hok htext hj
      obtain ⟨hmem0, hpart0⟩ := textPart_elem hf hok htext (j := 0) (by omega)
      exact .cell hc' hr (.inr ⟨_, hmem0, _, hpart0, hint 0⟩)
        (.text (j := j) (n := j) ⟨_, hmem, _, hpart, hint j⟩ (by omega) hb (.negative hread' hneg))

/-- the errors of a bound -/
theorem windowBound_error {column : List NpVal} {dflt : Nat} {b : Option Int} {e : PyErr}
    (h : windowBound column dflt b = .error e) :
    e = .indexError ∨ (e = .overflowError ∧ ∃ s, b = some s ∧ 2 ^ 1024 - 2 ^ 970 ≤ s.natAbs) := by
  unfold windowBound at h
  cases b with
  | none => cases h
  | some s =>
    dsimp only at h
    split at h
    · unfold firstReached at h
      rcases except_bind_error.mp h with h | ⟨x, _, h⟩
      · have he : e = .overflowError := by
          unfold micros at h
          dsimp only at h
          split at h <;> cases h
          rfl
        subst he
        exact .inr ⟨rfl, s, rfl, (round64_inf _).mp ((micros_overflow s).mp h)⟩
      · unfold pyIndex at h
        split at h
        · cases h
        · cases h; exact .inl rfl
    · cases h

theorem windowBound_huge {column : List NpVal} {dflt : Nat} {s : Int} (hs : 2 ^ 1024 - 2 ^ 970 ≤ s.natAbs) :
    windowBound column dflt (some s) = .error .overflowError := by
  unfold windowBound firstReached
  have h0 : s ≠ 0 := fun h => by
    rw [h] at hs
    exact absurd hs (by decide +kernel)
  dsimp only
  rw [if_pos h0, (micros_overflow s).mpr ((round64_inf _).mpr hs)]
  rfl

/-- **C96**, bounds that are too large for a float (from 2^1024 - 2^970 on, numbers of 309 digits): OverflowError, before
any row is looked at, and only for them -/
theorem C96_huge {fmt : NpVal → Str} {delim : Str} {timeE : Option Int} {d : Dataset} {column : List NpVal} {s : Int}
    (hc : d.data.get? (py! "timestamp") = some column) :
    (2 ^ 1024 - 2 ^ 970 ≤ s.natAbs → (∀ f ∈ d.fields, ∀ a b, TextPart f a b → ∃ n, IntText b n) →
      HasHeader d.fields (py! "timestamp") → csvFile fmt delim (some s) timeE d = .error .overflowError) ∧
    (s.natAbs < 2 ^ 1024 - 2 ^ 970 → (∀ t, timeE = some t → t.natAbs < 2 ^ 1024 - 2 ^ 970) →
      window column (some s) timeE ≠ .error .overflowError) := by
  constructor
  · intro hs h1 h2
    unfold csvFile dictGet
    rw [hc]
    dsimp only
    rw [ok_bind]
    cases hg : getFields d with
    | error e =>
      obtain ⟨_, ⟨f, hf, a, b, ht, hno⟩ | hno⟩ := (getFields_cases d).1 e hg
      · obtain ⟨n, hn⟩ := h1 f hf a b ht
        exact absurd hn (hno n)
      · exact absurd h2 hno
    | ok ks =>
      rw [ok_bind]
      unfold window
      rw [windowBound_huge hs]
      rfl
  · intro hs ht hw
    unfold window at hw
    rcases except_bind_error.mp hw with hw | ⟨_, _, hw⟩
    · rcases windowBound_error hw with h | ⟨_, s', h, hle⟩
      · cases h
      · cases h; exact absurd hs (Nat.not_lt.mpr hle)
    · rcases except_bind_error.mp hw with hw | ⟨_, _, hw⟩
      · rcases windowBound_error hw with h | ⟨_, s', h, hle⟩
        · cases h
        · exact absurd (ht _ h) (Nat.not_lt.mpr hle)
      · cases hw

/-! ### examples -/

/-- the error of a result -/
def Sample.errorOf {α : Type} : Except PyErr α → Option PyErr
  | .error e => some e
  | .ok _ => none

/-- a dataset with two fields and these columns -/
def Sample.csvBad (fields : List FieldData) (data : Dict Str (List NpVal)) : Dataset :=
  { multiId := 0, msgId := 1, name := py! "a", fields, tsIdx := 0, data }

/-- no timestamp -/
example : Sample.errorOf (csvFile Sample.fmt (py! ",") none none (Sample.csvBad [⟨py! "x", .u8⟩] [(py! "x", [.int 1])]))
    = some .keyError := by decide +kernel

/-- an index that is not a number -/
example : Sample.errorOf (csvFile Sample.fmt (py! ",") none none
    (Sample.csvBad [⟨py! "timestamp", .u64⟩, ⟨py! "x[y]", .char⟩] [(py! "timestamp", [.int 1]), (py! "x[y]", [.int 1])]))
    = some .valueError := by decide +kernel

/-- a timestamp that is not converted, because it is the second element of a text -/
example : Sample.errorOf (csvFile Sample.fmt (py! ",") none none
    (Sample.csvBad [⟨py! "timestamp[1]", .char⟩] [(py! "timestamp", [.int 1])]))
    = some .valueError := by decide +kernel

/-- a window that starts after the last row -/
example : Sample.errorOf (csvFile Sample.fmt (py! ",") (some 1) none
    (Sample.csvBad [⟨py! "timestamp", .u64⟩] [(py! "timestamp", [.int 999999])]))
    = some .indexError := by decide +kernel

/-- a text with a gap -/
example : Sample.errorOf (csvFile Sample.fmt (py! ",") none none
    (Sample.csvBad [⟨py! "timestamp", .u64⟩, ⟨py! "s[0]", .char⟩, ⟨py! "s[2]", .char⟩]
      [(py! "timestamp", [.int 1]), (py! "s[0]", [.int 65]), (py! "s[2]", [.int 66])]))
    = some .keyError := by decide +kernel

/-- no exception if the text ends before the gap -/
example : (csvFile Sample.fmt (py! ",") none none
    (Sample.csvBad [⟨py! "timestamp", .u64⟩, ⟨py! "s[0]", .char⟩, ⟨py! "s[2]", .char⟩]
      [(py! "timestamp", [.int 1]), (py! "s[0]", [.int 0]), (py! "s[2]", [.int 66])])).toOption
    = some (py! "timestamp,s\n1,\n") := by decide +kernel

/-- an element of a text that is a float -/
example : Sample.errorOf (csvFile Sample.fmt (py! ",") none none
    (Sample.csvBad [⟨py! "timestamp", .u64⟩, ⟨py! "s[0]", .f32⟩, ⟨py! "s[00]", .char⟩]
      [(py! "timestamp", [.int 1]), (py! "s[0]", [.f32 0x3f800000]), (py! "s[00]", [.int 66])]))
    = some .typeError := by decide +kernel

/-- a bound of 400 digits -/
example : Sample.errorOf (csvFile Sample.fmt (py! ",") (some (10 ^ 400)) none
    (Sample.csvBad [⟨py! "timestamp", .u64⟩] [(py! "timestamp", [.int 1])])) = some .overflowError := by decide +kernel

/-- the hypotheses of `C96_loaded` and `C96_convert` are met: a loaded log with a text, which cannot be converted -/
example : ∃ bs u d, ∃ cols : List CsvCol, load 20 {} bs = .ok u ∧ d ∈ u.dataList ∧ d.fields = cols.flatMap (·.fields) ∧
    (∀ c ∈ cols, c.Ok) ∧ (∀ f ∈ d.fields, f.name ≠ []) ∧ CsvCol.scalar ⟨py! "timestamp", .u64⟩ ∈ cols ∧
    CsvObstacle none none d .valueError ∧
    (∀ column, d.data.get? (py! "timestamp") = some column → ExactColumn column none ∧ ExactColumn column none) := by
  have hok : ∀ c ∈ [CsvCol.scalar ⟨py! "timestamp", .u64⟩, .text (py! "s") 2], c.Ok := by
    intro c hc
    simp only [List.mem_cons, List.not_mem_nil, or_false] at hc
    rcases hc with rfl | rfl
    · exact ⟨by decide, fun h => by cases h⟩
    · exact ⟨by decide, by decide, by decide⟩
  have hl : load 20 {} (Sample.texts 200) = .ok (Sample.get (load 20 {} (Sample.texts 200))) := by decide +kernel
  have hd : (Sample.get (load 20 {} (Sample.texts 200))).dataList[1]? = some
      { multiId := 0, msgId := 1, name := py! "b",
        fields := [⟨py! "timestamp", .u64⟩, ⟨py! "s[0]", .char⟩, ⟨py! "s[1]", .char⟩], tsIdx := 0,
        data := [(py! "timestamp", [.int 7, .int 8]), (py! "s[0]", [.int 111, .int (-56)]),
          (py! "s[1]", [.int 107, .int 107])] } := by decide +kernel
  refine ⟨Sample.texts 200, _, _, [.scalar ⟨py! "timestamp", .u64⟩, .text (py! "s") 2], hl, List.mem_of_getElem? hd, by decide +kernel,
    hok, by decide, by simp, ?_, fun column _ => ⟨fun s h => (by cases h), fun s h => (by cases h)⟩⟩
  rw [C96_loaded hl (List.mem_of_getElem? hd) (cols := [.scalar ⟨py! "timestamp", .u64⟩, .text (py! "s") 2]) (by decide +kernel) hok
    (by decide) (t := .u64) (by simp)]
  exact ⟨_, rfl, .inr ⟨rfl, 1, py! "s", 2, 0, ⟨0, 2, rfl, rfl, by decide, by decide⟩, by simp, by decide,
    fun j' h => (by omega), -56, ⟨_, rfl, rfl⟩, by decide⟩⟩

/-- the same log is not extracted if the topic is misspelt, and with a window after the last row -/
example : ExtractObstacle (Sample.get (load 20 {} (Sample.texts 200))) (py! "c") none none .attributeError :=
  .noTopic (by decide +kernel)

end PyULog
