import Verif.Model.Names
import Verif.Props.Csv
import Verif.Props.Filter
import Verif.Props.KmlDoc
import Verif.Lemmas.Attitude
/-
Property theorems: C78 (names of output files), C79 (chosen messages), C80 (tools that load only some
messages).
-/
namespace PyULog
open Spec

/-! ### file names -/

/-- the ending `.ulg`, in upper or lower case -/
def Spec.UlgExt (e : Str) : Prop :=
  ∃ u l g, (u = 'u' ∨ u = 'U') ∧ (l = 'l' ∨ l = 'L') ∧ (g = 'g' ∨ g = 'G') ∧ e = ['.', u, l, g]

/-- `stem` is the name without the ending, if it has one -/
def Spec.Stem (name stem : Str) : Prop :=
  (∃ e, UlgExt e ∧ name = stem ++ e) ∨ (stem = name ∧ ¬ ∃ s e, UlgExt e ∧ name = s ++ e)

/-- the folder as the beginning of a path -/
def Spec.folder (o : Str) : Str := if o.getLast? = some '/' then o else o ++ ['/']

/-- the beginning of a path: empty or up to a slash -/
def Spec.Dir (d : Str) : Prop := d = [] ∨ ∃ p, d = p ++ ['/']

theorem endsUlg_ext {s e : Str} (h : UlgExt e) : endsUlg (s ++ e) = true := by
  obtain ⟨u, l, g, hu, hl, hg, rfl⟩ := h
  unfold endsUlg
  rw [List.reverse_append]
  show (isForm 'g' 'G' g && isForm 'l' 'L' l && isForm 'u' 'U' u && decide ('.' = '.')) = true
  rcases hu with rfl | rfl <;> rcases hl with rfl | rfl <;> rcases hg with rfl | rfl <;> decide

theorem ext_of_endsUlg {s : Str} (h : endsUlg s = true) : ∃ t e, UlgExt e ∧ s = t ++ e := by
  unfold endsUlg at h
  split at h
  · rename_i g l u d r heq
    simp only [isForm, Bool.and_eq_true, Bool.or_eq_true, decide_eq_true_eq] at h
    obtain ⟨⟨⟨hg, hl⟩, hu⟩, hd⟩ := h
    refine ⟨r.reverse, ['.', u, l, g], ⟨u, l, g, hu, hl, hg, rfl⟩, ?_⟩
    have := congrArg List.reverse heq
    rw [List.reverse_reverse] at this
    rw [this, hd]
    simp
  · exact absurd h (by decide)

theorem stripUlg_of {s stem : Str} (h : Stem s stem) : stripUlg s = stem := by
  unfold stripUlg
  rcases h with ⟨e, he, rfl⟩ | ⟨rfl, hn⟩
  · rw [if_pos (endsUlg_ext he)]
    obtain ⟨u, l, g, _, _, _, rfl⟩ := he
    simp
  · rw [if_neg fun hc => hn (ext_of_endsUlg hc)]

theorem ulgExt_clean {e : Str} (h : UlgExt e) : '/' ∉ e := by
  obtain ⟨u, l, g, hu, hl, hg, rfl⟩ := h
  rcases hu with rfl | rfl <;> rcases hl with rfl | rfl <;> rcases hg with rfl | rfl <;> decide

theorem suffix_after {d f s e : Str} (hd : Dir d) (he : '/' ∉ e) (h : d ++ f = s ++ e) : ∃ t, f = t ++ e := by
  rcases hd with rfl | ⟨p, rfl⟩
  · exact ⟨s, h⟩
  · rw [List.append_assoc, List.append_eq_append_iff] at h
    rcases h with ⟨a, h1, h2⟩ | ⟨c, h1, h2⟩
    · cases a with
      | nil =>
        rw [List.nil_append] at h2
        exact absurd (h2 ▸ (by simp : '/' ∈ ['/'] ++ f)) he
      | cons x a =>
        injection h2 with _ h2
        exact ⟨a, by simpa using h2⟩
    · have : '/' ∈ e := by rw [h2]; simp
      exact absurd this he

theorem stem_dir {d f b : Str} (hd : Dir d) (h : Stem f b) : Stem (d ++ f) (d ++ b) := by
  rcases h with ⟨e, he, rfl⟩ | ⟨rfl, hn⟩
  · exact Or.inl ⟨e, he, by simp⟩
  · refine Or.inr ⟨rfl, ?_⟩
    rintro ⟨s, e, he, h⟩
    obtain ⟨t, ht⟩ := suffix_after hd (ulgExt_clean he) h
    exact hn ⟨t, e, he, ht⟩

theorem stem_clean {f b : Str} (hf : '/' ∉ f) (h : Stem f b) : '/' ∉ b := by
  rcases h with ⟨e, _, rfl⟩ | ⟨rfl, _⟩
  · exact fun hc => hf (by simp [hc])
  · exact hf

theorem baseName_dir {d f : Str} (hd : Dir d) (hf : '/' ∉ f) : baseName (d ++ f) = f := by
  unfold baseName
  rw [List.reverse_append]
  have hall : ∀ c ∈ f.reverse, decide (c ≠ '/') = true := fun c hc => by
    rw [decide_eq_true_eq]
    exact fun e => hf (e ▸ List.mem_reverse.mp hc)
  rw [List.takeWhile_append_of_pos hall]
  rcases hd with rfl | ⟨p, rfl⟩
  · simp
  · simp

theorem pathJoin_folder {o b : Str} (ho : o ≠ []) (hb : '/' ∉ b) : pathJoin o b = folder o ++ b := by
  unfold pathJoin folder
  have h1 : startsWith (py! "/") b = false := by
    cases b with
    | nil => rfl
    | cons c b =>
      have : c ≠ '/' := fun e => hb (by simp [e])
      simp [startsWith, List.isPrefixOf, Ne.symm this]
  rw [if_neg (by rw [h1]; decide)]
  have h2 : pyEndsWith (py! "/") o = true ↔ o.getLast? = some '/' := by
    rw [pyEndsWith_iff, List.getLast?_eq_some_iff]
  by_cases h : o.getLast? = some '/'
  · rw [if_pos (Or.inr (h2.mpr h)), if_pos h]
  · rw [if_neg fun hc => hc.elim ho fun hc => h (h2.mp hc), if_neg h]

/-- the file name of a topic: prefix, topic with `_` for slashes, instance -/
def Spec.csvFileName (pre name : Str) (multiId : Nat) : Str :=
  pre ++ py! "_" ++ (name.map fun c => if c = '/' then '_' else c) ++ py! "_" ++ natDec multiId ++ py! ".csv"

theorem csvName_eq (pre : Str) (d : Dataset) : csvName pre d = csvFileName pre d.name d.multiId := by
  unfold csvName csvFileName replaceSlash
  simp

/-- where the files go: the output folder, if there is one -/
def Spec.placed (d : Str) : Option Str → Str
  | none => d
  | some o => if o = [] then d else folder o

theorem csvPrefix_spec {d f b : Str} (hd : Dir d) (hf : '/' ∉ f) (hb : Stem f b) (output : Option Str) :
    csvPrefix (d ++ f) output = placed d output ++ b := by
  have hs := stripUlg_of (stem_dir hd hb)
  unfold csvPrefix placed
  rw [hs]
  cases output with
  | none => rfl
  | some o =>
    by_cases ho : o = []
    · simp only [ho, if_true]
    · dsimp only
      rw [if_neg ho, if_neg ho, baseName_dir hd (stem_clean hf hb), pathJoin_folder ho (stem_clean hf hb)]

theorem mem_keys_set {α : Type} (d : Dict Str α) (k : Str) (v : α) (n : Str) :
    n ∈ (d.set k v).keys ↔ n = k ∨ n ∈ d.keys := by
  by_cases h : k ∈ d.keys
  · rw [Dict.keys_set, if_pos h]
    exact ⟨Or.inr, fun x => x.elim (fun e => e ▸ h) id⟩
  · rw [Dict.set_of_not_mem _ _ _ h]
    simp only [Dict.keys, List.map_append, List.mem_append, List.map_cons, List.map_nil, List.mem_singleton]
    exact Or.comm

theorem convertCsv_keys {fmt : NpVal → Str} {pre delim : Str} {timeS timeE : Option Int} {u : ULog}
    {files : Dict Str Str} (h : convertCsv fmt pre delim timeS timeE u = .ok files) {n : Str} :
    n ∈ files.keys ↔ ∃ x ∈ u.dataList, n = csvFileName pre x.name x.multiId := by
  unfold convertCsv at h
  have key : ∀ (l : List Dataset) (acc : Dict Str Str), l.foldlM (fun files d => do
      let text ← csvFile fmt delim timeS timeE d
      .ok (files.set (csvName pre d) text)) acc = Except.ok (ε := PyErr) files →
      (n ∈ files.keys ↔ n ∈ acc.keys ∨ ∃ x ∈ l, n = csvFileName pre x.name x.multiId) := by
    intro l
    induction l with
    | nil =>
      intro acc h
      injection h with h
      simp [h]
    | cons d l ih =>
      intro acc h
      rw [List.foldlM_cons] at h
      obtain ⟨acc', h1, h⟩ := except_bind_ok.mp h
      obtain ⟨text, _, h1⟩ := except_bind_ok.mp h1
      injection h1 with h1
      rw [ih acc' h, ← h1, mem_keys_set, csvName_eq]
      simp only [List.mem_cons, exists_eq_or_imp]
      constructor
      · rintro ((h | h) | h)
        · exact Or.inr (Or.inl h)
        · exact Or.inl h
        · exact Or.inr (Or.inr h)
      · rintro (h | h | h)
        · exact Or.inl (Or.inr h)
        · exact Or.inl (Or.inl h)
        · exact Or.inr h
  rw [key _ _ h]
  simp [Dict.keys]

/-- **C78**, CSV: the file `d/f` is converted to files `p/b_topic_instance.csv`, one for each dataset, where
`b` is the name without the ending and `p` is the output folder, or the folder of the file. The rest of
the name has no slash, so all files are in this folder. -/
theorem C78_csv {fmt : NpVal → Str} {fuel : Nat} {cfg : Cfg} {d f b : Str} {bs : Bytes}
    {messages output : Option Str} {delim : Str} {timeS timeE : Option Int} {files : Dict Str Str}
    (hd : Dir d) (hf : '/' ∉ f) (hb : Stem f b) {u : ULog}
    (hu : load fuel { cfg with filter := messageFilter messages } bs = .ok u)
    (h : ulog2csv fmt fuel cfg (d ++ f) bs messages output delim timeS timeE = some (.ok files)) (n : Str) :
    n ∈ files.keys ↔ ∃ x ∈ u.dataList, ∃ rest,
      n = placed d output ++ rest ∧ rest = csvFileName b x.name x.multiId ∧ '/' ∉ rest := by
  unfold ulog2csv at h
  rw [hu] at h
  injection h with h
  rw [convertCsv_keys h]
  constructor
  · rintro ⟨x, hx, rfl⟩
    refine ⟨x, hx, _, ?_, rfl, ?_⟩
    · rw [csvPrefix_spec hd hf hb]
      simp only [csvFileName, List.append_assoc]
    · unfold csvFileName
      simp only [List.mem_append, not_or]
      refine ⟨⟨⟨⟨⟨stem_clean hf hb, by decide⟩, ?_⟩, by decide⟩, natDec_not_mem _ (by unfold isDigitC; decide)⟩,
        by decide⟩
      simp only [List.mem_map, not_exists, not_and]
      intro c _
      split
      · decide
      · exact fun e => by contradiction
  · rintro ⟨x, hx, rest, rfl, rfl, _⟩
    refine ⟨x, hx, ?_⟩
    rw [csvPrefix_spec hd hf hb]
    simp only [csvFileName, List.append_assoc]

theorem intDec_inj {a b : Int} (h : intDec a = intDec b) : a = b := by
  have hm : ∀ n, '-' ∉ natDec n := fun n => natDec_not_mem n (by unfold isDigitC; decide)
  unfold intDec at h
  split at h <;> split at h
  · injection h with _ h
    have := natDec_inj h
    omega
  · exact absurd (h ▸ List.mem_cons_self) (hm _)
  · exact absurd (h.symm ▸ List.mem_cons_self) (hm _)
  · have := natDec_inj h
    omega

/-- **C78**, GPS dump: the two files are named after the file and the instance; they are in the output
folder, or in the current folder. -/
theorem C78_gps {d f b : Str} (hd : Dir d) (hf : '/' ∉ f) (hb : Stem f b) (output : Option Str)
    (ho : output ≠ some []) (i : Int) :
    gpsNames (d ++ f) output i =
      (placed [] output ++ b ++ py! "_" ++ intDec i ++ py! "_to_device.dat",
        placed [] output ++ b ++ py! "_" ++ intDec i ++ py! "_from_device.dat") := by
  unfold gpsNames
  rw [baseName_dir hd hf, stripUlg_of hb]
  cases output with
  | none => rfl
  | some o =>
    have ho : o ≠ [] := fun e => ho (by rw [e])
    have hp : placed [] (some o) = folder o := if_neg ho
    rw [hp]
    dsimp only
    rw [pathJoin_folder ho (stem_clean hf hb)]

/-- **C78**, GPS dump: the two streams have different files, and so have different instances. -/
theorem C78_gps_distinct (name : Str) (output : Option Str) (i j : Int) :
    (gpsNames name output i).1 ≠ (gpsNames name output j).2 ∧
    ((gpsNames name output i).1 = (gpsNames name output j).1 → i = j) ∧
    ((gpsNames name output i).2 = (gpsNames name output j).2 → i = j) := by
  refine ⟨fun h => ?_, fun h => ?_, fun h => ?_⟩
  · have := congrArg (fun s : Str => s.reverse.take 14) h
    unfold gpsNames at this
    simp at this
  · exact intDec_inj (List.append_cancel_left (List.append_cancel_right h))
  · exact intDec_inj (List.append_cancel_left (List.append_cancel_right h))

theorem pySplit_parts {c : Char} (s : Str) : ∀ x ∈ pySplit c s, c ∉ x := by
  induction s with
  | nil => simp [pySplit]
  | cons a s ih =>
    rw [pySplit]
    by_cases h : a = c
    · rw [if_pos h]
      intro x hx
      rcases List.mem_cons.mp hx with rfl | hx
      · simp
      · exact ih x hx
    · rw [if_neg h]
      split
      · rename_i y t heq
        rw [heq] at ih
        intro x hx
        rcases List.mem_cons.mp hx with rfl | hx
        · intro hc
          rcases List.mem_cons.mp hc with hc | hc
          · exact h hc.symm
          · exact ih y (by simp) hc
        · exact ih x (by simp [hx])
      · intro x hx
        rw [List.mem_singleton.mp hx]
        simpa using fun e => h e.symm

theorem pySplit_last {c : Char} {d f : Str} (hf : c ∉ f) : ∃ l, pySplit c (d ++ c :: f) = l ++ [f] := by
  induction d with
  | nil => exact ⟨[[]], by rw [List.nil_append, pySplit, if_pos rfl, pySplit_clean hf]; rfl⟩
  | cons a d ih =>
    obtain ⟨l, hl⟩ := ih
    rw [List.cons_append, pySplit, hl]
    split
    · exact ⟨[] :: l, rfl⟩
    · cases l with
      | nil =>
        exfalso
        have := congrArg List.length hl
        have h2 : ∀ s : Str, c ∈ s → 2 ≤ (pySplit c s).length := by
          intro s
          induction s with
          | nil => simp
          | cons x s ih =>
            intro hc
            have h1 : 1 ≤ (pySplit c s).length := by
              cases s with
              | nil => simp [pySplit]
              | cons y s =>
                rw [pySplit]
                split
                · simp
                · split <;> simp
            rw [pySplit]
            split
            · simp only [List.length_cons]; omega
            · rename_i hx
              have hc : c ∈ s := by
                rcases List.mem_cons.mp hc with e | e
                · exact absurd e.symm hx
                · exact e
              have := ih hc
              split
              · rename_i heq
                rw [heq] at this
                simpa using this
              · rename_i heq
                rw [heq] at this
                simp at this
        have h3 := h2 (d ++ c :: f) (by simp)
        rw [this] at h3
        simp at h3
      | cons x l => exact ⟨(a :: x) :: l, rfl⟩

theorem pathName_dir {d f : Str} (hd : Dir d) (hf : '/' ∉ f) (h0 : f ≠ []) (h1 : f ≠ py! ".") :
    pathName (d ++ f) = f := by
  have hk : (decide (f ≠ []) && decide (f ≠ py! ".")) = true := by simp [h0, h1]
  have hl : ∃ l, pySplit '/' (d ++ f) = l ++ [f] := by
    rcases hd with rfl | ⟨p, rfl⟩
    · exact ⟨[], by rw [List.nil_append, pySplit_clean hf]; rfl⟩
    · obtain ⟨l, hl⟩ := pySplit_last (d := p) hf
      exact ⟨l, by rw [← hl]; simp⟩
  obtain ⟨l, hl⟩ := hl
  unfold pathName
  rw [hl, List.filter_append]
  have : [f].filter (fun c => decide (c ≠ []) && decide (c ≠ py! ".")) = [f] := by
    rw [List.filter_cons, if_pos hk]; rfl
  rw [this, List.getLast?_append]
  rfl

/-- **C78**, bag: without a name, the bag of the file `d/f` is `rosbag_` and the name of the file without
`.ulg` (in lower case only); otherwise it has the given name. The empty name counts as none. -/
theorem C78_bag {d f : Str} (hd : Dir d) (hf : '/' ∉ f) :
    (∀ b, f = b ++ py! ".ulg" → bagName none (d ++ f) = py! "rosbag_" ++ b) ∧
    ((¬ ∃ b, f = b ++ py! ".ulg") → '\n' ∉ f → f ≠ [] → f ≠ py! "." → bagName none (d ++ f) = py! "rosbag_" ++ f) ∧
    (∀ n, n ≠ [] → bagName (some n) (d ++ f) = n) ∧ bagName (some []) (d ++ f) = bagName none (d ++ f) := by
  refine ⟨fun b hb => ?_, fun hn hl h0 h1 => ?_, fun n hn => ?_, rfl⟩
  · subst hb
    unfold bagName
    rw [pathName_dir hd hf (by simp) (fun e => by
      have := congrArg List.length e
      simp at this)]
    unfold dropUlg
    rw [if_pos ((pyEndsWith_iff _ _).mpr ⟨b, rfl⟩)]
    simp
  · unfold bagName
    rw [pathName_dir hd hf h0 h1]
    unfold dropUlg
    rw [if_neg fun hc => hn ((pyEndsWith_iff _ _).mp hc), if_neg]
    intro hc
    obtain ⟨b, rfl⟩ := (pyEndsWith_iff _ _).mp hc
    exact hl (by simp)
  · exact if_neg hn

example : csvPrefix (py! "logs/2020/flight.ULG") none = py! "logs/2020/flight" ∧
    csvPrefix (py! "logs/flight.ulg") (some (py! "out")) = py! "out/flight" ∧
    csvPrefix (py! "flight.bin") (some (py! "out/")) = py! "out/flight.bin" ∧
    gpsNames (py! "logs/flight.ulg") none (-1) = (py! "flight_-1_to_device.dat", py! "flight_-1_from_device.dat") ∧
    bagName none (py! "logs/flight.ulg") = py! "rosbag_flight" ∧
    bagName none (py! "logs/flight.ULG") = py! "rosbag_flight.ULG" := by decide +kernel

/-- the hypotheses for `logs/flight.ULG` -/
example : Dir (py! "logs/") ∧ '/' ∉ py! "flight.ULG" ∧ Stem (py! "flight.ULG") (py! "flight") :=
  ⟨Or.inr ⟨py! "logs", rfl⟩, by decide,
    Or.inl ⟨py! ".ULG", ⟨'U', 'L', 'G', Or.inr rfl, Or.inr rfl, Or.inr rfl, rfl⟩, rfl⟩⟩

/-! ### chosen messages -/

/-- no choice: everything is loaded -/
theorem C79_all : messageFilter none = .all ∧ messageFilter (some []) = .all := ⟨rfl, rfl⟩

/-- **C79**: the names in the argument, which are separated by commas, are the topics that are loaded. -/
theorem C79_names (names : List Str) (h0 : names ≠ []) (h1 : names ≠ [[]]) (hc : ∀ n ∈ names, ',' ∉ n) :
    messageFilter (some (names.intersperse [',']).flatten) = .names names := by
  unfold messageFilter
  dsimp only
  rw [if_neg, pySplit_join h0 hc]
  intro e
  have := pySplit_join h0 hc
  rw [e] at this
  exact h1 this.symm

theorem convertCsv_of {fmt : NpVal → Str} {pre delim : Str} {timeS timeE : Option Int} {u : ULog}
    {text : Dataset → Str} (ht : ∀ d ∈ u.dataList, csvFile fmt delim timeS timeE d = .ok (text d))
    (hslash : ∀ d ∈ u.dataList, '/' ∉ d.name)
    (hdist : (u.dataList.map fun d => (d.name, d.multiId)).Nodup) :
    convertCsv fmt pre delim timeS timeE u
      = .ok (u.dataList.map fun d => (csvFileName pre d.name d.multiId, text d)) := by
  have hok : ∃ files, convertCsv fmt pre delim timeS timeE u = .ok files := by
    unfold convertCsv
    generalize ([] : Dict Str Str) = acc
    generalize u.dataList = l at ht
    induction l generalizing acc with
    | nil => exact ⟨acc, rfl⟩
    | cons d l ih =>
      rw [List.foldlM_cons, ht d (by simp)]
      exact ih _ fun e he => ht e (by simp [he])
  obtain ⟨files, hfiles⟩ := hok
  obtain ⟨texts, h1, h2, _⟩ := C54_one_file_each_partial fmt pre delim timeS timeE u files hslash hdist hfiles
  have h3 : u.dataList.mapM (csvFile fmt delim timeS timeE) = .ok (u.dataList.map text) := by
    clear hslash hdist hfiles h1 h2
    generalize u.dataList = l at ht
    induction l with
    | nil => rfl
    | cons d l ih =>
      rw [List.mapM_cons, ht d (by simp), ih fun e he => ht e (by simp [he])]
      rfl
  rw [h3] at h1
  injection h1 with h1
  rw [hfiles, h2, ← h1]
  congr 1
  clear ht hslash hdist hfiles h1 h2 h3
  induction u.dataList with
  | nil => rfl
  | cons d l ih => simp only [List.map_cons, List.zip_cons_cons, ih, csvName_eq]

/-- **C79**, CSV: with chosen messages exactly the files of those topics are written, with the same
contents. The hypotheses are those of C17 (no reused ids) and C54. -/
theorem C79_csv {fmt : NpVal → Str} {fuel : Nat} {cfg : Cfg} {fileName : Str} {bs : Bytes}
    {output : Option Str} {delim : Str} {timeS timeE : Option Int} (names : List Str) (h0 : names ≠ [])
    (h1 : names ≠ [[]]) (hc : ∀ n ∈ names, ',' ∉ n) {u : ULog}
    (hu : load fuel { cfg with filter := .all } bs = .ok u)
    (hok : ∀ t ∈ fileTrace fuel { cfg with filter := .all } bs, ∀ x ∈ t, FilterOk cfg (.names names) x)
    (hslash : ∀ d ∈ u.dataList, '/' ∉ d.name)
    (hdist : (u.dataList.map fun d => (d.name, d.multiId)).Nodup) {files : Dict Str Str}
    (h : ulog2csv fmt fuel cfg fileName bs none output delim timeS timeE = some (.ok files)) :
    ∃ file : Dataset → Str × Str, files = u.dataList.map file ∧
      ulog2csv fmt fuel cfg fileName bs (some (names.intersperse [',']).flatten) output delim timeS timeE
        = some (.ok ((u.dataList.filter fun d => decide (d.name ∈ names)).map file)) := by
  unfold ulog2csv at h ⊢
  rw [C79_all.1, hu] at h
  injection h with h
  obtain ⟨texts, hm, _⟩ := C54_one_file_each_partial fmt _ delim timeS timeE u files hslash hdist h
  have ht : ∀ d ∈ u.dataList, csvFile fmt delim timeS timeE d
      = .ok ((csvFile fmt delim timeS timeE d).toOption.getD []) := by
    intro d hd
    obtain ⟨y, hy⟩ := mapM_elems hm d hd
    rw [hy]
    rfl
  obtain ⟨v, hv, hl, _⟩ := C17_filter_partial fuel cfg (.names names) bs u hu hok
  have hsub : ∀ d ∈ v.dataList, d ∈ u.dataList := fun d hd => by
    rw [hl] at hd
    exact (List.mem_filter.mp hd).1
  rw [convertCsv_of ht hslash hdist] at h
  injection h with h
  refine ⟨_, h.symm, ?_⟩
  rw [C79_names names h0 h1 hc, hv]
  show some (convertCsv _ _ _ _ _ v) = _
  rw [convertCsv_of (fun d hd => ht d (hsub d hd)) (fun d hd => hslash d (hsub d hd))
    (by rw [hl]; exact hdist.sublist ((List.filter_sublist).map _)), hl]
  rfl

theorem rosTopic_filter {l : List Dataset} {names : List Str} {d : Dataset} (hd : d.name ∈ names) :
    rosTopic (l.filter fun d => decide (d.name ∈ names)) d = rosTopic l d := by
  have : multiIds (l.filter fun d => decide (d.name ∈ names)) d.name = multiIds l d.name := by
    unfold multiIds
    rw [List.filter_filter]
    congr 1
    apply List.filter_congr
    intro e _
    by_cases he : e.name = d.name
    · simp [he, hd]
    · simp [he]
  unfold rosTopic
  rw [this]

/-- what is written for one dataset -/
def bagPart (env : RosEnv) (all : List Dataset) (d : Dataset) : Except PyErr Bag := exportTopic env all {} d

theorem exportTopic_part {env : RosEnv} {all : List Dataset} {b b' : Bag} {d : Dataset}
    (h : exportTopic env all b d = .ok b') : ∃ p, bagPart env all d = .ok p ∧
      b' = ⟨b.topics ++ p.topics, b.messages ++ p.messages⟩ := by
  unfold bagPart exportTopic at *
  obtain ⟨ts, h1, h⟩ := except_bind_ok.mp h
  rw [h1, ok_bind]
  cases ht : exportType env d with
  | none =>
    rw [ht] at h
    injection h with h
    exact ⟨{}, rfl, by rw [← h]; simp⟩
  | some p =>
    rw [ht] at h
    obtain ⟨rows, h2, h⟩ := except_bind_ok.mp h
    injection h with h
    refine ⟨_, except_bind_ok.mpr ⟨rows, h2, rfl⟩, ?_⟩
    rw [← h]
    simp

theorem exportTopic_of_part {env : RosEnv} {all : List Dataset} (b : Bag) {p : Bag} {d : Dataset}
    (h : bagPart env all d = .ok p) :
    exportTopic env all b d = .ok ⟨b.topics ++ p.topics, b.messages ++ p.messages⟩ := by
  unfold bagPart exportTopic at *
  obtain ⟨ts, h1, h⟩ := except_bind_ok.mp h
  rw [h1, ok_bind]
  cases ht : exportType env d with
  | none =>
    rw [ht] at h
    injection h with h
    rw [← h]; simp
  | some q =>
    rw [ht] at h
    obtain ⟨rows, h2, h⟩ := except_bind_ok.mp h
    injection h with h
    refine except_bind_ok.mpr ⟨rows, h2, ?_⟩
    rw [← h]
    simp

theorem exportBag_parts {env : RosEnv} {all l : List Dataset} {b bag : Bag}
    (h : l.foldlM (exportTopic env all) b = .ok bag) : ∀ d ∈ l, ∃ p, bagPart env all d = .ok p := by
  induction l generalizing b with
  | nil => intro d hd; cases hd
  | cons d l ih =>
    rw [List.foldlM_cons] at h
    obtain ⟨b', h1, h⟩ := except_bind_ok.mp h
    obtain ⟨p, hp, _⟩ := exportTopic_part h1
    intro e he
    rcases List.mem_cons.mp he with rfl | he
    · exact ⟨p, hp⟩
    · exact ih h e he

theorem exportBag_of {env : RosEnv} {all l : List Dataset} {part : Dataset → Bag} (b : Bag)
    (h : ∀ d ∈ l, bagPart env all d = .ok (part d)) : l.foldlM (exportTopic env all) b
      = .ok ⟨b.topics ++ l.flatMap fun d => (part d).topics, b.messages ++ l.flatMap fun d => (part d).messages⟩ := by
  induction l generalizing b with
  | nil => simp; rfl
  | cons d l ih =>
    rw [List.foldlM_cons, exportTopic_of_part b (h d (by simp)), ok_bind, ih _ fun e he => h e (by simp [he])]
    simp

/-- **C79**, bag: with chosen messages the bag has exactly the topics and messages of those topics, which
are the same as without the choice. -/
theorem C79_bag {env : RosEnv} {fuel : Nat} {cfg : Cfg} {fileName : Str} {bs : Bytes}
    {name : Option Str} (names : List Str) (h0 : names ≠ [])
    (h1 : names ≠ [[]]) (hc : ∀ n ∈ names, ',' ∉ n) {u : ULog}
    (hu : load fuel { cfg with filter := .all } bs = .ok u)
    (hok : ∀ t ∈ fileTrace fuel { cfg with filter := .all } bs, ∀ x ∈ t, FilterOk cfg (.names names) x)
    {n : Str} {bag : Bag} (h : ulog2bag env fuel cfg fileName bs name none = some (.ok (n, bag))) :
    ∃ part : Dataset → Bag, bag.topics = u.dataList.flatMap (fun d => (part d).topics) ∧
      bag.messages = u.dataList.flatMap (fun d => (part d).messages) ∧
      ulog2bag env fuel cfg fileName bs name (some (names.intersperse [',']).flatten) = some (.ok (n,
        ⟨(u.dataList.filter fun d => decide (d.name ∈ names)).flatMap fun d => (part d).topics,
          (u.dataList.filter fun d => decide (d.name ∈ names)).flatMap fun d => (part d).messages⟩)) := by
  unfold ulog2bag at h ⊢
  rw [C79_all.1, hu] at h
  injection h with h
  obtain ⟨b, hb, h⟩ := except_map_ok.mp h
  injection h with hn h
  subst h
  unfold exportBag at hb
  have hp : ∀ d ∈ u.dataList, bagPart env u.dataList d
      = .ok ((bagPart env u.dataList d).toOption.getD {}) := by
    intro d hd
    obtain ⟨p, hp⟩ := exportBag_parts hb d hd
    rw [hp]
    rfl
  have hb' := exportBag_of {} hp
  rw [hb] at hb'
  injection hb' with hb'
  refine ⟨_, by rw [hb']; rfl, by rw [hb']; rfl, ?_⟩
  obtain ⟨v, hv, hl, _⟩ := C17_filter_partial fuel cfg (.names names) bs u hu hok
  rw [C79_names names h0 h1 hc, hv]
  have hl : v.dataList = u.dataList.filter fun d => decide (d.name ∈ names) := hl
  have hpv : ∀ d ∈ v.dataList, bagPart env v.dataList d
      = .ok ((bagPart env u.dataList d).toOption.getD {}) := by
    intro d hd
    rw [hl] at hd
    obtain ⟨hd1, hd2⟩ := List.mem_filter.mp hd
    have : bagPart env v.dataList d = bagPart env u.dataList d := by
      unfold bagPart exportTopic
      rw [hl, rosTopic_filter (by simpa using hd2)]
    rw [this, ← hp d hd1]
  show some ((exportBag env v).map _) = _
  unfold exportBag
  rw [exportBag_of {} hpv, hl, ← hn]
  simp
  rfl

/-- **C79**, **C80**: an exception of the loader ends every tool with that exception. -/
theorem C79_raises {J : Type} {fmt : NpVal → Str} {vfmt : Value → Str} {env : RosEnv} {eenv : EventEnv EventParser J}
    {fuel : Nat} {cfg : Cfg} {fileName : Str} {bs : Bytes} {messages output name : Option Str} {delim : Str}
    {timeS timeE : Option Int} {required : Int} {o : ParamOpts} {e : PyErr} :
    (load fuel { cfg with filter := messageFilter messages } bs = .raised e →
      ulog2csv fmt fuel cfg fileName bs messages output delim timeS timeE = some (.error e) ∧
      ulog2bag env fuel cfg fileName bs name messages = some (.error e)) ∧
    (load fuel { cfg with filter := .names [py! "gps_dump"] } bs = .raised e →
      gpsTool fuel cfg bs required = some (.error e)) ∧
    (load fuel { cfg with filter := .names [py! "event"] } bs = .raised e →
      messagesTool eenv fuel cfg bs = some (.error e)) ∧
    (load fuel { cfg with filter := if o.initial then .names [] else .all } bs = .raised e →
      paramsTool vfmt fuel cfg bs o = some (.error e)) := by
  refine ⟨fun h => ⟨?_, ?_⟩, fun h => ?_, fun h => ?_, fun h => ?_⟩
  · unfold ulog2csv; rw [h]; rfl
  · unfold ulog2bag; rw [h]; rfl
  · unfold gpsTool; rw [h]; rfl
  · unfold messagesTool; rw [h]; rfl
  · unfold paramsTool; rw [h]; rfl

example : load 5 { filter := messageFilter none } [1, 2, 3] = .raised .typeError := by decide +kernel

/-! ### tools that load only some messages -/

/-- **C80**, GPS dump: the tool gives what the `gps_dump` topics of the whole log give. -/
theorem C80_gps {fuel : Nat} {cfg : Cfg} {bs : Bytes} {u : ULog}
    (hu : load fuel { cfg with filter := .all } bs = .ok u)
    (hok : ∀ t ∈ fileTrace fuel { cfg with filter := .all } bs, ∀ x ∈ t, FilterOk cfg (.names [py! "gps_dump"]) x)
    (required : Int) :
    gpsTool fuel cfg bs required
      = some (gpsDump { u with dataList := u.dataList.filter fun d => decide (d.name = py! "gps_dump") } required) := by
  obtain ⟨v, hv, hl, _⟩ := C17_filter_partial fuel cfg _ bs u hu hok
  unfold gpsTool
  rw [hv]
  have hl : v.dataList = u.dataList.filter fun d => decide (d.name = py! "gps_dump") := by
    rw [hl]
    apply List.filter_congr
    intro d _
    simp [NameFilter.accepts]
  show some (gpsDump v required) = _
  unfold gpsDump
  rw [hl]

/-- **C80**, messages: that only events are loaded does not change the lines. -/
theorem C80_messages {J : Type} (env : EventEnv EventParser J) {fuel : Nat} {cfg : Cfg} {bs : Bytes} {u : ULog}
    (hu : load fuel { cfg with filter := .all } bs = .ok u)
    (hok : ∀ t ∈ fileTrace fuel { cfg with filter := .all } bs, ∀ x ∈ t, FilterOk cfg (.names [py! "event"]) x) :
    messagesTool env fuel cfg bs = some (messageLines u (timedEvents env u)) := by
  obtain ⟨v, hv, hl, _, _, _, hi, him, _, _, hlog, _⟩ := C17_filter_partial fuel cfg _ bs u hu hok
  unfold messagesTool
  rw [hv]
  show some (messageLines v (timedEvents env v)) = _
  have hd : getDataset v (py! "event") = getDataset u (py! "event") := by
    have := topicData_filter (F := .names [py! "event"]) (name := py! "event") (by decide) hl
    have hz : ∀ e : Dataset, ((e.multiId : Int) = 0) ↔ e.multiId = 0 := fun e => by omega
    unfold getDataset
    simp only [hz]
    rw [this]
  have he : timedEvents env v = timedEvents env u := by
    unfold timedEvents getLoggedEvents getEventParser embeddedParser
    rw [hd, hi, him]
  unfold messageLines allMessages
  rw [hlog, hi, he]

/-- the tool prints times of changes although only the initial values are asked for -/
def Spec.TimedInitial (o : ParamOpts) : Prop := o.format = py! "csv" ∧ o.timestamps = true

/-- **C80**, parameters: that nothing is loaded with `--initial` does not change the text, unless times are
printed (`C80_initial_times`). -/
theorem C80_params_partial {fmt : Value → Str} {fuel : Nat} {cfg : Cfg} {bs : Bytes} {u : ULog} (o : ParamOpts)
    (hu : load fuel { cfg with filter := .all } bs = .ok u)
    (hok : ∀ t ∈ fileTrace fuel { cfg with filter := .all } bs, ∀ x ∈ t, FilterOk cfg (.names []) x)
    (ho : o.initial = true → ¬ TimedInitial o) :
    paramsTool fmt fuel cfg bs o = some (paramsText fmt o u) := by
  unfold paramsTool
  by_cases hi : o.initial = true
  · obtain ⟨v, hv, _, _, _, _, _, _, hp, hdp, _, _, hco, _, _, hch, _⟩ := C17_filter_partial fuel cfg _ bs u hu hok
    rw [if_pos hi, hv]
    show some (paramsText fmt o v) = _
    congr 1
    have hsel : selectParams o v = selectParams o u := by
      unfold selectParams getDefaults hasDefaultParameters getDefaultParameters
      rw [hp, hdp, hco]
    have htext : ∀ k x, paramText fmt o v k x = paramText fmt o u k x := by
      intro k x
      unfold paramText
      rw [hi]
      dsimp only [Bool.true_or]
      by_cases hf : o.format = py! "csv"
      · have ht : o.timestamps = false := by
          cases ht : o.timestamps with
          | false => rfl
          | true => exact absurd ⟨hf, ht⟩ (ho hi)
        rw [if_pos hf, if_pos hf, ht]
        rfl
      · rw [if_neg hf, if_neg hf]
        rfl
    unfold paramsText
    rw [hsel]
    simp only [htext]
  · rw [if_neg hi, hu]
    rfl

namespace Sample

/-- subscriptions of the sample file satisfy the hypothesis for every choice -/
theorem filterOk_any (F : NameFilter) : ∀ t ∈ fileTrace 20 {} file, ∀ x ∈ t, FilterOk {} F x := by
  have h : ∀ t ∈ fileTrace 20 {} file, ∀ x ∈ t,
      (match subscribed {} x with
       | none => true
       | some tp => decide (tsPos tp.fields + 8 ≤ rowSize tp.fields) &&
          (match x.1.subs.get? tp.msgId with
           | none => true
           | some s => decide (s.name = tp.name))) = true := by decide +kernel
  intro t ht x hx tp htp
  have := h t ht x hx
  have e : subscribed {} x = some tp := htp
  rw [e] at this
  simp only [Bool.and_eq_true, decide_eq_true_eq] at this
  refine ⟨this.1, fun s hs => ?_⟩
  have h2 := this.2
  rw [hs] at h2
  have h2 : s.name = tp.name := by simpa using h2
  rw [h2]

/-- `str` of small values -/
def fmtValue : Value → Str
  | .int n => intDec n
  | _ => py! "?"

/-- options `--initial --timestamps` -/
def timedOpts : ParamOpts := { initial := true, timestamps := true }

end Sample

theorem some_ok_of {α : Type} {x : Option (Except PyErr α)} {a : α} (h : x.bind Except.toOption = some a) :
    x = some (.ok a) := by
  cases x with
  | none => cases h
  | some r =>
    cases r with
    | error e => cases h
    | ok b => injection h with h; rw [h]

/-- The failing part of **C80**: with `--initial --timestamps` the changes are printed, with times of the
log without any messages. The changes are at 110 and 120. -/
theorem C80_initial_times :
    paramsTool Sample.fmtValue 20 {} Sample.file Sample.timedOpts
      = some (.ok (py! "K,6,8,10\ntimestamp,0,100,100\n")) ∧
    paramsText Sample.fmtValue Sample.timedOpts Sample.loaded
      = .ok (py! "K,6,8,10\ntimestamp,0,110,120\n") := by
  constructor
  · apply some_ok_of
    decide +kernel
  · apply ok_of_toOption
    decide +kernel

/-- the sample file, with and without the choice `b` -/
example : ∃ files file, ulog2csv Sample.fmt 20 {} (py! "x/log.ulg") Sample.file none none (py! ",") none none
      = some (.ok files) ∧ files = Sample.loaded.dataList.map file ∧ files.length = 2 ∧
    ulog2csv Sample.fmt 20 {} (py! "x/log.ulg") Sample.file (some (py! "b,c")) none (py! ",") none none
      = some (.ok ((Sample.loaded.dataList.filter fun d => decide (d.name ∈ [py! "b", py! "c"])).map file)) := by
  have hs : ((ulog2csv Sample.fmt 20 {} (py! "x/log.ulg") Sample.file none none (py! ",") none none).bind
      fun r => r.toOption).isSome = true := by decide +kernel
  cases h : ulog2csv Sample.fmt 20 {} (py! "x/log.ulg") Sample.file none none (py! ",") none none with
  | none => rw [h] at hs; exact absurd hs (by decide)
  | some r =>
    rw [h] at hs
    cases r with
    | error e => exact absurd hs (by simp [Except.toOption])
    | ok files =>
      obtain ⟨file, h1, h2⟩ := C79_csv (fuel := 20) (cfg := {}) (bs := Sample.file) [py! "b", py! "c"] (by simp) (by simp) (by decide) Sample.load_file
        (Sample.filterOk_any _) (by decide +kernel) (by decide +kernel) h
      refine ⟨files, file, rfl, h1, ?_, h2⟩
      rw [h1, List.length_map]
      decide +kernel

/-- a package with a type for the topic `a` -/
def Sample.bagEnv : RosEnv where
  msgType n := if n = py! "a" then some (py! "A") else none
  type _ := some ⟨[(py! "timestamp", py! "uint64"), (py! "x", py! "int16")],
    [(py! "timestamp", .plain (.num (.int 0))), (py! "x", .plain (.num (.int 0)))]⟩

/-- what the bag of the sample file has, with the given choice of messages -/
def Sample.bagOf (messages : Option Str) : Str × List (Str × Str) × Nat :=
  match ulog2bag Sample.bagEnv 20 {} (py! "x/log.ulg") Sample.file none messages with
  | some (.ok r) => (r.1, r.2.topics, r.2.messages.length)
  | _ => ([], [], 0)

example : Sample.bagOf none = (py! "rosbag_log", [(py! "/px4/a", py! "px4_msgs/msg/A")], 2) := by decide +kernel
example : Sample.bagOf (some (py! "b")) = (py! "rosbag_log", [], 0) := by decide +kernel

example : gpsTool 20 {} Sample.file 0 = some (.ok .noMessages) := by
  rw [C80_gps (fuel := 20) (cfg := {}) (bs := Sample.file) Sample.load_file (Sample.filterOk_any _) 0]
  apply some_ok_of
  decide +kernel

example : paramsTool Sample.fmtValue 20 {} Sample.file { initial := true } = some (.ok (py! "K,6\n")) := by
  rw [C80_params_partial (fuel := 20) (cfg := {}) (bs := Sample.file) { initial := true } Sample.load_file (Sample.filterOk_any _) (fun _ h => absurd h.2 (by decide))]
  apply some_ok_of
  decide +kernel

/-- no definitions of events -/
def Sample.noEvents : EventEnv EventParser Unit :=
  ⟨fun _ => true, fun _ => .error .valueError, fun _ => .ok none, fun _ => (fun _ _ => .ok none, none)⟩

example : messagesTool Sample.noEvents 20 {} Sample.file = some (.ok [py! "0:00:00 INFO: hi"]) := by
  rw [C80_messages (fuel := 20) (cfg := {}) (bs := Sample.file) _ Sample.load_file (Sample.filterOk_any _)]
  apply some_ok_of
  decide +kernel

end PyULog
