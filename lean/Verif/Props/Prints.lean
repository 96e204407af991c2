import Verif.Spec.Prints
import Verif.Props.CsvLeft
import Verif.Props.ScriptPath
import Verif.Lemmas.SqlRerun
import Verif.Props.MainEnd
/-
C100: what the converters print is what they do.
-/
namespace PyULog
open Spec

/-! ### ulog2csv -/

theorem said_announcement {pre : Str} {d : Dataset} {column : List NpVal}
    (h : dictGet d.data (py! "timestamp") = .ok column) : csvSaidLine pre d column.length = announcement pre d := by
  have hg : d.data.get? (py! "timestamp") = some column := dictGet_ok.mp h
  simp only [announcement, points, hg]
  rfl

theorem filesSaid_prefix {fmt : NpVal → Str} {pre delim : Str} {timeS timeE : Option Int} (ds : List Dataset)
    (files : Dict Str Str) :
    ∃ k, k ≤ ds.length ∧ filesSaid fmt pre delim timeS timeE ds = (ds.take k).map (announcement pre) ∧
      (∀ name, (filesLeft fmt pre delim timeS timeE ds files).1.has name = true ↔
        files.has name = true ∨ ∃ d ∈ ds.take k, csvName pre d = name) ∧
      ((filesLeft fmt pre delim timeS timeE ds files).2 = none → k = ds.length) := by
  induction ds generalizing files with
  | nil => exact ⟨0, Nat.le_refl _, rfl, fun name => by simp [filesLeft], fun _ => rfl⟩
  | cons d ds ih =>
    rw [filesSaid, filesLeft]
    cases h1 : dictGet d.data (py! "timestamp") with
    | error e =>
      have hl : fileLeft fmt delim timeS timeE d = (none, some e) := by rw [fileLeft, h1]
      rw [hl]
      exact ⟨0, Nat.zero_le _, rfl, fun name => by simp, fun h => by cases h⟩
    | ok column =>
      obtain ⟨t, o, hl⟩ : ∃ t o, fileLeft fmt delim timeS timeE d = (some t, o) := by
        rw [fileLeft, h1]
        dsimp only
        split
        · exact ⟨_, _, rfl⟩
        · split
          · exact ⟨_, _, rfl⟩
          · exact ⟨_, _, rfl⟩
      rw [hl]
      dsimp only
      cases o with
      | some e =>
        refine ⟨1, by simp, ?_, fun name => ?_, fun h => by cases h⟩
        · rw [said_announcement h1]; rfl
        · dsimp only
          rw [has_set]
          simp only [Bool.or_eq_true, decide_eq_true_eq, List.take_succ_cons, List.take_zero, List.mem_singleton,
            exists_eq_left]
          exact Or.comm
      | none =>
        obtain ⟨k, hk, h2, h3, h4⟩ := ih (files.set (csvName pre d) t)
        refine ⟨k + 1, by simp; exact hk, ?_, fun name => ?_, fun h => by rw [h4 h]; rfl⟩
        · dsimp only
          rw [said_announcement h1, h2]
          rfl
        · dsimp only
          rw [h3, has_set]
          simp only [Bool.or_eq_true, decide_eq_true_eq, List.take_succ_cons, List.mem_cons, exists_eq_or_imp]
          constructor
          · rintro ((h | h) | h)
            · exact .inr (.inl h)
            · exact .inl h
            · exact .inr (.inr h)
          · rintro (h | h | h)
            · exact .inl (.inr h)
            · exact .inl (.inl h)
            · exact .inr h

/-- **C100**, `ulog2csv`: the announced files are the datasets of the log from the first one on, each with its number of
samples. They are the files that exist afterwards, also after an exception; without exception all datasets are announced. -/
theorem C100_csv {fmt : NpVal → Str} {pre delim : Str} {timeS timeE : Option Int} {u : ULog} :
    ∃ k, k ≤ u.dataList.length ∧ filesSaid fmt pre delim timeS timeE u.dataList = (u.dataList.take k).map (announcement pre) ∧
      (∀ name, (convertLeft fmt pre delim timeS timeE u).1.has name = true ↔ ∃ d ∈ u.dataList.take k, csvName pre d = name) ∧
      ((convertLeft fmt pre delim timeS timeE u).2 = none → k = u.dataList.length) := by
  obtain ⟨k, hk, h1, h2, h3⟩ := filesSaid_prefix (fmt := fmt) (pre := pre) (delim := delim) (timeS := timeS) (timeE := timeE)
    u.dataList []
  exact ⟨k, hk, h1, fun name => (h2 name).trans (by simp [Dict.has, Dict.get?]), h3⟩

/-- two datasets, the second file is not finished, but announced -/
example : filesSaid Sample.fmt (py! "log") (py! ",") none none (Sample.get (load 20 {} (Sample.texts 200))).dataList =
    [py! "Writing log_a_0.csv (1 data points)", py! "Writing log_b_0.csv (2 data points)"] := by
  decide +kernel

theorem count_intersperse {delim : Str} (hd : '\n' ∉ delim) (l : List Str) (h : ∀ s ∈ l, '\n' ∉ s) :
    (l.intersperse delim).flatten.count '\n' = 0 := by
  rw [List.count_eq_zero, ← pyJoin_eq]
  induction l with
  | nil => simp [pyJoin]
  | cons x xs ih =>
    cases xs with
    | nil => simpa [pyJoin] using h x (by simp)
    | cons y ys =>
      rw [pyJoin]
      · simp only [List.mem_append, not_or]
        exact ⟨⟨h x (by simp), hd⟩, ih fun s hs => h s (by simp [hs])⟩
      · simp

theorem count_row {delim : Str} (hd : '\n' ∉ delim) {l : List Str} (h : ∀ s ∈ l, '\n' ∉ s) :
    (csvRow delim l).count '\n' = 1 := by
  unfold csvRow
  rw [List.count_append, count_intersperse hd l h]
  rfl

theorem mapM_count {α β : Type} {f : α → Except PyErr β} {xs : List α} {ys : List β} (h : xs.mapM f = .ok ys) :
    ys.length = xs.length := by
  induction xs generalizing ys with
  | nil => cases h; rfl
  | cons x xs ih =>
    rw [List.mapM_cons] at h
    obtain ⟨y, _, h⟩ := except_bind_ok.mp h
    obtain ⟨ys', h2, h⟩ := except_bind_ok.mp h
    cases h
    rw [List.length_cons, ih h2, List.length_cons]

/-- the lines of a complete file: the header and a line for every row of the window -/
theorem file_lines {fmt : NpVal → Str} {delim : Str} {timeS timeE : Option Int} {d : Dataset} {t : Str} {column : List NpVal}
    {keys : List Str} {sizes : Dict Str Int} {s e : Nat}
    (hd : '\n' ∉ delim) (hkeys : getFields d = .ok (keys, sizes)) (hk : ∀ k ∈ keys, '\n' ∉ k)
    (hc : ∀ row k c, csvCell fmt d sizes row k = .ok c → '\n' ∉ c)
    (hcol : d.data.get? (py! "timestamp") = some column) (hw : window column timeS timeE = .ok (s, e))
    (h : fileLeft fmt delim timeS timeE d = (some t, none)) : t.count '\n' = 1 + (e - s) := by
  rw [fileLeft, dictGet_ok.mpr hcol, hkeys] at h
  dsimp only at h
  rw [hw] at h
  dsimp only at h
  rcases rowsLeft_cases (fmt := fmt) (delim := delim) (d := d) (keys := keys) (sizes := sizes) (pyRange s e) with
    ⟨rows, h1, h2⟩ | ⟨_, _, _, _, _, _, _, _, _, _, _, _, _, _, _, h7⟩
  · rw [h2] at h
    obtain rfl : pyJoin delim keys ++ ['\n'] ++ (rows.map (csvRow delim)).flatten = t := Option.some.inj (congrArg Prod.fst h)
    rw [pyJoin_eq, List.count_append, show (keys.intersperse delim).flatten ++ ['\n'] = csvRow delim keys from rfl,
      count_row hd hk]
    have hlen : rows.length = e - s := by
      rw [mapM_count h1, pyRange, List.length_range']
    have hrows : ∀ r ∈ rows, ∀ c ∈ r, '\n' ∉ c := by
      intro r hr c hcm
      obtain ⟨i, _, hi⟩ := mapM_mem h1 hr
      obtain ⟨k, _, hk⟩ := mapM_mem hi hcm
      exact hc i k c hk
    rw [← hlen]
    congr 1
    clear h1 h2 h hlen
    induction rows with
    | nil => rfl
    | cons r rs ih =>
      rw [List.map_cons, List.flatten_cons, List.count_append, count_row hd (hrows r (by simp)),
        ih fun r hr => hrows r (by simp [hr])]
      simp; omega
  · rw [h7] at h
    cases (congrArg Prod.snd h)

/-- **C100**, the announced number without a window: it is the number of rows below the header, if no cell has a line
break. -/
theorem C100_points_partial {fmt : NpVal → Str} {pre delim : Str} {d : Dataset} {t : Str} {keys : List Str} {sizes : Dict Str Int}
    (hd : '\n' ∉ delim) (hkeys : getFields d = .ok (keys, sizes)) (hk : ∀ k ∈ keys, '\n' ∉ k)
    (hc : ∀ row k c, csvCell fmt d sizes row k = .ok c → '\n' ∉ c)
    (h : fileLeft fmt delim none none d = (some t, none)) :
    filesSaid fmt pre delim none none [d] = [announcement pre d] ∧ t.count '\n' = 1 + points d := by
  cases hcol : d.data.get? (py! "timestamp") with
  | none =>
    rw [fileLeft, show dictGet d.data (py! "timestamp") = .error .keyError by rw [dictGet, hcol]] at h
    cases h
  | some column =>
    have hg := dictGet_ok.mpr hcol
    have hw : window column none none = .ok (0, column.length) := rfl
    constructor
    · rw [filesSaid, hg]
      dsimp only
      rw [h, said_announcement hg]
      rfl
    · rw [file_lines hd hkeys hk hc hcol hw h]
      simp [points, hcol]

/-- a dataset with two samples of a number -/
def Sample.twoPoints : Dataset :=
  ⟨0, 0, py! "a", [⟨py! "timestamp", .u64⟩, ⟨py! "x", .u8⟩], 0,
    [(py! "timestamp", [.int 5, .int 6]), (py! "x", [.int 1, .int 2])]⟩

example : ∃ keys sizes t, getFields Sample.twoPoints = .ok (keys, sizes) ∧ (∀ k ∈ keys, '\n' ∉ k) ∧
    (∀ row k c, csvCell (fun _ => py! "7") Sample.twoPoints sizes row k = .ok c → '\n' ∉ c) ∧
    fileLeft (fun _ => py! "7") (py! ",") none none Sample.twoPoints = (some t, none) ∧ points Sample.twoPoints = 2 := by
  refine ⟨[py! "timestamp", py! "x"], [], py! "timestamp,x\n7,7\n7,7\n", rfl, by decide, ?_, by decide +kernel, rfl⟩
  intro row k c h
  obtain ⟨col, _, h⟩ := except_bind_ok.mp h
  obtain ⟨v, _, h⟩ := except_bind_ok.mp h
  cases h
  show _ ∉ py! "7"
  decide

/-- **C100**, the announced number with a window `[s, e)` of rows: the file has `e - s` rows below the header, so that the
announcement is right exactly if the window has as many rows as the dataset. -/
theorem C100_points_exact {fmt : NpVal → Str} {delim : Str} {timeS timeE : Option Int} {d : Dataset} {t : Str}
    {column : List NpVal} {keys : List Str} {sizes : Dict Str Int} {s e : Nat}
    (hd : '\n' ∉ delim) (hkeys : getFields d = .ok (keys, sizes)) (hk : ∀ k ∈ keys, '\n' ∉ k)
    (hc : ∀ row k c, csvCell fmt d sizes row k = .ok c → '\n' ∉ c)
    (hcol : d.data.get? (py! "timestamp") = some column) (hw : window column timeS timeE = .ok (s, e))
    (h : fileLeft fmt delim timeS timeE d = (some t, none)) :
    t.count '\n' = 1 + (e - s) ∧ (t.count '\n' = 1 + points d ↔ e - s = points d) := by
  have := file_lines hd hkeys hk hc hcol hw h
  exact ⟨this, by omega⟩

/-- The failing part of **C100**: with a window the announced number is that of the whole dataset. Of the two announced
data points one is written. -/
theorem C100_points_window : ∃ bs u, load 20 {} bs = .ok u ∧
    filesSaid Sample.fmt (py! "log") (py! ",") (some 2) none u.dataList = [py! "Writing log_a_0.csv (2 data points)"] ∧
    convertLeft Sample.fmt (py! "log") (py! ",") (some 2) none u =
      ([(py! "log_a_0.csv", py! "timestamp,x\n2000000,8\n")], none) := by
  refine ⟨Sample.header ++ encMsgs [(tyF, Sample.asc (py! "a:uint64_t timestamp;uint8_t x;")),
    (tyA, [0, 0, 0] ++ Sample.asc (py! "a")),
    (tyD, [0, 0, 5, 0, 0, 0, 0, 0, 0, 0, 7]), (tyD, [0, 0, 0x80, 0x84, 0x1e, 0, 0, 0, 0, 0, 8])],
    Sample.get (load 20 {} (Sample.header ++ encMsgs [(tyF, Sample.asc (py! "a:uint64_t timestamp;uint8_t x;")),
    (tyA, [0, 0, 0] ++ Sample.asc (py! "a")),
    (tyD, [0, 0, 5, 0, 0, 0, 0, 0, 0, 0, 7]), (tyD, [0, 0, 0x80, 0x84, 0x1e, 0, 0, 0, 0, 0, 8])])), ?_, ?_, ?_⟩ <;>
    decide +kernel

/-- **C100**, the whole output of `ulog2csv`: the directory that is created, the lines of the reader, the announcements. If
the directory cannot be created or the file cannot be read, nothing follows. -/
theorem C100_csv_all {w : World} {fmt : NpVal → Str} {fuel depth : Nat} {a : CsvArgs} :
    csvSaid w fmt fuel depth a =
      (csvDir w a.output).map (py! "Creating output directory " ++ ·) ++
        if (csvDir w a.output).all (fun o => (w.mkdir o).isNone) then
          match w.read a.file with
          | .error _ => []
          | .ok bs =>
            let cfg : Cfg := { filter := messageFilter a.messages, ign := a.ignore, depth := depth }
            (loadNotices fuel cfg bs).map Notice.line ++
              match load fuel cfg bs with
              | .ok u => filesSaid fmt (csvPrefix a.file a.output) a.delim a.timeS a.timeE u.dataList
              | _ => []
        else [] := by
  unfold csvSaid
  congr 1
  cases h : (csvDir w a.output).findSome? w.mkdir with
  | none =>
    rw [if_pos]
    · rfl
    · rw [List.all_eq_true]
      intro o ho
      rw [List.findSome?_eq_none_iff.mp h o ho]
      rfl
  | some e =>
    rw [if_neg]
    intro hall
    obtain ⟨o, ho, he⟩ := List.exists_of_findSome?_eq_some h
    have := List.all_eq_true.mp hall o ho
    rw [he] at this
    cases this

/-! ### extract_gps_dump -/

/-- **C100**, `ulog_extract_gps_dump`: the files are announced exactly if they are opened, with a warning before it if there
are dropouts; otherwise one line says why the program ends, with the status that goes with it. -/
theorem C100_gps {file : Str} {names : Str × Str} {u : ULog} {required : Int} :
    ((gpsLeft u required).1.isSome = true ∧ gpsLines file names u =
      (if u.dropouts = [] then [] else [dropoutWarning u.dropouts.length]) ++ [dumpLine names]) ∨
    (gpsLeft u required = (none, .exit 0) ∧ u.dataList = [] ∧
      gpsLines file names u = [py! "File " ++ file ++ py! " does not contain gps_dump messages!"]) ∨
    (gpsLeft u required = (none, .exit 255) ∧ u.dataList ≠ [] ∧
      gpsLines file names u = [py! "Error: gps_dump message has wrong format"]) := by
  unfold gpsLeft gpsLines
  cases hd : u.dataList with
  | nil => exact .inr (.inl ⟨rfl, rfl, rfl⟩)
  | cons d ds =>
    dsimp only
    split
    · exact .inr (.inr ⟨rfl, by simp, rfl⟩)
    · left
      constructor
      · split <;> rfl
      · congr 1
        cases u.dropouts with
        | nil => rfl
        | cons x xs => rfl

/-- three messages: the files are announced, also if the last message has a wrong length -/
example : gpsSaid (Sample.world (Sample.gpsLog 3)) 20 100 ⟨py! "log.ulg", none, false, 0⟩ =
    [py! "Creating files log_0_to_device.dat and log_0_from_device.dat"] := by
  decide +kernel

/-- a log without such messages -/
example : gpsSaid (Sample.world Sample.file) 20 100 ⟨py! "log.ulg", none, false, 0⟩ =
    [py! "File log.ulg does not contain gps_dump messages!"] := by
  decide +kernel

/-! ### events -/

/-- **C100**, the event parser: its exception is reported exactly if there are events; no event is listed then. -/
theorem C100_events {text : PyErr → Str} {parser : Except PyErr (Option EventParser)} {u : ULog} :
    (eventSaid text parser u ≠ [] ↔
      (∃ d id ids, getDataset u (py! "event") = .ok d ∧ d.data.get? (py! "id") = some (id :: ids)) ∧ ∃ e, parser = .error e) ∧
    ∀ line ∈ eventSaid text parser u, getLoggedEvents parser u = .ok [] ∧
      ∃ e, parser = .error e ∧ line = py! "Failed to get event parser: " ++ text e := by
  unfold eventSaid getLoggedEvents
  cases h1 : getDataset u (py! "event") with
  | error e =>
    refine ⟨⟨fun h => absurd rfl h, ?_⟩, fun line h => by cases h⟩
    rintro ⟨⟨_, _, _, h, _⟩, _⟩
    cases h
  | ok d =>
    dsimp only
    cases h2 : d.data.get? (py! "id") with
    | none =>
      refine ⟨⟨fun h => absurd rfl h, ?_⟩, fun line h => by cases h⟩
      rintro ⟨⟨_, _, _, h, h'⟩, _⟩
      cases h
      rw [h2] at h'
      cases h'
    | some l =>
      cases l with
      | nil =>
        refine ⟨⟨fun h => absurd rfl h, ?_⟩, fun line h => by cases h⟩
        rintro ⟨⟨_, _, _, h, h'⟩, _⟩
        cases h
        rw [h2] at h'
        cases h'
      | cons id ids =>
        cases parser with
        | error e =>
          refine ⟨⟨fun _ => ⟨⟨d, id, ids, rfl, h2⟩, e, rfl⟩, fun _ h => by cases h⟩, fun line h => ?_⟩
          exact ⟨rfl, e, rfl, List.mem_singleton.mp h⟩
        | ok p =>
          refine ⟨⟨fun h => absurd rfl h, ?_⟩, fun line h => by cases h⟩
          rintro ⟨_, e, h⟩
          cases h

/-- two events and a parser that raises -/
example : ∃ u : ULog, eventSaid (fun _ => py! "bad xz") (.error .valueError : Except PyErr (Option EventParser)) u =
    [py! "Failed to get event parser: bad xz"] :=
  ⟨{ dataList := [⟨0, 0, py! "event", [], 0, [(py! "id", [.int 1, .int 2])]⟩] }, rfl⟩

/-! ### ulog2ros2bag -/

/-- **C100**, skipped topics: one line for a topic that is not exported, none for one that is. -/
theorem C100_skip {env : RosEnv} {d : Dataset} :
    (skipSaid env d = [] ↔ exportType env d ≠ none) ∧ (exportType env d = none ↔ (skipSaid env d).length = 1) := by
  unfold skipSaid exportType
  cases env.msgType d.name with
  | none => simp
  | some name =>
    dsimp only
    cases env.type name with
    | none => simp
    | some ty =>
      dsimp only
      split
      · simp
      · split <;> simp

/-- **C100**, the reasons: no message type, nested fields, or fields that the message type has not. -/
theorem C100_skip_reason {env : RosEnv} {d : Dataset} :
    (env.msgType d.name = none →
      skipSaid env d = [py! "W: Message type '" ++ toCamelCase d.name ++ py! "' for " ++ d.name ++
        py! " not found in px4_msgs, skipping."]) ∧
    (∀ name, env.msgType d.name = some name → env.type name = none → ∃ shown, (name ≠ [] → shown = name) ∧
      (name = [] → shown = toCamelCase d.name) ∧ skipSaid env d = [py! "W: Message type '" ++ shown ++ py! "' for " ++ d.name ++
        py! " not found in px4_msgs, skipping."]) ∧
    (∀ name ty, env.msgType d.name = some name → env.type name = some ty →
      ((∃ f ∈ d.fields, isComposed f.name = true) →
        skipSaid env d = [py! "W: Message type for " ++ d.name ++ py! " is composed, skipping."]) ∧
      ((∀ f ∈ d.fields, isComposed f.name = false) → (∃ f ∈ d.fields, stripIndex f.name ∉ ty.types.keys) →
        skipSaid env d = [py! "W: Message type px4_msgs/msg/" ++ name ++ py! " does not match topic '" ++ d.name ++
          py! "' in ulog, skipping. Please check your version of px4_msgs."])) := by
  unfold skipSaid
  refine ⟨fun h => by rw [h], fun name h1 h2 => ⟨if name = [] then toCamelCase d.name else name, fun h => if_neg h, fun h => if_pos h,
    by rw [h1]; dsimp only; rw [h2]⟩, fun name ty h1 h2 => ?_⟩
  rw [h1]
  dsimp only
  rw [h2]
  dsimp only
  refine ⟨fun ⟨f, hf, hc⟩ => ?_, fun h ⟨f, hf, hc⟩ => ?_⟩
  · rw [if_pos (List.any_eq_true.mpr ⟨f, hf, hc⟩)]
  · rw [if_neg, if_neg]
    · intro hall
      exact hc (of_decide_eq_true (List.all_eq_true.mp hall f hf))
    · intro hany
      obtain ⟨f, hf, hc⟩ := List.any_eq_true.mp hany
      rw [h f hf] at hc
      cases hc

theorem mapLeft_length {f : α → Except PyErr β} {l : List α} (h : (mapLeft f l).2 = none) :
    (mapLeft f l).1.length = l.length := by
  induction l with
  | nil => rfl
  | cons x l ih =>
    rw [mapLeft] at h ⊢
    cases hx : f x with
    | error e => rw [hx] at h; cases h
    | ok y =>
      rw [hx] at h
      simp only [List.length_cons]
      rw [ih h]

theorem topicsSaid_cases {env : RosEnv} {all : List Dataset} {name : Str} (ds : List Dataset) (bag : Bag) :
    ((topicsLeft env all ds bag).2 = none ∧ topicsSaid env all name ds bag.topics.length bag.messages.length =
      ds.flatMap (skipSaid env) ++ bagSummary name (topicsLeft env all ds bag).1) ∨
    ((topicsLeft env all ds bag).2 ≠ none ∧ ∃ k, topicsSaid env all name ds bag.topics.length bag.messages.length =
      (ds.take k).flatMap (skipSaid env)) := by
  induction ds generalizing bag with
  | nil => exact .inl ⟨rfl, rfl⟩
  | cons d ds ih =>
    rw [topicsLeft, topicsSaid, topicLeft]
    cases h1 : dictGet d.data (py! "timestamp") with
    | error e => exact .inr ⟨by simp, 0, rfl⟩
    | ok ts =>
      dsimp only
      cases h2 : exportType env d with
      | none =>
        dsimp only
        rcases ih bag with ⟨e1, e2⟩ | ⟨e1, k, e2⟩
        · exact .inl ⟨e1, by rw [e2]; simp⟩
        · exact .inr ⟨e1, k + 1, by rw [e2]; simp⟩
      | some nt =>
        obtain ⟨n, ty⟩ := nt
        have hs : skipSaid env d = [] := C100_skip.1.mpr (by rw [h2]; simp)
        dsimp only
        rw [topicLeft, h1, hs, List.nil_append]
        dsimp only
        rw [h2]
        dsimp only
        cases h3 : (mapLeft (exportRow ty d (rosTopic all d) ts) (List.range ts.length)).2 with
        | some e => exact .inr ⟨by simp, 0, rfl⟩
        | none =>
          dsimp only
          have hlen := mapLeft_length h3
          rw [List.length_range] at hlen
          have := ih { topics := bag.topics ++ [(rosTopic all d, py! "px4_msgs/msg/" ++ n)],
                       messages := bag.messages ++ (mapLeft (exportRow ty d (rosTopic all d) ts) (List.range ts.length)).1 }
          simp only [List.length_append, List.length_singleton, hlen] at this
          rcases this with ⟨e1, e2⟩ | ⟨e1, k, e2⟩
          · exact .inl ⟨e1, by rw [e2, List.flatMap_cons, hs, List.nil_append]⟩
          · exact .inr ⟨e1, k + 1, by rw [e2, List.take_succ_cons, List.flatMap_cons, hs, List.nil_append]⟩

/-- **C100**, `ulog2ros2bag`: after the line for every skipped topic the summary gives the numbers of topics and messages
that the bag has. After an exception there is no summary. -/
theorem C100_bag {env : RosEnv} {name : Str} {u : ULog} :
    ((bagLeft env false u).2 = none ∧ topicsSaid env u.dataList name u.dataList 0 0 =
      u.dataList.flatMap (skipSaid env) ++ bagSummary name (bagLeft env false u).1) ∨
    ((bagLeft env false u).2 ≠ none ∧ ∃ k, topicsSaid env u.dataList name u.dataList 0 0 =
      (u.dataList.take k).flatMap (skipSaid env)) := topicsSaid_cases u.dataList {}

/-- a log with a topic that the package has not -/
example : bagSaid (Sample.world Sample.file) Sample.bagEnv 20 100 ⟨py! "log.ulg", none, false, none, false, false⟩ =
    [py! "W: Message type 'B' for b not found in px4_msgs, skipping.", [],
      py! "Wrote rosbag 'rosbag_log' with 1 topics and 2 messages."] := by
  decide +kernel

/-! ### migrate_db -/

theorem readMigration_text {dir : SqlDir} {id : Nat} {script : Str} (h : readMigration dir id = .ok script) :
    script = (dir id).getD [] ++ py! "\nPRAGMA user_version = " ++ natDec id ++ py! ";" := by
  unfold readMigration at h
  cases hd : dir id with
  | none => rw [hd] at h; cases h
  | some t =>
    rw [hd] at h
    dsimp only at h
    split at h
    · cases h
    · split at h
      · cases h
      · cases h
        rfl

theorem loopSaid_cases {σ : Type} {E : Engine σ} {files : Str → Option Str} {dir : Str} {noop : Bool} (hd : dir ≠ [])
    (hb : NoBraces dir) (ids : List Nat) (c : Conn σ) :
    ((migrateLoopAt E files dir noop ids c).2 = none ∧
      loopSaid E files dir noop ids c = ids.flatMap (scriptLines files dir noop) ++ [migrationDone]) ∨
    ((migrateLoopAt E files dir noop ids c).2 ≠ none ∧ ∃ k, k ≤ ids.length ∧
      loopSaid E files dir noop ids c = (ids.take k).flatMap (scriptLines files dir noop)) := by
  induction ids generalizing c with
  | nil => exact .inl ⟨rfl, rfl⟩
  | cons id ids ih =>
    rw [migrateLoopAt, loopSaid, readScript_plain hd hb]
    cases hr : readMigration (fun id => files (scriptName dir id)) id with
    | error e => exact .inr ⟨(show (c, some e).2 ≠ none from fun h => by cases h), 0, Nat.zero_le _, rfl⟩
    | ok script =>
      have ht := readMigration_text hr
      cases noop with
      | true =>
        have hl : ∀ rest : List Str, (py! "Executing " ++ scriptName dir id ++ py! ".") :: script :: rest =
            scriptLines files dir true id ++ rest := by
          intro rest
          rw [ht]
          rfl
        rcases ih c with ⟨e1, e2⟩ | ⟨e1, k, hk, e2⟩
        · refine .inl ⟨e1, ?_⟩
          show (py! "Executing " ++ scriptName dir id ++ py! ".") :: script :: loopSaid E files dir true ids c = _
          rw [hl, e2, List.flatMap_cons, List.append_assoc]
        · refine .inr ⟨e1, k + 1, by simp; exact hk, ?_⟩
          show (py! "Executing " ++ scriptName dir id ++ py! ".") :: script :: loopSaid E files dir true ids c = _
          rw [hl, e2, List.take_succ_cons, List.flatMap_cons]
      | false =>
        have hl : ∀ rest : List Str, (py! "Executing " ++ scriptName dir id ++ py! ".") :: rest =
            scriptLines files dir false id ++ rest := fun rest => rfl
        show (((match executescript E c script with
            | (c', none) => migrateLoopAt E files dir false ids c'
            | (c', some e) => (c', some e)).2 = none ∧
          (py! "Executing " ++ scriptName dir id ++ py! ".") :: (match executescript E c script with
            | (c', none) => loopSaid E files dir false ids c'
            | (_, some _) => []) = _) ∨ _)
        cases hx : executescript E c script with
        | mk c' o =>
          cases o with
          | none =>
            rcases ih c' with ⟨e1, e2⟩ | ⟨e1, k, hk, e2⟩
            · refine .inl ⟨e1, ?_⟩
              dsimp only
              rw [hl, e2, List.flatMap_cons, List.append_assoc]
            · refine .inr ⟨?_, k + 1, by simp; exact hk, ?_⟩
              · show (match executescript E c script with
                  | (c', none) => migrateLoopAt E files dir false ids c'
                  | (c', some e) => (c', some e)).2 ≠ none
                rw [hx]
                exact e1
              · show (py! "Executing " ++ scriptName dir id ++ py! ".") :: (match executescript E c script with
                  | (c', none) => loopSaid E files dir false ids c'
                  | (_, some _) => []) = _
                rw [hx]
                dsimp only
                rw [hl, e2, List.take_succ_cons, List.flatMap_cons]
          | some e =>
            refine .inr ⟨?_, 1, by simp, ?_⟩
            · show (match executescript E c script with
                  | (c', none) => migrateLoopAt E files dir false ids c'
                  | (c', some e) => (c', some e)).2 ≠ none
              rw [hx]
              exact fun h => by cases h
            · show (py! "Executing " ++ scriptName dir id ++ py! ".") :: (match executescript E c script with
                  | (c', none) => loopSaid E files dir false ids c'
                  | (_, some _) => []) = _
              rw [hx]
              rfl

/-- **C100**, `ulog_migratedb` in a directory whose name has no curly brackets: the versions, then the file of every
script that is begun, in the order of the numbers, and `Migration done.` exactly if there was no exception. With `--noop`
the text of every script follows its name. -/
theorem C100_migrate {σ : Type} {E : Engine σ} {isDir : Str → Bool} {files : Str → Option Str} {dir db : Str} {noop force : Bool}
    {file : Option (SDb σ)} {v : Nat} (hdir : isDir dir = true) (hd : dir ≠ []) (hb : NoBraces dir)
    (hv : readSchemaVersion file force = .ok v) :
    ∃ k, k ≤ (idsFrom v).length ∧ migrateSaid E isDir files dir noop force db file =
      migrationHead dir db file.isSome v ++ ((idsFrom v).take k).flatMap (scriptLines files dir noop) ++
        (match (migrateDbAt E isDir files dir noop force file).2 with
          | .ok _ => [migrationDone]
          | .error _ => []) ∧
      ((migrateDbAt E isDir files dir noop force file).2 = .ok () → k = (idsFrom v).length) := by
  have h1 : migrateSaid E isDir files dir noop force db file =
      migrationHead dir db file.isSome v ++ loopSaid E files dir noop (idsFrom v) (openConn E file) := by
    unfold migrateSaid
    rw [hdir, hv]
    cases file <;> rfl
  have h2 : (migrateDbAt E isDir files dir noop force file).2 =
      (closeWith (migrateLoopAt E files dir noop (idsFrom v) (openConn E file))).2 := by
    unfold migrateDbAt
    rw [hdir, hv]
    rfl
  rw [h1, h2]
  rcases hl : migrateLoopAt E files dir noop (idsFrom v) (openConn E file) with ⟨c, o⟩
  have hc := loopSaid_cases (E := E) (files := files) (noop := noop) hd hb (idsFrom v) (openConn E file)
  rw [hl] at hc
  rcases hc with ⟨e1, e2⟩ | ⟨e1, k, hk, e2⟩
  · obtain rfl : o = none := e1
    refine ⟨(idsFrom v).length, Nat.le_refl _, ?_, fun _ => rfl⟩
    rw [e2, List.take_length]
    exact (List.append_assoc ..).symm
  · cases o with
    | none => exact absurd rfl e1
    | some e =>
      refine ⟨k, hk, ?_, fun h => by cases h⟩
      rw [e2]
      exact (List.append_nil _).symm

/-- **C100**, `ulog_migratedb` that ends before the first script: nothing is printed without a directory; a database that
is refused is named, without its version. -/
theorem C100_migrate_refused {σ : Type} {E : Engine σ} {isDir : Str → Bool} {files : Str → Option Str} {dir db : Str}
    {noop force : Bool} {file : Option (SDb σ)} :
    (isDir dir = false → migrateSaid E isDir files dir noop force db file = []) ∧
    (∀ e, isDir dir = true → readSchemaVersion file force = .error e →
      migrateSaid E isDir files dir noop force db file =
        [py! "Using migration files in " ++ dir ++ py! ".", py! "Found database file " ++ db ++ py! "."]) := by
  unfold migrateSaid
  refine ⟨fun h => by rw [h]; rfl, fun e h1 h2 => ?_⟩
  cases file with
  | none => cases h2
  | some d =>
    rw [h1, h2]
    rfl

/-- **C100**, `Migration done.` is printed exactly if the migration ended without exception -/
theorem C100_done {σ : Type} {E : Engine σ} {isDir : Str → Bool} {files : Str → Option Str} {dir db : Str} {noop force : Bool}
    {file : Option (SDb σ)} (hd : dir ≠ []) (hb : NoBraces dir) :
    py! "Migration done." ∈ migrateSaid E isDir files dir noop force db file ↔
      (migrateDbAt E isDir files dir noop force file).2 = .ok () := by
  have hlast : ∀ {s t : Str} {c : Char}, c ≠ '.' → s ++ t ++ [c] ≠ py! "Migration done." := by
    intro s t c hc h
    have := congrArg List.getLast? h
    rw [List.getLast?_concat] at this
    exact hc (Option.some.inj this)
  have hhead : ∀ {c : Char} {s t : Str}, c ≠ 'M' → (c :: s) ++ t ≠ py! "Migration done." := by
    intro c s t hc h
    exact hc (List.cons.inj h).1
  cases h1 : isDir dir with
  | false =>
    have : (migrateDbAt E isDir files dir noop force file).2 = .error .notADirectory := by
      unfold migrateDbAt
      rw [h1]
      rfl
    rw [C100_migrate_refused.1 h1, this]
    exact ⟨fun h => (by cases h), fun h => (by cases h)⟩
  | true =>
    cases h2 : readSchemaVersion file force with
    | error e =>
      have : (migrateDbAt E isDir files dir noop force file).2 = .error e := by
        unfold migrateDbAt
        rw [h1, h2]
        rfl
      rw [C100_migrate_refused.2 e h1 h2, this]
      refine ⟨fun h => ?_, fun h => (by cases h)⟩
      simp only [List.mem_cons, List.not_mem_nil, or_false] at h
      rcases h with h | h
      · rw [List.append_assoc] at h
        exact absurd h.symm (hhead (by decide))
      · rw [List.append_assoc] at h
        exact absurd h.symm (hhead (by decide))
    | ok v =>
      obtain ⟨k, _, h3, _⟩ := C100_migrate (E := E) (files := files) (db := db) (noop := noop) h1 hd hb h2
      rw [h3]
      have hn : ∀ {l : Str}, l ∈ migrationHead dir db file.isSome v ++
          ((idsFrom v).take k).flatMap (scriptLines files dir noop) → l ≠ py! "Migration done." := by
        intro l hl
        rw [List.mem_append, List.mem_flatMap] at hl
        rcases hl with hl | ⟨id, _, hl⟩
        · simp only [migrationHead, List.mem_cons, List.not_mem_nil, or_false] at hl
          rcases hl with rfl | rfl | rfl
          · rw [List.append_assoc]; exact hhead (by decide)
          · split
            · rw [List.append_assoc]; exact hhead (by decide)
            · rw [List.append_assoc]; exact hhead (by decide)
          · rw [List.append_assoc]; exact hhead (by decide)
        · unfold scriptLines at hl
          rcases List.mem_cons.mp hl with rfl | hl
          · rw [List.append_assoc]; exact hhead (by decide)
          · split at hl
            · rw [List.mem_singleton.mp hl]
              exact hlast (by decide)
            · cases hl
      rw [List.mem_append]
      cases (migrateDbAt E isDir files dir noop force file).2 with
      | ok x => exact ⟨fun _ => rfl, fun _ => .inr (List.mem_singleton.mpr rfl)⟩
      | error e =>
        refine ⟨fun h => ?_, fun h => (by cases h)⟩
        rcases h with h | h
        · exact absurd rfl (hn h)
        · cases h

/-- the second script fails: both are announced, and the end is not -/
example : migrateSaid Sample.listEngine (fun _ => true)
      (fun p => if p = py! "sql/pyulog.1.sql" then some (py! "BEGIN;A;COMMIT;") else none) (py! "sql") false false
      (py! "a.db") none =
    [py! "Using migration files in sql.", py! "Database file a.db not found, creating it from scratch.",
      py! "Current schema version: 0 (database) and 5 (code).", py! "Executing sql/pyulog.1.sql."] := by
  decide +kernel

/-- all scripts -/
example : migrateSaid Sample.listEngine (fun _ => true) (fun _ => some (py! "BEGIN;A;COMMIT;")) (py! "sql") false false
      (py! "a.db") (some ⟨[], 3⟩) =
    [py! "Using migration files in sql.", py! "Found database file a.db.",
      py! "Current schema version: 3 (database) and 5 (code).", py! "Executing sql/pyulog.4.sql.",
      py! "Executing sql/pyulog.5.sql.", py! "Migration done."] := by
  decide +kernel

end PyULog
