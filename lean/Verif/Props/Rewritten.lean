import Verif.Spec.Rewritten
import Verif.Props.CanWrite
import Verif.Props.Params
import Verif.Props.BagError
import Verif.Lemmas.Rewrite
/-
C104: what the command line tools print for a log that was written again.
-/
namespace PyULog
open Spec

/-! ### the log that is loaded from the new file -/

theorem rewritten_canon {u v : ULog} (h : Rewritten u v) :
    ∃ depth, Writable depth u ∧ v = canon u ∧ (u.changedParams.map (·.1)).Pairwise (· ≤ ·) ∧
      (u.dropouts.map (·.ts)).Pairwise (· ≤ ·) := by
  obtain ⟨fuel, cfg, bs, b, fuel2, cfg2, hl, hc, hb, h1, h2, h3, h4, h5, hv⟩ := h
  have hf := (C83_loaded hl (loaded_integerTimes hl hc.times)).mp ⟨b, hb⟩
  have hw := loaded_writable hl hf.info hf.named hc
  have hp := C09_changed_parameters fuel cfg bs u hl
  rw [load_written hw hb h1 h2 h3 h4 h5] at hv
  injection hv with hv
  exact ⟨cfg.depth, hw, hv.symm, hp.2.2.1, hp.2.2.2⟩

theorem sortedChanges {u : ULog} (h : (u.changedParams.map (·.1)).Pairwise (· ≤ ·)) :
    (canon u).changedParams = u.changedParams.map fun p => (clock u p.1, p.2.1, asParam p.2.2) := by
  show (ssort _ u.changedParams).map _ = _
  rw [ssort_self (key := fun p : Nat × Str × Value => (p.1 : Int)) ((List.pairwise_map.mp h).imp fun h => by omega)]

theorem sortedDropouts {u : ULog} (h : (u.dropouts.map (·.ts)).Pairwise (· ≤ ·)) :
    (canon u).dropouts = u.dropouts.map fun m => ⟨m.duration, clock u m.ts⟩ := by
  show (ssort _ u.dropouts).map _ = _
  rw [ssort_self (key := fun m : Dropout => (m.ts : Int)) ((List.pairwise_map.mp h).imp fun h => by omega)]

/-! ### ulog_params -/

theorem canon_initial {u : ULog} (h : NoBoolParams u) : (canon u).initialParams = u.initialParams := by
  show u.initialParams.map _ = _
  conv => rhs; rw [← List.map_id u.initialParams]
  apply List.map_congr_left
  intro p hp
  rw [asParam_self (h.1 p hp)]
  rfl

theorem canon_defaults {u : ULog} (h : NoBoolParams u) : (canon u).defaultParams = u.defaultParams := by
  show u.defaultParams.map _ = _
  conv => rhs; rw [← List.map_id u.defaultParams]
  apply List.map_congr_left
  intro p hp
  have : (p.2.map fun q => (q.1, asParam q.2)) = p.2 := by
    conv => rhs; rw [← List.map_id p.2]
    apply List.map_congr_left
    intro q hq
    rw [asParam_self (h.2.1 p hp q hq)]
    rfl
  rw [this]
  rfl

theorem changesOf_canon {u : ULog} (hs : (u.changedParams.map (·.1)).Pairwise (· ≤ ·)) (h : NoBoolParams u) (key : Str) :
    changesOf (canon u) key = (changesOf u key).map fun c => (clock u c.1, c.2) := by
  unfold changesOf
  rw [sortedChanges hs, List.filterMap_map, List.map_filterMap]
  have h3 := h.2.2
  revert h3
  generalize u.changedParams = l
  intro h3
  induction l with
  | nil => rfl
  | cons p l ih =>
    rw [List.filterMap_cons, List.filterMap_cons, ih fun q hq => h3 q (List.mem_cons_of_mem _ hq)]
    dsimp only [Function.comp_apply]
    rw [asParam_self (h3 p (List.mem_cons_self ..))]
    by_cases e : p.2.1 = key
    · simp [e]
    · simp [e]

/-- **C104**: `ulog_params` prints the same for the new file, with every option, if no parameter is a `bool`;
with `--timestamps` the changes must carry the time of the latest sample before them -/
theorem C104_params_partial {u v : ULog} (h : Rewritten u v) (hp : NoBoolParams u) (fmt : Value → Str) (o : ParamOpts)
    (ht : o.timestamps = true → ∀ p ∈ u.changedParams, clock u p.1 = p.1) :
    paramsText fmt o v = paramsText fmt o u := by
  obtain ⟨depth, hw, rfl, hs, -⟩ := rewritten_canon h
  have hsel : selectParams o (canon u) = selectParams o u := by
    unfold selectParams getDefaults getDefaultParameters hasDefaultParameters
    rw [canon_initial hp, canon_defaults hp]
    rfl
  have hch := changesOf_canon hs hp
  have hval : ∀ key, (changesOf (canon u) key).map (·.2) = (changesOf u key).map (·.2) := by
    intro key
    rw [hch, List.map_map]
    rfl
  have hvalf : ∀ key, (changesOf (canon u) key).map (fun c => fmt c.2) = (changesOf u key).map (fun c => fmt c.2) := by
    intro key
    rw [hch, List.map_map]
    rfl
  have htime : o.timestamps = true → ∀ key,
      (changesOf (canon u) key).map (fun c => natDec c.1) = (changesOf u key).map (fun c => natDec c.1) := by
    intro e key
    rw [hch, List.map_map]
    apply List.map_congr_left
    intro c hc
    obtain ⟨p, hpm, hpc⟩ := List.mem_filterMap.mp hc
    by_cases e2 : p.2.1 = key
    · rw [if_pos e2] at hpc
      cases hpc
      exact congrArg natDec (ht e p hpm)
    · rw [if_neg e2] at hpc
      cases hpc
  have htext : ∀ key w, paramText fmt o (canon u) key w = paramText fmt o u key w := by
    intro key w
    unfold paramText paramCsv paramOctave
    rw [hval, hvalf]
    cases e : o.timestamps with
    | true => rw [htime e]
    | false => rfl
  unfold paramsText
  rw [hsel]
  simp only [htext]

/-! ### ulog_info -/

theorem mapM_map_same {α β γ : Type} {f : β → Except PyErr γ} {g : α → β} {k : α → Except PyErr γ} {l : List α}
    (h : ∀ a ∈ l, f (g a) = k a) : (l.map g).mapM f = l.mapM k := by
  induction l with
  | nil => rfl
  | cons a as ih =>
    rw [List.map_cons, List.mapM_cons, List.mapM_cons, h a (List.mem_cons_self ..),
      ih fun b hb => h b (List.mem_cons_of_mem _ hb)]

theorem tableLine_sorted {F : Dict Str MsgFormat} {depth : Nat} {d : Dataset} (hd : DatasetOk F depth d) :
    tableLine (sortedRows d) = tableLine d := by
  have hm : (⟨py! "timestamp", .u64⟩ : FieldData).name ∈ d.data.map (·.1) := by
    rw [hd.columns]
    exact List.mem_map_of_mem hd.timestamp
  obtain ⟨c, hc, hn⟩ := List.mem_map.mp hm
  have hget : d.data.get? (py! "timestamp") = some c.2 :=
    Dict.get?_of_mem _ _ _ (by
      show (d.data.map (·.1)).Nodup
      rw [hd.columns]
      exact hd.distinct) (by
      have e : c.1 = py! "timestamp" := hn
      rw [← e]
      exact hc)
  have h2 := sortedRows_col hd hd.timestamp (col := c.2) hget
  have hlen : ((rowOrder d).map fun i => stored BT.u64 (c.2.getD i (.int 0))).length = c.2.length := by
    rw [List.length_map, rowOrder_length, hd.shape c hc]
  unfold tableLine
  rw [dictGet_ok.mpr hget, dictGet_ok.mpr h2]
  show Except.ok _ = Except.ok _
  rw [hlen]
  rfl

/-- **C104**: `ulog_info` prints the same for the new file but for the warning about corruption, which is lost,
if the end of the log is the time of its last sample -/
theorem C104_info_partial {u v : ULog} (h : Rewritten u v) (hl : u.lastTs = (rowTimes u).foldl max u.startTs)
    (fmt : Value → Str) (fmtLists : List (List Value) → Str) (verbose : Bool) :
    showInfo fmt fmtLists verbose v = showInfo fmt fmtLists verbose { u with fileCorrupt := false } := by
  obtain ⟨depth, hw, rfl, -, hs⟩ := rewritten_canon h
  have h1 : timeLine (canon u) = timeLine { u with fileCorrupt := false } := by
    unfold timeLine
    show (if (rowTimes u).foldl max u.startTs < u.startTs then _ else _) = _
    rw [← hl]
    show (if u.lastTs < u.startTs then Except.error PyErr.unmodelled else .ok (py! "Logging start time: " ++ hmsStr u.startTs ++
      py! ", duration: " ++ hmsStr ((rowTimes u).foldl max u.startTs - u.startTs))) = _
    rw [← hl]
  have h2 : dropoutLine (canon u) = dropoutLine { u with fileCorrupt := false } := by
    have : (canon u).dropouts.map (·.duration) = u.dropouts.map (·.duration) := by
      rw [sortedDropouts hs, List.map_map]
      rfl
    unfold dropoutLine
    rw [this]
  have h3 : (tableOrder (canon u).dataList).mapM tableLine = (tableOrder u.dataList).mapM tableLine := by
    show (tableOrder (u.dataList.map sortedRows)).mapM tableLine = _
    have : tableOrder (u.dataList.map sortedRows) = (tableOrder u.dataList).map sortedRows :=
      (ssort_map sortedRows (fun _ _ => rfl) _).symm
    rw [this]
    apply mapM_map_same
    intro d hd
    exact tableLine_sorted (hw.data d ((mem_ssort _ _ _).mp hd))
  unfold showInfo
  rw [h1, h2, h3]
  rfl

/-- **C104**: `ulog_info --message` prints the same for the new file -/
theorem C104_message {u v : ULog} (h : Rewritten u v) (newline : Bool) (name : Str) :
    showMessage newline v name = showMessage newline u name := by
  obtain ⟨depth, hw, rfl, -, -⟩ := rewritten_canon h
  rfl

/-! ### tools that use the samples -/

theorem rows_self {F : Dict Str MsgFormat} {depth : Nat} {d : Dataset} (ok : DatasetOk F depth d)
    (hr : ∀ i j, i < j → j < rowCount d → timeAt d i ≤ timeAt d j)
    (hv : ∀ f ∈ d.fields, ∀ i v, cell d f.name i = some v → stored f.type v = v) : sortedRows d = d := by
  have hord : rowOrder d = List.range (rowCount d) := by
    unfold rowOrder
    apply ssort_self
    rw [List.pairwise_iff_getElem]
    intro i j hi hj hij
    rw [List.length_range] at hi hj
    rw [List.getElem_range, List.getElem_range]
    exact hr i j hij hj
  have hn : (d.data.map (·.1)).Nodup := by rw [ok.columns]; exact ok.distinct
  have hcol : ∀ k col, d.data.get? k = some col →
      (List.range (rowCount d)).filterMap (cell d k) = col := by
    intro k col hk
    have hlen := ok.shape _ (Dict.mem_of_get? _ _ _ hk)
    rw [← hlen]
    show (List.range col.length).filterMap (fun i => cell d k i) = col
    rw [filterMap_all_some (g := fun i => col.getD i (.int 0))]
    · apply List.ext_getElem
      · simp
      · intro i h1 h2
        simp [List.getD, h2]
    · intro i hi
      have := List.mem_range.mp hi
      unfold cell
      rw [hk]
      simp [List.getD, this]
  have hdata : (d.fields.map fun f =>
      (f.name, (rowOrder d).filterMap fun i => (cell d f.name i).map (stored f.type))) = d.data := by
    rw [dict_eq_map hn (fun k => (List.range (rowCount d)).filterMap (cell d k)) hcol, ok.columns,
      List.map_map]
    apply List.map_congr_left
    intro f hf
    rw [hord]
    show (f.name, _) = (f.name, (List.range (rowCount d)).filterMap (cell d f.name))
    congr 1
    congr 1
    funext i
    cases hc : cell d f.name i with
    | none => rfl
    | some v => exact congrArg some (hv f hf i v hc)
  unfold sortedRows
  rw [hdata]

/-- **C104**: the datasets of the new file are those of the old one if samples are in the order of time and the
writer stores their values unchanged -/
theorem C104_datasets_partial {u v : ULog} (h : Rewritten u v) (hr : RowsInOrder u) : v.dataList = u.dataList := by
  obtain ⟨depth, hw, rfl, -, -⟩ := rewritten_canon h
  show u.dataList.map sortedRows = _
  conv => rhs; rw [← List.map_id u.dataList]
  apply List.map_congr_left
  intro d hd
  exact rows_self (hw.data d hd) (hr.1 d hd) (hr.2 d hd)

/-- **C104**: then `ulog2csv`, `ulog2ros2bag`, `ulog_extract_gps_dump`, `extract_message` and the track, modes and
triggers of `ulog2kml` write the same files, also what they leave behind when they raise -/
theorem C104_files_partial {u v : ULog} (h : Rewritten u v) (hr : RowsInOrder u) :
    (∀ fmt pre delim timeS timeE, convertCsv fmt pre delim timeS timeE v = convertCsv fmt pre delim timeS timeE u ∧
      convertLeft fmt pre delim timeS timeE v = convertLeft fmt pre delim timeS timeE u) ∧
    (∀ env verbose, exportBag env v = exportBag env u ∧ bagLeft env verbose v = bagLeft env verbose u) ∧
    (∀ required, gpsDump v required = gpsDump u required ∧ gpsLeft v required = gpsLeft u required) ∧
    (∀ message timeS timeE, extractFrom v message timeS timeE = extractFrom u message timeS timeE) ∧
    (u.lastTs = (rowTimes u).foldl max u.startTs → ∀ (P C : Type) (coord : Bool → NpVal → NpVal → NpVal → P) (far : Nat → Bool)
      (fmt : NpVal → Str) (topics : OneOrList Str) (colors : OneOrList (Int → Except PyErr C)) (camera : Option Str),
      kmlDocument coord far fmt topics colors camera v = kmlDocument coord far fmt topics colors camera u) := by
  have hd := C104_datasets_partial h hr
  refine ⟨fun fmt pre delim timeS timeE => ⟨?_, ?_⟩, fun env verbose => ⟨?_, ?_⟩, fun required => ⟨?_, ?_⟩,
    fun message timeS timeE => ?_, fun hl P C coord far fmt topics colors camera => ?_⟩
  · exact congrArg (fun l => convertCsv fmt pre delim timeS timeE { dataList := l }) hd
  · exact congrArg (fun l => convertLeft fmt pre delim timeS timeE { dataList := l }) hd
  · exact congrArg (fun l => exportBag env { dataList := l }) hd
  · have hi : v.info = u.info := by
      obtain ⟨depth, hw, rfl, -, -⟩ := rewritten_canon h
      rfl
    have e1 : ∀ w : ULog, bagLeft env verbose w = bagLeft env verbose { dataList := w.dataList, info := w.info } := fun _ => rfl
    rw [e1 v, e1 u, hd, hi]
  · exact congrArg (fun l => gpsDump { dataList := l } required) hd
  · exact congrArg (fun l => gpsLeft { dataList := l } required) hd
  · exact congrArg (fun l => extractFrom { dataList := l } message timeS timeE) hd
  · have ht : v.lastTs = u.lastTs := by
      obtain ⟨depth, hw, rfl, -, -⟩ := rewritten_canon h
      exact hl.symm
    have e1 : ∀ w : ULog, kmlDocument coord far fmt topics colors camera w =
        kmlDocument coord far fmt topics colors camera { dataList := w.dataList, lastTs := w.lastTs } := fun _ => rfl
    rw [e1 v, e1 u, hd, ht]

/-! ### ulog_messages -/

theorem ssort_tail {α : Type} {le : α → α → Bool} (h : TotalPre le) (a b : List α) :
    ssort le (a ++ ssort le b) = ssort le (a ++ b) := by
  induction a with
  | nil => exact ssort_idem h b
  | cons x a ih =>
    show ins le x (ssort le (a ++ ssort le b)) = ins le x (ssort le (a ++ b))
    rw [ih]

/-- the message is printed: it does not end with a tab -/
def notTab (m : Nat × Str × Str) : Bool := decide (m.2.2.getLast? ≠ some '\t')

theorem merge_ok {l ev : List (Nat × Str × Str)} (h : ∀ m ∈ l, m.2.2 ≠ []) :
    mergeMessages l ev = .ok (ev ++ l.filter notTab) := by
  induction l generalizing ev with
  | nil => rw [List.filter_nil, List.append_nil]; rfl
  | cons m l ih =>
    unfold mergeMessages
    have hm := h m (List.mem_cons_self ..)
    cases hc : m.2.2.getLast? with
    | none => exact absurd (List.getLast?_eq_none_iff.mp hc) hm
    | some c =>
      dsimp only
      rw [ih fun x hx => h x (List.mem_cons_of_mem _ hx)]
      by_cases e : c = '\t'
      · rw [if_pos e, List.filter_cons_of_neg]
        simp [notTab, hc, e]
      · rw [if_neg e, List.filter_cons_of_pos, List.append_assoc]
        · rfl
        · simp [notTab, hc, e]

theorem merge_error {l ev : List (Nat × Str × Str)} (h : ∃ m ∈ l, m.2.2 = []) :
    mergeMessages l ev = .error .indexError := by
  induction l generalizing ev with
  | nil => obtain ⟨m, hm, -⟩ := h; cases hm
  | cons m l ih =>
    unfold mergeMessages
    cases hc : m.2.2.getLast? with
    | none => rfl
    | some c =>
      dsimp only
      apply ih
      obtain ⟨x, hx, he⟩ := h
      rcases List.mem_cons.mp hx with rfl | hx
      · rw [he] at hc; cases hc
      · exact ⟨x, hx, he⟩

/-- **C104**: `ulog_messages` prints the same for the new file of a PX4 log, whatever the order of its messages; of
another log if its messages are in the order of time. The events are the same if the datasets are. -/
theorem C104_messages_partial {u v : ULog} (h : Rewritten u v) (events : Except PyErr (List (Nat × Str × Str))) :
    (FromPx4 u ∨ u.logged.Pairwise (fun a b => a.ts ≤ b.ts) → messageLines v events = messageLines u events) ∧
      (RowsInOrder u → ∀ (J : Type) (env : EventEnv EventParser J), timedEvents env v = timedEvents env u) := by
  have hds := C104_datasets_partial h
  obtain ⟨depth, hw, rfl, -, -⟩ := rewritten_canon h
  constructor
  · intro hc
    have : allMessages (canon u) events = allMessages u events := by
      rcases hc with hp | hs
      · have hle : ∀ a b : LogMsg, decide ((a.ts : Int) ≤ b.ts) = decide (a.ts ≤ b.ts) := by
          intro a b
          apply decide_eq_decide.mpr
          omega
        have hmap : (canon u).logged.map (fun m => (m.ts, logLevelStr m.level, m.msg))
            = ssort (fun (a b : Nat × Str × Str) => decide (a.1 ≤ b.1))
              (u.logged.map fun m => (m.ts, logLevelStr m.level, m.msg)) :=
          ssort_map _ (fun a b => (hle a b).symm) _
        unfold allMessages
        rw [hmap]
        generalize u.logged.map (fun m => (m.ts, logLevelStr m.level, m.msg)) = l
        have hp1 : u.info.get? (py! "sys_name") = some (.str (py! "PX4")) := hp
        have hp2 : (canon u).info.get? (py! "sys_name") = some (.str (py! "PX4")) := hp
        dsimp only
        rw [if_pos hp2, if_pos hp1]
        cases events with
        | error e => rfl
        | ok ev =>
          by_cases he : ∃ m ∈ l, m.2.2 = []
          · rw [ok_bind, ok_bind, merge_error he, merge_error (by
              obtain ⟨m, hm, e⟩ := he
              exact ⟨m, (mem_ssort _ _ _).mpr hm, e⟩)]
          · have hne : ∀ m ∈ l, m.2.2 ≠ [] := fun m hm e => he ⟨m, hm, e⟩
            rw [ok_bind, ok_bind, merge_ok hne, merge_ok fun m hm => hne m ((mem_ssort _ _ _).mp hm), ok_bind, ok_bind,
              filter_ssort (totalPre_keyNat _), ssort_tail (totalPre_keyNat _)]
      · have hl : (canon u).logged = u.logged := ssort_self (hs.imp fun h => by omega)
        unfold allMessages
        rw [hl]
        rfl
    unfold messageLines
    rw [this]
  · intro hr J env
    have e1 : ∀ p, getLoggedEvents p (canon u) = getLoggedEvents p { dataList := (canon u).dataList } := fun _ => rfl
    unfold timedEvents
    rw [e1, hds hr]
    rfl

/-! ### concrete cases -/

namespace Sample

/-- nothing is asked of parameters and multi info messages if there are none -/
def plainLog (u : ULog) : Bool :=
  decide (u.infoMultiTypes = [] ∧ u.initialParams = [] ∧ u.defaultParams = [] ∧ u.changedParams = [] ∧
    (∀ p ∈ u.formats, ∀ f ∈ p.2.fields, 0 ≤ f.arr) ∧ (u.dataList.map (·.msgId)).Nodup ∧
    (u.dataList.map fun d => (d.name, d.multiId)).Nodup ∧ (∀ d ∈ u.dataList, ⟨py! "timestamp", .u64⟩ ∈ d.fields) ∧
    u.dataList ≠ [])

theorem plainLog_comesBack {u : ULog} (h : plainLog u = true) : ComesBack u := by
  obtain ⟨h1, h2, h3, h4, h5, h6, h7, h8, h9⟩ := of_decide_eq_true h
  exact
    { arrays := h5
      multi := fun p hp => by rw [h1] at hp; cases hp
      initial := fun p hp => by rw [h2] at hp; cases hp
      defaults := fun p hp => by rw [h3] at hp; cases hp
      changed := fun p hp => by rw [h4] at hp; cases hp
      ids := h6
      instances := h7
      times := h8
      starts := fun e => absurd e h9 }

/-- the file is loaded, written and loaded again -/
def rewrites (bs : Bytes) (p : ULog → ULog → Bool) : Bool :=
  match load 40 {} bs with
  | .ok u =>
    match writeUlog u with
    | .ok b =>
      match load 999 {} b with
      | .ok v => plainLog u && decide (b.length < 999) && p u v
      | _ => false
    | _ => false
  | _ => false

theorem rewrites_of {bs : Bytes} {p : ULog → ULog → Bool} (h : rewrites bs p = true) :
    ∃ u v, Rewritten u v ∧ p u v = true := by
  unfold rewrites at h
  split at h
  · rename_i u hu
    split at h
    · rename_i b hb
      split at h
      · rename_i v hv
        rw [Bool.and_eq_true, Bool.and_eq_true, decide_eq_true_eq] at h
        exact ⟨u, v, ⟨40, {}, bs, b, 999, {}, hu, plainLog_comesBack h.1.1, hb, rfl, rfl, rfl, h.1.2,
          Nat.le_trans (Nat.le_of_lt h.1.2) (by decide), hv⟩, h.2⟩
      · cases h
    · cases h
  · cases h

/-- a file with a topic of a time and a flag and these messages in the data section; the name of the system is in
an info message -/
def systemFile (name : Str) (msgs : List (Nat × Bytes)) : Bytes :=
  header ++ encMsgs [(tyF, encStr (py! "t:uint64_t timestamp;bool b;")), keyed tyI (py! "char[3] sys_name") (asc name)]
    ++ encMsgs ((tyA, [0] ++ leEnc 2 0 ++ encStr (py! "t")) :: msgs)

/-- a sample -/
def flagRow (t : Nat) (b : UInt8) : Nat × Bytes := (tyD, leEnc 2 0 ++ leEnc 8 t ++ [b])

/-- a text message -/
def textAt (t : Nat) (s : Str) : Nat × Bytes := (tyL, [54] ++ leEnc 8 t ++ asc s)

/-- samples out of order, and text messages out of order -/
def mixedRows : List (Nat × Bytes) :=
  [flagRow 9000000 1, textAt 7 (py! "later"), flagRow 5000000 0, textAt 6 (py! "early")]

/-- the lines of `ulog_info`, without values of messages -/
def infoOf (u : ULog) : Option (List Str) := (showInfo (fun _ => []) (fun _ => []) false u).toOption

/-- the csv files, elements as numbers -/
def csvOf (u : ULog) : Option (Dict Str Str) :=
  (convertCsv (fun | .int n => intDec n | _ => []) (py! "x") (py! ",") none none u).toOption

/-- the lines of `ulog_messages` -/
def textsOf (u : ULog) : Option (List Str) := (messageLines u (.ok [])).toOption

end Sample

/-- the hypotheses of `C104_params_partial`, `C104_info_partial`, `C104_message` and of the first part of `C104_messages_partial` hold for a
PX4 log whose samples and messages are out of order: `ulog_info` and `ulog_messages` print the same for both files,
and the csv files differ -/
example : ∃ u v, Rewritten u v ∧ NoBoolParams u ∧ FromPx4 u ∧ u.lastTs = (rowTimes u).foldl max u.startTs ∧
    u.fileCorrupt = false ∧ v.dataList ≠ u.dataList ∧
    Sample.textsOf u = some [py! "0:00:00 INFO: early", py! "0:00:00 INFO: later"] ∧
    (Sample.textsOf v = Sample.textsOf u ∧ Sample.infoOf v = Sample.infoOf u ∧ (Sample.infoOf u).isSome = true) ∧
    Sample.csvOf u = some [(py! "x_t_0.csv", py! "timestamp,b\n9000000,1\n5000000,0\n")] ∧
    Sample.csvOf v = some [(py! "x_t_0.csv", py! "timestamp,b\n5000000,0\n9000000,1\n")] := by
  obtain ⟨u, v, h, hp⟩ := Sample.rewrites_of (bs := Sample.systemFile (py! "PX4") Sample.mixedRows)
    (p := fun u v => decide (u.initialParams = [] ∧ u.defaultParams = [] ∧ u.changedParams = [] ∧
      u.info.get? (py! "sys_name") = some (.str (py! "PX4")) ∧ u.lastTs = (rowTimes u).foldl max u.startTs ∧
      u.fileCorrupt = false ∧ v.dataList ≠ u.dataList ∧
      Sample.textsOf u = some [py! "0:00:00 INFO: early", py! "0:00:00 INFO: later"] ∧
      (Sample.textsOf v = Sample.textsOf u ∧ Sample.infoOf v = Sample.infoOf u ∧ (Sample.infoOf u).isSome = true) ∧
      Sample.csvOf u = some [(py! "x_t_0.csv", py! "timestamp,b\n9000000,1\n5000000,0\n")] ∧
      Sample.csvOf v = some [(py! "x_t_0.csv", py! "timestamp,b\n5000000,0\n9000000,1\n")])) (by decide +kernel)
  obtain ⟨a, b, c, d, e, f⟩ := of_decide_eq_true hp
  exact ⟨u, v, h, ⟨fun p hp => (by rw [a] at hp; cases hp), fun p hp => (by rw [b] at hp; cases hp),
    fun p hp => (by rw [c] at hp; cases hp)⟩, d, e, f⟩

/-- the hypotheses of `C104_datasets_partial` and `C104_files_partial` hold for a loaded log with samples, messages, a dropout and
parameters -/
example : ∃ u v, Rewritten u v ∧ RowsInOrder u ∧ NoBoolParams u ∧ u.lastTs = (rowTimes u).foldl max u.startTs ∧
    u.dataList.length = 1 ∧ u.dropouts.length = 1 ∧ u.initialParams.length = 2 ∧ u.logged.length = 2 := by
  obtain ⟨b, hb⟩ := writeUlog_total Sample.small_writable Sample.small_encodable
  have hlen : b.length < 9999 := by
    have h : ((writeUlog Sample.small).toOption.map fun b => decide (b.length < 9999)) = some true := by
      decide +kernel
    rw [hb] at h
    exact of_decide_eq_true (Option.some.inj h)
  have hl := load_written (cfg := { depth := 5 }) Sample.small_writable hb rfl rfl rfl hlen
    (Nat.le_trans (Nat.le_of_lt hlen) (by decide))
  have hw := writable_canon Sample.small_writable
  have hc := comesBack_of hw
  obtain ⟨b2, hb2⟩ := writeUlog_total hw (encodable_canon Sample.small_writable Sample.small_encodable)
  have hlen2 : b2.length < 9999 := by
    have h : ((writeUlog (canon Sample.small)).toOption.map fun b => decide (b.length < 9999)) = some true := by
      decide +kernel
    rw [hb2] at h
    exact of_decide_eq_true (Option.some.inj h)
  have hl2 := load_written (cfg := { depth := 5 }) hw hb2 rfl rfl rfl hlen2 (Nat.le_trans (Nat.le_of_lt hlen2) (by decide))
  have hs := settled_canon Sample.small_writable
  exact ⟨canon Sample.small, _, ⟨9999, { depth := 5 }, b, b2, 9999, { depth := 5 }, hl, hc, hb2, rfl, rfl, rfl, hlen2,
    Nat.le_trans (Nat.le_of_lt hlen2) (by decide), hl2⟩, ⟨hs.rows, hs.values⟩, hs.params, hs.lastTs, by decide +kernel,
    by decide +kernel, by decide +kernel, by decide +kernel⟩

/-- **C104**, where the tools print something else for the new file: the warning of `ulog_info` about corruption is
gone; a flag with the byte 2 is 1 in the csv file; the messages of a log that is not from PX4 are in another order;
after a second subscription of an id, which discards the samples before it, the duration that `ulog_info` prints is
shorter -/
theorem C104_different :
    (∃ u v, Rewritten u v ∧
      (Sample.infoOf u).map (·.head?) = some (some (py! "Warning: file has data corruption(s)")) ∧
      (Sample.infoOf v).map (·.head?) = some (some (py! "Logging start time: 0:00:00, duration: 0:00:08"))) ∧
    (∃ u v, Rewritten u v ∧
      Sample.csvOf u = some [(py! "x_t_0.csv", py! "timestamp,b\n9000000,2\n")] ∧
      Sample.csvOf v = some [(py! "x_t_0.csv", py! "timestamp,b\n9000000,1\n")]) ∧
    (∃ u v, Rewritten u v ∧
      Sample.textsOf u = some [py! "0:00:00 INFO: later", py! "0:00:00 INFO: early"] ∧
      Sample.textsOf v = some [py! "0:00:00 INFO: early", py! "0:00:00 INFO: later"]) ∧
    ∃ u v, Rewritten u v ∧ u.fileCorrupt = false ∧
      (Sample.infoOf u).map (·.head?) = some (some (py! "Logging start time: 0:00:00, duration: 0:00:08")) ∧
      (Sample.infoOf v).map (·.head?) = some (some (py! "Logging start time: 0:00:00, duration: 0:00:04")) := by
  refine ⟨?_, ?_, ?_, ?_⟩
  · obtain ⟨u, v, h, hp⟩ := Sample.rewrites_of
      (bs := Sample.systemFile (py! "PX4") [Sample.flagRow 9000000 1, (tyD, leEnc 2 0 ++ [1])])
      (p := fun u v => decide (
        (Sample.infoOf u).map (·.head?) = some (some (py! "Warning: file has data corruption(s)")) ∧
        (Sample.infoOf v).map (·.head?) = some (some (py! "Logging start time: 0:00:00, duration: 0:00:08"))))
      (by decide +kernel)
    exact ⟨u, v, h, of_decide_eq_true hp⟩
  · obtain ⟨u, v, h, hp⟩ := Sample.rewrites_of
      (bs := Sample.systemFile (py! "PX4") [Sample.flagRow 9000000 2])
      (p := fun u v => decide (
        Sample.csvOf u = some [(py! "x_t_0.csv", py! "timestamp,b\n9000000,2\n")] ∧
        Sample.csvOf v = some [(py! "x_t_0.csv", py! "timestamp,b\n9000000,1\n")]))
      (by decide +kernel)
    exact ⟨u, v, h, of_decide_eq_true hp⟩
  · obtain ⟨u, v, h, hp⟩ := Sample.rewrites_of
      (bs := Sample.systemFile (py! "APM") Sample.mixedRows)
      (p := fun u v => decide (
        Sample.textsOf u = some [py! "0:00:00 INFO: later", py! "0:00:00 INFO: early"] ∧
        Sample.textsOf v = some [py! "0:00:00 INFO: early", py! "0:00:00 INFO: later"]))
      (by decide +kernel)
    exact ⟨u, v, h, of_decide_eq_true hp⟩
  · obtain ⟨u, v, h, hp⟩ := Sample.rewrites_of
      (bs := Sample.systemFile (py! "PX4") [Sample.flagRow 9000000 1,
        (tyA, [0] ++ leEnc 2 0 ++ encStr (py! "t")), Sample.flagRow 5000000 1])
      (p := fun u v => decide (u.fileCorrupt = false ∧
        (Sample.infoOf u).map (·.head?) = some (some (py! "Logging start time: 0:00:00, duration: 0:00:08")) ∧
        (Sample.infoOf v).map (·.head?) = some (some (py! "Logging start time: 0:00:00, duration: 0:00:04"))))
      (by decide +kernel)
    exact ⟨u, v, h, of_decide_eq_true hp⟩

end PyULog
