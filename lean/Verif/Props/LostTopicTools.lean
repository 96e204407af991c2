import Verif.Spec.LostTopicTools
import Verif.Props.LostTopic
import Verif.Props.DamageReport
/-
Property theorems: C115 (what the tools show of a log of which one subscription is missing).
-/
namespace PyULog
open Spec

/-- **C115**: `ulog2csv` works on the log without the subscription if it works on the other one, for every time range,
and writes the same files, but for those of the lost topic, which are missing. No two datasets have the same file
name. -/
theorem C115_csv {id : Nat} {v v' : ULog} (h : LostTopic id v v') {fmt : NpVal → Str} {pre delim : Str}
    {timeS timeE : Option Int} {files : Dict Str Str} (hn : (v.dataList.map (csvName pre)).Nodup)
    (hv : convertCsv fmt pre delim timeS timeE v = .ok files) :
    ∃ files', convertCsv fmt pre delim timeS timeE v' = .ok files' ∧
      ∀ name, ((∃ d ∈ v.dataList, d.msgId = id ∧ csvName pre d = name) → files'.get? name = none) ∧
        ((¬ ∃ d ∈ v.dataList, d.msgId = id ∧ csvName pre d = name) → files'.get? name = files.get? name) := by
  have hall : ∀ d ∈ v.dataList, ∃ text, csvFile fmt delim timeS timeE d = .ok text := by
    obtain ⟨texts, h1, -⟩ := foldlM_files fmt pre delim timeS timeE v.dataList [] files
      (by simpa [Dict.keys] using hn) hv
    exact mapM_elems h1
  have hmem : ∀ d, d ∈ v'.dataList ↔ d ∈ v.dataList ∧ d.msgId ≠ id := by
    intro d
    rw [h.data, List.mem_filter, decide_eq_true_eq]
  have hn' : (v'.dataList.map (csvName pre)).Nodup := by
    rw [h.data]
    exact hn.sublist (List.Sublist.map _ List.filter_sublist)
  obtain ⟨files', hv'⟩ := convertCsv_can (fmt := fmt) (pre := pre) (delim := delim) (timeS := timeS) (timeE := timeE)
    (u := v') fun d hd => hall d ((hmem d).mp hd).1
  refine ⟨files', hv', fun name => ⟨?_, ?_⟩⟩
  · rintro ⟨d, hd, hi, hk⟩
    cases hg : files'.get? name with
    | none => rfl
    | some text =>
      obtain ⟨d', hd', hk', -⟩ := (convertCsv_file hn' hv' name text).mp hg
      obtain ⟨hd', hi'⟩ := (hmem d').mp hd'
      have := nodup_map_inj hn hd hd' (hk.trans hk'.symm)
      subst this
      exact absurd hi hi'
  · intro hx
    have key : ∀ text, files'.get? name = some text ↔ files.get? name = some text := by
      intro text
      rw [convertCsv_file hn' hv', convertCsv_file hn hv]
      constructor
      · rintro ⟨d, hd, hk, ht⟩
        exact ⟨d, ((hmem d).mp hd).1, hk, ht⟩
      · rintro ⟨d, hd, hk, ht⟩
        exact ⟨d, (hmem d).mpr ⟨hd, fun hi => hx ⟨d, hd, hi, hk⟩⟩, hk, ht⟩
    cases hg : files.get? name with
    | some text => exact (key text).mpr hg
    | none =>
      cases hg' : files'.get? name with
      | none => rfl
      | some text => rw [(key text).mp hg'] at hg; cases hg

theorem lostTopic_getDataset {id : Nat} {v v' : ULog} (h : LostTopic id v v') {name : Str} {multi : Int}
    (hx : ∀ d ∈ v.dataList, d.name = name → (d.multiId : Int) = multi → d.msgId ≠ id) :
    getDataset v' name multi = getDataset v name multi := by
  unfold getDataset
  rw [h.data, List.filter_filter]
  congr 1
  apply List.filter_congr
  intro d hd
  by_cases hc : d.name = name ∧ (d.multiId : Int) = multi
  · have := hx d hd hc.1 hc.2
    simp [hc, this]
  · simp [hc]

/-- **C115**: `extract_message` returns the same rows for every other message, and raises AttributeError for the lost
one. -/
theorem C115_extract {id : Nat} {v v' : ULog} (h : LostTopic id v v') (message : Str) (timeS timeE : Option Int) :
    ((∀ d ∈ v.dataList, d.name = message → d.multiId = 0 → d.msgId ≠ id) →
      extractFrom v' message timeS timeE = extractFrom v message timeS timeE) ∧
    ((∀ d ∈ v.dataList, d.name = message → d.multiId = 0 → d.msgId = id) →
      extractFrom v' message timeS timeE = .error .attributeError) := by
  constructor
  · intro hx
    unfold extractFrom
    rw [lostTopic_getDataset h fun d hd h1 h2 => hx d hd h1 (by omega)]
  · intro hx
    have hnil : v'.dataList.filter (fun d => decide (d.name = message ∧ (d.multiId : Int) = 0)) = [] := by
      rw [List.filter_eq_nil_iff]
      intro d hd hc
      rw [h.data] at hd
      obtain ⟨hd, hi⟩ := List.mem_filter.mp hd
      have hc := of_decide_eq_true hc
      exact of_decide_eq_true hi (hx d hd hc.1 (by omega))
    unfold extractFrom getDataset
    rw [hnil]
    rfl

/-- **C115**: `ulog_info` prints the same, but for the warning about a corrupt log, the duration, and the lines of the
lost topic in the table, which are missing. -/
theorem C115_info {id : Nat} {v v' : ULog} (h : LostTopic id v v') (fmt : Value → Str) (fl : List (List Value) → Str)
    (verbose : Bool) {lines : List Str} (hv : showInfo fmt fl verbose v = .ok lines) (hs : v'.startTs ≤ v'.lastTs) :
    ∃ lines', showInfo fmt fl verbose v' = .ok lines' ∧ SameReport id v v' lines lines' := by
  have h1 : v'.startTs = v.startTs := (congrArg (fun x : ULog => x.startTs) h.rest :)
  have h2 : v'.info = v.info := (congrArg (fun x : ULog => x.info) h.rest :)
  have h3 : v'.infoMulti = v.infoMulti := (congrArg (fun x : ULog => x.infoMulti) h.rest :)
  have h5 : dropoutLine v' = dropoutLine v := by
    unfold dropoutLine
    rw [h.dropouts]
  have h6 : getVersionInfoStr v' = getVersionInfoStr v := by
    unfold getVersionInfoStr getVersionInfo
    rw [h2]
  have h7 : infoLines fmt verbose v' = infoLines fmt verbose v := by unfold infoLines; rw [h2]
  have h8 : multiLines fl verbose v' = multiLines fl verbose v := by unfold multiLines; rw [h3]
  have ht : TotalPre fun a b : Dataset => strLe (tableKey a) (tableKey b) :=
    ⟨fun a b c => strLe_trans _ _ _, fun a b => strLe_total _ _⟩
  have ho : tableOrder v'.dataList = (tableOrder v.dataList).filter fun d => decide (d.msgId ≠ id) := by
    unfold tableOrder
    rw [h.data, filter_ssort ht]
  obtain ⟨time', htime'⟩ : ∃ l, timeLine v' = .ok l := ⟨_, if_neg (by omega)⟩
  unfold showInfo at hv ⊢
  obtain ⟨time, htime, hv⟩ := except_bind_ok.mp hv
  obtain ⟨version, e1, hv⟩ := except_bind_ok.mp hv
  obtain ⟨infos, e2, hv⟩ := except_bind_ok.mp hv
  obtain ⟨multis, e3, hv⟩ := except_bind_ok.mp hv
  obtain ⟨rows, e4, hv⟩ := except_bind_ok.mp hv
  obtain ⟨hrows, hrow⟩ := mapM_ok_map e4
  have hrows' := mapM_ok (f := tableLine) (g := fun a => (tableLine a).toOption.getD default)
    (l := (tableOrder v.dataList).filter fun d => decide (d.msgId ≠ id))
    fun a ha => hrow a (List.mem_filter.mp ha).1
  rw [h5, h6, h7, h8, htime', ho, hrows']
  simp only [ok_bind, e1, e2, e3]
  have main : ∀ sw : List Str, SameReport id v v'
      (warningLine v.fileCorrupt ++ [time, dropoutLine v] ++ sw ++ [py! "Info Messages:"] ++ infos ++ multis
        ++ [[], tableHead] ++ rows)
      (warningLine v'.fileCorrupt ++ [time', dropoutLine v] ++ sw ++ [py! "Info Messages:"] ++ infos ++ multis
        ++ [[], tableHead] ++ ((tableOrder v.dataList).filter fun d => decide (d.msgId ≠ id)).map
          fun a => (tableLine a).toOption.getD default) := by
    intro sw
    refine ⟨time, time', [dropoutLine v] ++ sw ++ [py! "Info Messages:"] ++ infos ++ multis ++ [[], tableHead],
      (tableOrder v.dataList).map fun d => (d, (tableLine d).toOption.getD default), ?_, ?_, ?_, ?_⟩
    · rw [List.map_map]
      show ((tableOrder v.dataList).map fun d => d).Perm _
      rw [List.map_id']
      exact ssort_perm _ _
    · rw [hrows, List.map_map]
      simp only [List.append_assoc, List.cons_append, List.nil_append]
      rfl
    · rw [List.filter_map, List.map_map]
      simp only [List.append_assoc, List.cons_append, List.nil_append]
      rfl
    · intro hl
      have h9 : timeLine v' = timeLine v := by unfold timeLine; rw [h1, hl]
      rw [htime', htime] at h9
      injection h9
  cases version with
  | none =>
    injection hv with hv
    exact ⟨_, rfl, hv ▸ main []⟩
  | some sw =>
    injection hv with hv
    exact ⟨_, rfl, hv ▸ main [py! "SW Version: " ++ sw]⟩

/-- the log with the loss unnoticed -/
theorem lostTopic_rest {id : Nat} {v v' : ULog} (h : LostTopic id v v') :
    ({ ({ v' with missingIds := v.missingIds, fileCorrupt := v.fileCorrupt } : ULog) with
      lastTs := 0, changedParams := [], dropouts := [], dataList := [] } : ULog)
    = { v with lastTs := 0, changedParams := [], dropouts := [], dataList := [] } :=
  (congrArg (fun x : ULog => { x with missingIds := v.missingIds, fileCorrupt := v.fileCorrupt }) h.rest :)

/-- **C115**: `ulog_params` prints the same, if it is not asked for the times of the changes, or these are the same. -/
theorem C115_params {id : Nat} {v v' : ULog} (h : LostTopic id v v') (fmt : Value → Str) (o : ParamOpts)
    (ht : o.timestamps = false ∨ v'.changedParams = v.changedParams) : paramsText fmt o v' = paramsText fmt o v :=
  params_same (v' := { v' with missingIds := v.missingIds, fileCorrupt := v.fileCorrupt }) (lostTopic_rest h) h.params
    fmt o ht

/-- **C115**: `ulog_info --message` prints the same. -/
theorem C115_message {id : Nat} {v v' : ULog} (h : LostTopic id v v') (newline : Bool) (name : Str) :
    showMessage newline v' name = showMessage newline v name :=
  message_same (v' := { v' with missingIds := v.missingIds, fileCorrupt := v.fileCorrupt }) (lostTopic_rest h) newline name

/-- **C115**: `ulog_messages` prints the same, unless the lost topic is the one of the events. -/
theorem C115_messages {J : Type} {id : Nat} {v v' : ULog} (h : LostTopic id v v')
    (he : ∀ d ∈ v.dataList, d.msgId = id → d.name ≠ py! "event") (env : EventEnv EventParser J) :
    messageLines v' (timedEvents env v') = messageLines v (timedEvents env v) :=
  messages_same (v' := { v' with missingIds := v.missingIds, fileCorrupt := v.fileCorrupt }) (lostTopic_rest h)
    (lostTopic_getDataset h fun d hd h1 _ hi => he d hd hi h1) env

open Sample in
/-- the tools for the sample log, and without the subscription of `b` -/
theorem C115_sample :
    (extractFrom (get (load 20 {} file)) (py! "a") none none).toOption.isSome = true ∧
    (extractFrom (get (load 20 {} (without 1))) (py! "a") none none).toOption
      = (extractFrom (get (load 20 {} file)) (py! "a") none none).toOption ∧
    (showInfo (fun _ => []) (fun _ => []) false (get (load 20 {} file))).toOption.map List.length = some 10 ∧
    (showInfo (fun _ => []) (fun _ => []) false (get (load 20 {} (without 1)))).toOption.map List.length = some 9 ∧
    (get (load 20 {} (without 1))).startTs ≤ (get (load 20 {} (without 1))).lastTs := by
  refine ⟨by decide +kernel, by decide +kernel, by decide +kernel, by decide +kernel, by decide +kernel⟩

end PyULog
