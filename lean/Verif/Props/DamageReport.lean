import Verif.Props.DamageTools
import Verif.Model.Main
/-
Property theorems: C111 (reports without sample values do not show a damaged sample).
-/
namespace PyULog
open Spec

/-- the change of the datasets, as a map that keeps the names of all datasets -/
theorem damaged_map {id : Nat} {v v' : ULog} (h : DamagedIn id v v') :
    ∃ f : Dataset → Dataset, v'.dataList = v.dataList.map f ∧ (∀ d, (f d).name = d.name ∧ (f d).multiId = d.multiId) ∧
      ∀ d ∈ v.dataList, OneRowDiffers d (f d) ∧ (d.msgId ≠ id → f d = d) := by
  obtain ⟨f, hf, hd⟩ := h.data
  refine ⟨fun d => if (f d).name = d.name ∧ (f d).multiId = d.multiId then f d else d, ?_, ?_, ?_⟩
  · rw [hf]
    apply List.map_congr_left
    intro d hm
    exact (if_pos (oneRow_name (hd d hm).1)).symm
  · intro d
    dsimp only
    split
    · rename_i hc; exact hc
    · exact ⟨rfl, rfl⟩
  · intro d hm
    dsimp only
    rw [if_pos (oneRow_name (hd d hm).1)]
    exact hd d hm

theorem tableLine_damaged {d d' : Dataset} (h : OneRowDiffers d d') : tableLine d' = tableLine d := by
  unfold tableLine messageSize
  obtain ⟨h1, h2⟩ := oneRow_name h
  rw [oneRow_fields h, h1, h2]
  cases hc : dictGet d.data (py! "timestamp") with
  | ok col =>
    obtain ⟨col', hc', hl⟩ := oneRow_column h hc
    rw [hc']
    simp only [ok_bind, hl]
  | error e =>
    have hl := get?_lens h.columns (py! "timestamp")
    unfold dictGet at hc ⊢
    cases h3 : Dict.get? d.data (py! "timestamp") with
    | some c => rw [h3] at hc; cases hc
    | none =>
      rw [h3] at hl hc
      cases hc
      cases h4 : Dict.get? d'.data (py! "timestamp") with
      | some c => rw [h4] at hl; simp at hl
      | none => rfl

theorem table_damaged {id : Nat} {v v' : ULog} (h : DamagedIn id v v') :
    (tableOrder v'.dataList).mapM tableLine = (tableOrder v.dataList).mapM tableLine := by
  obtain ⟨f, hf, hk, hd⟩ := damaged_map h
  have ho : tableOrder v'.dataList = (tableOrder v.dataList).map f := by
    unfold tableOrder
    rw [hf, ssort_map f]
    intro a b
    unfold tableKey
    rw [(hk a).1, (hk a).2, (hk b).1, (hk b).2]
  rw [ho, List.mapM_map]
  apply mapM_congr_mem
  intro d hm
  exact tableLine_damaged (hd d ((mem_ssort _ _ _).mp hm)).1

/-- **C111**: `ulog_info` prints the same lines for a log with a damaged sample, but for the line with the duration; if
the last timestamp is the same, this one too. -/
theorem C111_info {id : Nat} {v v' : ULog} (h : DamagedIn id v v') (fmt : Value → Str) (fl : List (List Value) → Str)
    (verbose : Bool) :
    (v'.lastTs = v.lastTs → showInfo fmt fl verbose v' = showInfo fmt fl verbose v) ∧
    ∀ lines, showInfo fmt fl verbose v = .ok lines → v'.startTs ≤ v'.lastTs →
      ∃ line, showInfo fmt fl verbose v' = .ok (lines.set (if v.fileCorrupt then 1 else 0) line) := by
  have h1 : v'.startTs = v.startTs := (congrArg (fun x : ULog => x.startTs) h.rest :)
  have h2 : v'.info = v.info := (congrArg (fun x : ULog => x.info) h.rest :)
  have h3 : v'.infoMulti = v.infoMulti := (congrArg (fun x : ULog => x.infoMulti) h.rest :)
  have h4 : v'.fileCorrupt = v.fileCorrupt := (congrArg (fun x : ULog => x.fileCorrupt) h.rest :)
  have h5 : dropoutLine v' = dropoutLine v := by
    unfold dropoutLine
    rw [h.dropouts]
  have h6 : getVersionInfoStr v' = getVersionInfoStr v := by
    unfold getVersionInfoStr getVersionInfo
    rw [h2]
  have h7 : infoLines fmt verbose v' = infoLines fmt verbose v := by unfold infoLines; rw [h2]
  have h8 : multiLines fl verbose v' = multiLines fl verbose v := by unfold multiLines; rw [h3]
  constructor
  · intro hl
    have h9 : timeLine v' = timeLine v := by unfold timeLine; rw [h1, hl]
    unfold showInfo
    rw [h4, h5, h6, h7, h8, h9, table_damaged h]
  · intro lines hv hs
    obtain ⟨line, hline⟩ : ∃ l, timeLine v' = .ok l := ⟨_, if_neg (by omega)⟩
    refine ⟨line, ?_⟩
    unfold showInfo at hv ⊢
    rw [h4, h5, h6, h7, h8, table_damaged h, hline]
    obtain ⟨t, ht, hv⟩ := except_bind_ok.mp hv
    obtain ⟨version, e1, hv⟩ := except_bind_ok.mp hv
    obtain ⟨infos, e2, hv⟩ := except_bind_ok.mp hv
    obtain ⟨multis, e3, hv⟩ := except_bind_ok.mp hv
    obtain ⟨rows, e4, hv⟩ := except_bind_ok.mp hv
    injection hv with hv
    simp only [ok_bind, e1, e2, e3, e4]
    rw [← hv]
    cases v.fileCorrupt <;> rfl

theorem params_same {v v' : ULog}
    (hrest : { v' with lastTs := 0, changedParams := [], dropouts := [], dataList := [] }
      = { v with lastTs := 0, changedParams := [], dropouts := [], dataList := [] })
    (hpar : v'.changedParams.map (·.2) = v.changedParams.map (·.2)) (fmt : Value → Str) (o : ParamOpts)
    (ht : o.timestamps = false ∨ v'.changedParams = v.changedParams) :
    paramsText fmt o v' = paramsText fmt o v := by
  have h1 : v'.initialParams = v.initialParams := (congrArg (fun x : ULog => x.initialParams) hrest :)
  have h2 : v'.defaultParams = v.defaultParams := (congrArg (fun x : ULog => x.defaultParams) hrest :)
  have h3 : v'.compat = v.compat := (congrArg (fun x : ULog => x.compat) hrest :)
  have hs : selectParams o v' = selectParams o v := by
    unfold selectParams getDefaults hasDefaultParameters getDefaultParameters
    rw [h1, h2, h3]
  have hc : ∀ key, (changesOf v' key).map (·.2) = (changesOf v key).map (·.2) := by
    have : ∀ (u : ULog) key, (changesOf u key).map (·.2)
        = (u.changedParams.map (·.2)).filterMap fun c => if c.1 = key then some c.2 else none := by
      intro u key
      unfold changesOf
      rw [List.map_filterMap, List.filterMap_map]
      congr 1
      funext c
      simp only [Function.comp]
      split <;> rfl
    intro key
    rw [this, this, hpar]
  have hp : ∀ key x, paramText fmt o v' key x = paramText fmt o v key x := by
    intro key x
    rcases ht with ht | ht
    · have hm : ∀ key, (changesOf v' key).map (fun c => fmt c.2) = (changesOf v key).map (fun c => fmt c.2) := by
        intro key
        have := congrArg (List.map fmt) (hc key)
        rwa [List.map_map, List.map_map] at this
      unfold paramText paramCsv paramOctave
      simp only [ht, hm, hc, Bool.false_eq_true, if_false]
    · have hx : ∀ key, changesOf v' key = changesOf v key := by
        intro key
        unfold changesOf
        rw [ht]
      unfold paramText paramCsv paramOctave
      simp only [hx]
  unfold paramsText
  rw [hs]
  simp only [hp]

theorem message_same {v v' : ULog}
    (hrest : { v' with lastTs := 0, changedParams := [], dropouts := [], dataList := [] }
      = { v with lastTs := 0, changedParams := [], dropouts := [], dataList := [] }) (newline : Bool) (name : Str) :
    showMessage newline v' name = showMessage newline v name := by
  have h1 : v'.infoMulti = v.infoMulti := (congrArg (fun x : ULog => x.infoMulti) hrest :)
  unfold showMessage
  rw [h1]

theorem messages_same {J : Type} {v v' : ULog}
    (hrest : { v' with lastTs := 0, changedParams := [], dropouts := [], dataList := [] }
      = { v with lastTs := 0, changedParams := [], dropouts := [], dataList := [] })
    (h3 : getDataset v' (py! "event") = getDataset v (py! "event")) (env : EventEnv EventParser J) :
    messageLines v' (timedEvents env v') = messageLines v (timedEvents env v) := by
  have h1 : v'.logged = v.logged := (congrArg (fun x : ULog => x.logged) hrest :)
  have h2 : v'.info = v.info := (congrArg (fun x : ULog => x.info) hrest :)
  have h4 : v'.infoMulti = v.infoMulti := (congrArg (fun x : ULog => x.infoMulti) hrest :)
  have h5 : timedEvents env v' = timedEvents env v := by
    unfold timedEvents getLoggedEvents getEventParser embeddedParser
    rw [h3, h2, h4]
  unfold messageLines allMessages
  rw [h1, h2, h5]

/-- **C111**: `ulog_params` prints the same for a log with a damaged or lost sample, if it is not asked for the times of
the changes, or these are the same. -/
theorem C111_params {id : Nat} {v v' : ULog} (h : DamagedIn id v v' ∨ LostIn id v v') (fmt : Value → Str) (o : ParamOpts)
    (ht : o.timestamps = false ∨ v'.changedParams = v.changedParams) :
    paramsText fmt o v' = paramsText fmt o v := by
  rcases h with h | h <;> exact params_same h.rest h.params fmt o ht

/-- **C111**: `ulog_info --message` prints the same for a log with a damaged or lost sample. -/
theorem C111_message {id : Nat} {v v' : ULog} (h : DamagedIn id v v' ∨ LostIn id v v') (newline : Bool) (name : Str) :
    showMessage newline v' name = showMessage newline v name := by
  rcases h with h | h <;> exact message_same h.rest newline name

/-- **C111**: `ulog_messages` prints the same for a log with a damaged or lost sample that is no event. -/
theorem C111_messages {J : Type} {id : Nat} {v v' : ULog} (h : DamagedIn id v v' ∨ LostIn id v v')
    (he : ∀ d ∈ v.dataList, d.msgId = id → d.name ≠ py! "event") (env : EventEnv EventParser J) :
    messageLines v' (timedEvents env v') = messageLines v (timedEvents env v) := by
  rcases h with h | h
  · refine messages_same h.rest ?_ env
    obtain ⟨f, hf, hk, hd⟩ := damaged_map h
    unfold getDataset
    rw [hf, List.filter_map]
    have : v.dataList.filter ((fun d : Dataset => decide (d.name = py! "event" ∧ (d.multiId : Int) = 0)) ∘ f)
        = v.dataList.filter fun d => decide (d.name = py! "event" ∧ (d.multiId : Int) = 0) := by
      apply List.filter_congr
      intro d _
      show decide ((f d).name = _ ∧ ((f d).multiId : Int) = 0) = _
      rw [(hk d).1, (hk d).2]
    rw [this, List.map_congr_left (g := fun d => d), List.map_id']
    intro d hm
    obtain ⟨h4, h5⟩ := List.mem_filter.mp hm
    exact (hd d h4).2 fun hi => he d h4 hi (of_decide_eq_true h5).1
  · refine messages_same h.rest ?_ env
    rcases h.data with hd | ⟨i, hd, -⟩
    · unfold getDataset
      rw [hd]
    · have key : ∀ l : List Dataset, (∀ d ∈ l, d.msgId = id → d.name ≠ py! "event") →
          (withoutSample id i l).filter (fun d => decide (d.name = py! "event" ∧ (d.multiId : Int) = 0))
            = l.filter fun d => decide (d.name = py! "event" ∧ (d.multiId : Int) = 0) := by
        intro l
        unfold withoutSample
        induction l with
        | nil => intro _; rfl
        | cons d l ih =>
          intro hl
          have ih := ih fun x hx => hl x (List.mem_cons_of_mem _ hx)
          by_cases hi : d.msgId = id
          · have hne := hl d (List.mem_cons_self ..) hi
            rw [List.filter_cons_of_neg (p := fun d : Dataset => decide (d.name = _ ∧ _)) (a := d) (by simp [hne])]
            cases ho : oneRow d with
            | true => rw [List.filter_cons_of_neg (by simp [hi, ho])]; exact ih
            | false =>
              rw [List.filter_cons_of_pos (by simp [ho]), List.map_cons, if_pos hi,
                List.filter_cons_of_neg (by show ¬ decide (d.name = _ ∧ _) = true; simp [hne])]
              exact ih
          · rw [List.filter_cons_of_pos (p := fun d : Dataset => !(decide (d.msgId = id) && oneRow d)) (by simp [hi]),
              List.map_cons, if_neg hi, List.filter_cons, List.filter_cons, ih]
      unfold getDataset
      rw [hd, key _ he]

open Sample in
/-- the reports for the sample log, for the log with a damaged sample, and for a log without one -/
example : (get (load 20 {} (damaged (da 110 99)))).lastTs = (get (load 20 {} file)).lastTs ∧
    (showInfo (fun _ => []) (fun _ => []) false (get (load 20 {} (damaged (da 110 99))))).toOption
      = (showInfo (fun _ => []) (fun _ => []) false (get (load 20 {} file))).toOption ∧
    (showInfo (fun _ => []) (fun _ => []) false (get (load 20 {} file))).toOption.isSome = true ∧
    (paramsText (fun | .int n => intDec n | _ => []) {} (get (load 20 {} (damaged (da (2 ^ 40) 99))))).toOption
      = some (py! "K,6,8,10\n") ∧
    (paramsText (fun | .int n => intDec n | _ => []) { timestamps := true } (get (load 20 {} (damaged (da (2 ^ 40) 99))))).toOption
      ≠ (paramsText (fun | .int n => intDec n | _ => []) { timestamps := true } (get (load 20 {} file))).toOption ∧
    (∀ d ∈ (get (load 20 {} file)).dataList, d.msgId = 3 → d.name ≠ py! "event") := by
  refine ⟨by decide +kernel, by decide +kernel, by decide +kernel, by decide +kernel, by decide +kernel,
    by decide +kernel⟩

end PyULog
