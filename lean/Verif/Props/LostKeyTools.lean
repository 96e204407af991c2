import Verif.Lemmas.LostKeyTools
import Verif.Props.LostKey
import Verif.Props.DamageReport
/-
Property theorems: C113 (what the tools show of a lost info message or parameter).
-/
namespace PyULog
open Spec

theorem filter_const {α : Type} (l : List α) : l.filter (fun _ => true) = l := List.filter_eq_self.mpr fun _ _ => rfl

theorem paramText_same {u v : ULog} (h : v.changedParams = u.changedParams) (fmt : Value → Str) (o : ParamOpts) :
    paramText fmt o v = paramText fmt o u := by
  funext key x
  unfold paramText paramCsv paramOctave changesOf
  rw [h]

theorem paramsText_sorted {fmt : Value → Str} {o : ParamOpts} {u : ULog} {params : Dict Str Value}
    (hs : selectParams o u = .ok params) (hd : DictOk params) :
    paramsText fmt o u = .ok ((ssort keyLe params).flatMap fun e => paramText fmt o u e.1 e.2) := by
  unfold paramsText
  rw [hs]
  simp only [ok_bind]
  have := sortedKeys_mapM hd (paramText fmt o u) (fun _ => true)
  rw [filter_const, filter_const] at this
  rw [this]
  simp only [ok_bind]
  rw [List.flatMap_def]

theorem select_cases (o : ParamOpts) {u v : ULog} (hc : v.compat = u.compat) :
    (∃ e, selectParams o u = .error e ∧ selectParams o v = .error e) ∨
    (selectParams o u = .ok (printedParams o u) ∧ selectParams o v = .ok (printedParams o v)) := by
  unfold selectParams printedParams
  cases o.default with
  | none => exact .inr ⟨rfl, rfl⟩
  | some w =>
    simp only
    unfold getDefaults hasDefaultParameters getDefaultParameters
    rw [hc]
    split
    · split
      · exact .inr ⟨rfl, rfl⟩
      · split
        · exact .inr ⟨rfl, rfl⟩
        · exact .inl ⟨_, rfl, rfl⟩
    · exact .inl ⟨_, rfl, rfl⟩

theorem printed_ok {u : ULog} (h : DictsOk u) (o : ParamOpts) : DictOk (printedParams o u) := by
  unfold printedParams
  split
  · exact h.initial
  · rename_i w hw
    generalize (if w = py! "system" then 0 else 1) = i
    cases hg : u.defaultParams.get? i with
    | none => exact List.nodup_nil
    | some d => exact h.default (i, d) (Dict.mem_of_get? _ _ _ hg)

/-- **C113**: `ulog_params` fails in the same way, or prints the same but for what it prints for the key of the
lost or damaged message; the same at all if it does not print parameters of this type. -/
theorem C113_params {fuel fuel' : Nat} {cfg cfg' : Cfg} {bs bs' : Bytes} {v v' : ULog} {ty : Nat} {k : Str}
    (hv : load fuel cfg bs = .ok v) (hv' : load fuel' cfg' bs' = .ok v') (h : OnlyKey ty k v v')
    (fmt : Value → Str) (o : ParamOpts) :
    SameResult (fun t t' =>
        DifferAt (partOf (printedParams o v) k (paramText fmt o v k)) (partOf (printedParams o v') k (paramText fmt o v k)) t t' ∧
        (ty ≠ (if o.default = none then tyP else tyQ) → t' = t))
      (paramsText fmt o v) (paramsText fmt o v') := by
  rcases select_cases o (u := v) (v := v') (by have := congrArg ULog.compat h.rest; exact this) with ⟨e, h1, h2⟩ | ⟨h1, h2⟩
  · refine .inl ⟨e, ?_, ?_⟩
    · unfold paramsText; rw [h1]; rfl
    · unfold paramsText; rw [h2]; rfl
  · have hb : SameBut (ty = (if o.default = none then tyP else tyQ)) k (printedParams o v) (printedParams o v') := by
      unfold printedParams
      cases o.default with
      | none => exact h.initial
      | some w =>
        simp only
        generalize (if w = py! "system" then 0 else 1) = i
        refine ⟨h.defaults.1 i, fun hn => ?_⟩
        rw [h.defaults.2 (by simpa using hn)]
    have d := printed_ok (load_dicts hv) o
    have d' := printed_ok (load_dicts hv') o
    have hp := paramText_same (u := v) (v := v') (by have := congrArg ULog.changedParams h.rest; exact this) fmt o
    refine .inr ⟨_, _, paramsText_sorted h1 d, paramsText_sorted h2 d', ?_, fun hn => ?_⟩
    · rw [hp]
      exact sorted_differ d d' hb fun e => paramText fmt o v e.1 e.2
    · rw [hp, hb.2 hn]

/-! ### ulog_info -/

/-- the line of an info message -/
def Spec.infoPart (fmt : Value → Str) (verbose : Bool) (k : Str) (x : Value) : List Str :=
  if (py! "perf_").isPrefixOf k && !verbose then [] else [py! " " ++ k ++ py! ": " ++ fmt x]

theorem infoLines_sorted (fmt : Value → Str) (verbose : Bool) {u : ULog} (hd : DictOk u.info) :
    infoLines fmt verbose u = .ok ((ssort keyLe u.info).flatMap fun e => infoPart fmt verbose e.1 e.2) := by
  unfold infoLines
  have := sortedKeys_mapM hd (fun k v => py! " " ++ k ++ py! ": " ++ fmt v)
    (fun k => !startsWith (py! "perf_") k || verbose)
  refine this.trans (congrArg Except.ok ?_)
  generalize ssort keyLe u.info = l
  induction l with
  | nil => rfl
  | cons e l ih =>
    rw [List.flatMap_cons, ← ih]
    rw [List.filter_cons]
    unfold infoPart startsWith
    cases (py! "perf_").isPrefixOf e.1 <;> cases verbose <;> simp

theorem multiLines_total (fl : List (List Value) → Str) (verbose : Bool) {u : ULog} (hd : DictOk u.infoMulti) :
    ∃ l, multiLines fl verbose u = .ok l := by
  obtain ⟨es, -, -, h⟩ := multiLines_spec fl verbose hd
  exact ⟨_, h⟩

theorem version_same {u v : ULog} (h : v.info.get? (py! "ver_sw_release") = u.info.get? (py! "ver_sw_release")) :
    getVersionInfoStr v = getVersionInfoStr u := by
  unfold getVersionInfoStr getVersionInfo
  rw [h]

theorem showInfo_around {fmt : Value → Str} {fl : List (List Value) → Str} {verbose : Bool} {u v : ULog}
    (hr : { v with info := [], infoTypes := [], infoMulti := [], infoMultiTypes := [], initialParams := [],
                   defaultParams := [] }
      = { u with info := [], infoTypes := [], infoMulti := [], infoMultiTypes := [], initialParams := [],
                 defaultParams := [] })
    (hver : v.info.get? (py! "ver_sw_release") = u.info.get? (py! "ver_sw_release"))
    {L L' M M' : List Str} (h1 : infoLines fmt verbose u = .ok L) (h2 : infoLines fmt verbose v = .ok L')
    (h3 : multiLines fl verbose u = .ok M) (h4 : multiLines fl verbose v = .ok M') :
    SameResult (fun t t' => ∃ a b, t = a ++ (L ++ M) ++ b ∧ t' = a ++ (L' ++ M') ++ b)
      (showInfo fmt fl verbose u) (showInfo fmt fl verbose v) := by
  have e1 : timeLine v = timeLine u := by
    unfold timeLine
    rw [show v.lastTs = u.lastTs by have := congrArg ULog.lastTs hr; exact this, show v.startTs = u.startTs by have := congrArg ULog.startTs hr; exact this]
  have e2 : dropoutLine v = dropoutLine u := by
    unfold dropoutLine
    rw [show v.dropouts = u.dropouts by have := congrArg ULog.dropouts hr; exact this]
  have e3 : v.fileCorrupt = u.fileCorrupt := by have := congrArg ULog.fileCorrupt hr; exact this
  have e4 : v.dataList = u.dataList := by have := congrArg ULog.dataList hr; exact this
  unfold showInfo
  rw [h1, h2, h3, h4, e1, e2, e3, e4, version_same hver]
  cases timeLine u with
  | error e => exact .inl ⟨e, rfl, rfl⟩
  | ok t =>
    cases getVersionInfoStr u with
    | error e => exact .inl ⟨e, rfl, rfl⟩
    | ok ver =>
      cases (tableOrder u.dataList).mapM tableLine with
      | error e => exact .inl ⟨e, rfl, rfl⟩
      | ok rows =>
        have key : ∀ p l m x r : List Str, p ++ l ++ m ++ x ++ r = p ++ (l ++ m) ++ (x ++ r) := by
          intro p l m x r
          simp only [List.append_assoc]
        exact .inr ⟨_, _, rfl, rfl, _, _, key _ L M _ _, key _ L' M' _ _⟩

theorem Spec.SameResult.mono {α : Type} {R S : α → α → Prop} {r s : Except PyErr α} (h : SameResult R r s)
    (hs : ∀ t t', R t t' → S t t') : SameResult S r s := by
  rcases h with h | ⟨v, v', h1, h2, h3⟩
  · exact .inl h
  · exact .inr ⟨v, v', h1, h2, hs v v' h3⟩

/-- **C113** for an info message in `ulog_info`: its line is the only one that may differ, unless it is the one
with the version. -/
theorem C113_info {fuel fuel' : Nat} {cfg cfg' : Cfg} {bs bs' : Bytes} {v v' : ULog} {k : Str}
    (hv : load fuel cfg bs = .ok v) (hv' : load fuel' cfg' bs' = .ok v') (h : OnlyKey tyI k v v')
    (hk : k ≠ py! "ver_sw_release") (fmt : Value → Str) (fl : List (List Value) → Str) (verbose : Bool) :
    SameResult (DifferAt (partOf v.info k (infoPart fmt verbose k)) (partOf v'.info k (infoPart fmt verbose k)))
      (showInfo fmt fl verbose v) (showInfo fmt fl verbose v') := by
  have d := load_dicts hv
  have d' := load_dicts hv'
  obtain ⟨M, hM⟩ := multiLines_total fl verbose d.infoMulti
  have hM' : multiLines fl verbose v' = .ok M := by
    rw [← hM]
    unfold multiLines
    rw [h.infoMulti.2 (by decide)]
  refine (showInfo_around h.rest (h.info.get (Ne.symm hk)) (infoLines_sorted fmt verbose d.info)
    (infoLines_sorted fmt verbose d'.info) hM hM').mono ?_
  rintro t t' ⟨a, b, rfl, rfl⟩
  obtain ⟨x, y, e1, e2⟩ := sorted_differ d.info d'.info h.info fun e => infoPart fmt verbose e.1 e.2
  refine ⟨a ++ x, y ++ M ++ b, ?_, ?_⟩
  · rw [e1]; simp only [List.append_assoc]
  · rw [e2]; simp only [List.append_assoc]

/-- **C113** for a multi info message in `ulog_info` -/
theorem C113_info_multi {fuel fuel' : Nat} {cfg cfg' : Cfg} {bs bs' : Bytes} {v v' : ULog} {k : Str}
    (hv : load fuel cfg bs = .ok v) (hv' : load fuel' cfg' bs' = .ok v') (h : OnlyKey tyM k v v')
    (fmt : Value → Str) (fl : List (List Value) → Str) (verbose : Bool) :
    ∃ M M', multiLines fl verbose v = .ok M ∧ multiLines fl verbose v' = .ok M' ∧
      SameResult (DifferAt M M') (showInfo fmt fl verbose v) (showInfo fmt fl verbose v') := by
  have d := load_dicts hv
  have d' := load_dicts hv'
  obtain ⟨M, hM⟩ := multiLines_total fl verbose d.infoMulti
  obtain ⟨M', hM'⟩ := multiLines_total fl verbose d'.infoMulti
  have hi : v'.info = v.info := h.info.2 (by decide)
  refine ⟨M, M', hM, hM', ?_⟩
  refine (showInfo_around h.rest (by rw [hi]) (infoLines_sorted fmt verbose d.info)
    (infoLines_sorted fmt verbose d'.info) hM hM').mono ?_
  rintro t t' ⟨a, b, rfl, rfl⟩
  rw [hi]
  have key : ∀ l m : List Str, a ++ (l ++ m) ++ b = (a ++ l) ++ m ++ b := by
    intro l m
    simp only [List.append_assoc]
  exact ⟨_, b, key _ M, key _ M'⟩

/-- with `--verbose`, the list of multi info messages differs in the line of the key, if there are others -/
theorem C113_multi_lines {fuel fuel' : Nat} {cfg cfg' : Cfg} {bs bs' : Bytes} {v v' : ULog} {k : Str}
    (hv : load fuel cfg bs = .ok v) (hv' : load fuel' cfg' bs' = .ok v') (h : OnlyKey tyM k v v')
    (fl : List (List Value) → Str) (ho : others k v.infoMulti ≠ []) :
    SameResult (DifferAt (partOf v.infoMulti k fun x => [py! " " ++ k ++ py! ": " ++ fl x])
        (partOf v'.infoMulti k fun x => [py! " " ++ k ++ py! ": " ++ fl x]))
      (multiLines fl true v) (multiLines fl true v') := by
  have key : ∀ u : ULog, DictOk u.infoMulti → others k u.infoMulti ≠ [] →
      multiLines fl true u = .ok (py! "Info Multiple Messages:" :: (ssort keyLe u.infoMulti).flatMap fun e =>
        [py! " " ++ e.1 ++ py! ": " ++ fl e.2]) := by
    intro u hd hne
    unfold multiLines
    have hl : u.infoMulti.length > 0 := by
      cases hu : u.infoMulti with
      | nil => rw [hu] at hne; exact absurd rfl hne
      | cons a l => simp
    rw [if_pos hl, if_pos rfl]
    have := sortedKeys_mapM hd (fun k v => py! " " ++ k ++ py! ": " ++ fl v) (fun _ => true)
    rw [filter_const, filter_const] at this
    rw [this]
    simp only [ok_bind]
    rw [List.map_eq_flatMap]
  have d := load_dicts hv
  have d' := load_dicts hv'
  refine .inr ⟨_, _, key v d.infoMulti ho, key v' d'.infoMulti (by rw [h.infoMulti.1]; exact ho), ?_⟩
  obtain ⟨x, y, e1, e2⟩ := sorted_differ d.infoMulti d'.infoMulti h.infoMulti fun e => [py! " " ++ e.1 ++ py! ": " ++ fl e.2]
  exact ⟨_ :: x, y, by rw [e1]; rfl, by rw [e2]; rfl⟩

/-- **C113** for a parameter in `ulog_info`: parameters are not printed -/
theorem C113_info_same {v v' : ULog} {ty : Nat} {k : Str} (h : OnlyKey ty k v v') (hI : ty ≠ tyI) (hM : ty ≠ tyM)
    (fmt : Value → Str) (fl : List (List Value) → Str) (verbose : Bool) :
    showInfo fmt fl verbose v' = showInfo fmt fl verbose v := by
  have e1 : timeLine v' = timeLine v := by
    unfold timeLine
    rw [show v'.lastTs = v.lastTs by have := congrArg ULog.lastTs h.rest; exact this,
      show v'.startTs = v.startTs by have := congrArg ULog.startTs h.rest; exact this]
  have e2 : dropoutLine v' = dropoutLine v := by
    unfold dropoutLine
    rw [show v'.dropouts = v.dropouts by have := congrArg ULog.dropouts h.rest; exact this]
  have e3 : v'.fileCorrupt = v.fileCorrupt := by have := congrArg ULog.fileCorrupt h.rest; exact this
  have e4 : v'.dataList = v.dataList := by have := congrArg ULog.dataList h.rest; exact this
  have e5 : v'.info = v.info := h.info.2 hI
  unfold showInfo infoLines multiLines
  rw [e1, e2, e3, e4, version_same (u := v) (v := v') (by rw [e5]), e5, h.infoMulti.2 hM]

/-! ### the other tools -/

/-- **C113** for `ulog_info --message`: another message is printed in the same way -/
theorem C113_message {v v' : ULog} {ty : Nat} {k name : Str} (h : OnlyKey ty k v v') (hn : ty ≠ tyM ∨ name ≠ k)
    (newline : Bool) : showMessage newline v' name = showMessage newline v name := by
  have : v'.infoMulti.get? name = v.infoMulti.get? name := by
    rcases hn with hn | hn
    · rw [h.infoMulti.2 hn]
    · exact h.infoMulti.get hn
  unfold showMessage
  rw [this]

/-- **C113** for `ulog_messages`: the same, unless the name of the system is lost -/
theorem C113_messages {v v' : ULog} {ty : Nat} {k : Str} (h : OnlyKey ty k v v')
    (hn : ty ≠ tyI ∨ k ≠ py! "sys_name") (events : Except PyErr (List (Nat × Str × Str))) :
    messageLines v' events = messageLines v events := by
  have : v'.info.get? (py! "sys_name") = v.info.get? (py! "sys_name") := by
    rcases hn with hn | hn
    · rw [h.info.2 hn]
    · exact h.info.get (Ne.symm hn)
  unfold messageLines allMessages
  rw [this, show v'.logged = v.logged by have := congrArg ULog.logged h.rest; exact this]

/-- **C113** for `ulog2csv` and `extract_message`, which use samples only -/
theorem C113_samples {v v' : ULog} {ty : Nat} {k : Str} (h : OnlyKey ty k v v') (fmt : NpVal → Str) (pre delim : Str)
    (timeS timeE : Option Int) (message : Str) :
    convertCsv fmt pre delim timeS timeE v' = convertCsv fmt pre delim timeS timeE v ∧
    extractFrom v' message timeS timeE = extractFrom v message timeS timeE := by
  have e : v'.dataList = v.dataList := by have := congrArg ULog.dataList h.rest; exact this
  unfold convertCsv extractFrom getDataset
  rw [e]
  exact ⟨rfl, rfl⟩

/-! ### examples -/

open Sample in
/-- the sample file without its info message, multi info message, parameters and default parameter -/
example :
    (showInfo (fun _ => py! "x") (fun _ => py! "y") false (get (load 20 {} file))).toOption.map (·.length) = some 10 ∧
    (showInfo (fun _ => py! "x") (fun _ => py! "y") false (get (load 20 {} (withoutDef 2)))).toOption.map (·.length) = some 9 ∧
    (paramsText (fun _ => py! "x") { initial := true } (get (load 20 {} file))).toOption = some (py! "K,x\n") ∧
    (paramsText (fun _ => py! "x") { initial := true } (get (load 20 {} (withoutDef 5)))).toOption = some (py! "K,x\n") := by
  refine ⟨by decide +kernel, by decide +kernel, by decide +kernel, by decide +kernel⟩

open Sample in
/-- the sample file with and without its info message meets the hypotheses -/
example : ∃ v v', load 20 {} file = .ok v ∧ load 20 {} (withoutDef 2) = .ok v' ∧ OnlyKey tyI (py! "sys") v v' := by
  obtain ⟨u0, h⟩ := sample_plainDef
  have hl : (match load 20 {} file with | .ok _ => true | _ => false) = true := by decide +kernel
  rcases C112_definition h (k := py! "sys") (by decide +kernel) with ⟨e, h1, -⟩ | ⟨v, v', h1, h2, h3⟩
  · have h1 : load 20 {} file = .raised e := h1
    rw [h1] at hl
    cases hl
  · exact ⟨v, v', h1, h2, h3⟩

end PyULog
