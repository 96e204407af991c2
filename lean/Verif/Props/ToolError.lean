import Verif.Lemmas.ToolError
import Verif.Props.MainLeft
import Verif.Props.CsvError
/-
C97: when ulog_info, ulog_params, ulog_messages and ulog_extract_gps_dump raise an exception, and which one.
-/
namespace PyULog
open Spec

theorem errorOf_eq {α : Type} {x : Except PyErr α} {e : PyErr} (h : Sample.errorOf x = some e) : x = .error e := by
  cases x with
  | ok _ => cases h
  | error e' => injection h with h; rw [h]

/-! ### ulog_params and ulog_messages -/

theorem flags_defaults {u : ULog} : hasDefaultParameters u = true ↔ FlagsDefaults u := by
  unfold hasDefaultParameters FlagsDefaults
  cases u.compat with
  | nil => simp
  | cons f l => simp

/-- **C97**, ulog_params: an exception exactly when defaults are asked for that the log does not have, or whose kind is
unknown -/
theorem C97_params {fmt : Value → Str} {o : ParamOpts} {u : ULog} {e : PyErr} :
    paramsText fmt o u = .error e ↔ ParamsObstacle o.default u e := by
  have hgood : ∀ params : Dict Str Value, ∃ text, (do
      let lines ← (sortedKeys params).mapM fun key => do
        let v ← dictGet params key
        .ok (paramText fmt o u key v)
      (.ok lines.flatten : Except PyErr Str)) = .ok text := by
    intro params
    obtain ⟨lines, hl⟩ := mapM_can (f := fun key => do
        let v ← dictGet params key
        (.ok (paramText fmt o u key v) : Except PyErr Str)).mpr (fun key hk => by
      have hk : key ∈ params.keys := (ssort_perm strLe params.keys).mem_iff.mp hk
      cases hg : params.get? key with
      | none => exact absurd hk ((Dict.get?_eq_none_iff _ _).mp hg)
      | some v => exact ⟨_, by rw [dictGet_ok.mpr hg, ok_bind]⟩)
    exact ⟨lines.flatten, by rw [sortedKeys, hl, ok_bind]⟩
  have hsel : paramsText fmt o u = .error e ↔ selectParams o u = .error e := by
    unfold paramsText
    constructor
    · intro h
      rcases except_bind_error.mp h with h | ⟨params, _, h⟩
      · exact h
      · obtain ⟨t, ht⟩ := hgood params
        rw [ht] at h
        cases h
    · intro h
      exact except_bind_error.mpr (.inl h)
  rw [hsel]
  unfold selectParams
  cases hd : o.default with
  | none =>
    exact ⟨fun h => (by cases h), fun h => (by cases h <;> contradiction)⟩
  | some which =>
    dsimp only
    unfold getDefaults
    by_cases hf : hasDefaultParameters u = true
    · rw [if_pos hf]
      have hf := flags_defaults.mp hf
      by_cases h1 : which = py! "system"
      · rw [if_pos h1]
        refine ⟨fun h => (by cases h), ?_⟩
        rintro (⟨_, h⟩ | ⟨h, _, h', _⟩)
        · exact absurd hf h
        · injection h with h; exact absurd (h ▸ h1) h'
      · rw [if_neg h1]
        by_cases h2 : which = py! "current_setup"
        · rw [if_pos h2]
          refine ⟨fun h => (by cases h), ?_⟩
          rintro (⟨_, h⟩ | ⟨h, _, _, h'⟩)
          · exact absurd hf h
          · injection h with h; exact absurd (h ▸ h2) h'
        · rw [if_neg h2]
          constructor
          · intro h; cases h
            exact .unknown rfl hf h1 h2
          · rintro (⟨_, h⟩ | _)
            · exact absurd hf h
            · rfl
    · rw [if_neg hf]
      constructor
      · intro h; cases h
        exact .noDefaults rfl (fun h => hf (flags_defaults.mpr h))
      · rintro (_ | ⟨_, h, _⟩)
        · rfl
        · exact absurd (flags_defaults.mpr h) hf

/-- non-vacuity: a log without the flag, a log with the flag and an unknown kind, and one that prints -/
example : ParamsObstacle (some (py! "system")) { compat := [2, 1] } .assertionError ∧
    ParamsObstacle (some (py! "other")) { compat := [1, 0] } .valueError ∧
    (paramsText Sample.fmtV { default := some (py! "system") } { compat := [3], defaultParams := [(0, [(py! "A", .int 1)])] }).toOption
      = some (py! "A,1\n") :=
  ⟨.noDefaults rfl (fun ⟨f, h, h'⟩ => by cases h; exact absurd h' (by decide)), .unknown rfl ⟨1, rfl, rfl⟩ (by decide) (by decide),
    by decide +kernel⟩

/-- **C97**, ulog_messages: only in a log of PX4, when the events raise or a message is empty -/
theorem C97_messages {u : ULog} {events : Except PyErr (List (Nat × Str × Str))} {e : PyErr} :
    messageLines u events = .error e ↔ LinesObstacle u events e := by
  have hlines : messageLines u events = .error e ↔ allMessages u events = .error e := by
    unfold messageLines
    constructor
    · intro h
      rcases except_bind_error.mp h with h | ⟨_, _, h⟩
      · exact h
      · cases h
    · intro h
      exact except_bind_error.mpr (.inl h)
  by_cases hs : u.info.get? (py! "sys_name") = some (.str (py! "PX4"))
  · cases he : events with
    | error e' =>
      subst he
      rw [hlines]
      unfold allMessages
      rw [if_pos hs]
      constructor
      · intro h; cases h
        exact .events hs rfl
      · rintro (⟨_, h⟩ | ⟨_, h, _, _⟩)
        · cases h; rfl
        · cases h
    | ok ev =>
      subst he
      by_cases hm : ∃ m ∈ u.logged, m.msg = []
      · rw [C33_empty_message u ev hs hm]
        obtain ⟨m, h1, h2⟩ := hm
        constructor
        · intro h; cases h
          exact .empty hs rfl h1 h2
        · rintro (⟨_, h⟩ | _)
          · cases h
          · rfl
      · rw [hlines]
        unfold allMessages
        rw [if_pos hs, ok_bind, mergeMessages_spec]
        · constructor
          · intro h; cases h
          · rintro (⟨_, h⟩ | ⟨_, _, h1, h2⟩)
            · cases h
            · exact absurd ⟨_, h1, h2⟩ hm
        · intro m' hm'
          obtain ⟨m, h1, rfl⟩ := List.mem_map.mp hm'
          exact fun h2 => hm ⟨m, h1, h2⟩
  · rw [hlines]
    unfold allMessages
    rw [if_neg hs]
    constructor
    · intro h; cases h
    · rintro (⟨h, _⟩ | ⟨h, _, _, _⟩) <;> exact absurd h hs

/-- non-vacuity: an empty message of PX4, the same log of another system, and events that raise -/
example : LinesObstacle { info := [(py! "sys_name", .str (py! "PX4"))], logged := [⟨52, 5, []⟩] } (.ok []) .indexError ∧
    (messageLines { info := [(py! "sys_name", .str (py! "other"))], logged := [⟨52, 5, []⟩] } (.ok [])).toOption.isSome = true ∧
    LinesObstacle { info := [(py! "sys_name", .str (py! "PX4"))], logged := [⟨52, 5, []⟩] } (.error .typeError) .typeError :=
  ⟨.empty rfl rfl (List.mem_cons_self ..) rfl, by decide +kernel, .events rfl rfl⟩

/-! ### ulog_info -/

theorem version_error {u : ULog} {e : PyErr} : getVersionInfoStr u = .error e ↔ e = .typeError ∧ NoVersionNumber u := by
  have hmid : getVersionInfoStr u = .error e ↔ getVersionInfo u = .error e := by
    unfold getVersionInfoStr
    constructor
    · intro h
      rcases except_bind_error.mp h with h | ⟨r, _, h⟩
      · exact h
      · exfalso
        cases r with
        | none => cases h
        | some q =>
          obtain ⟨a, b, c, t⟩ := q
          dsimp only at h
          split at h <;> cases h
    · intro h
      exact except_bind_error.mpr (.inl h)
  rw [hmid]
  unfold getVersionInfo NoVersionNumber
  dsimp only
  cases u.info.get? (py! "ver_sw_release") with
  | none => exact ⟨fun h => (by cases h), fun ⟨_, v, h, _⟩ => (by cases h)⟩
  | some v =>
    cases v with
    | int n => exact ⟨fun h => (by cases h), fun ⟨_, v, h, h', _⟩ => (by cases h; exact absurd rfl (h' n))⟩
    | bool b => exact ⟨fun h => (by cases h), fun ⟨_, v, h, _, h'⟩ => (by cases h; exact absurd rfl (h' b))⟩
    | _ =>
      constructor
      · intro h
        cases h
        exact ⟨rfl, _, rfl, fun _ h => (by cases h), fun _ h => (by cases h)⟩
      · rintro ⟨rfl, _⟩
        rfl

/-- **C97**, ulog_info: the overview of a loaded log raises TypeError for a version that is not a number, otherwise
KeyError for a topic without timestamps, and nothing else -/
theorem C97_info {fuel : Nat} {cfg : Cfg} {bs : Bytes} {u : ULog} (h : load fuel cfg bs = .ok u)
    {fmt : Value → Str} {fl : List (List Value) → Str} {verbose : Bool} {e : PyErr} :
    showInfo fmt fl verbose u = .error e ↔ OverviewObstacle u e := by
  have hk := load_dicts h
  obtain ⟨infos, _, _, i3⟩ := infoLines_spec fmt verbose hk.info
  obtain ⟨multis, _, _, m3⟩ := multiLines_spec fl verbose hk.infoMulti
  have hts : u.startTs ≤ u.lastTs := by
    rw [C04_last_timestamp fuel cfg bs u h]
    exact (foldl_max_spec _ _).2.1
  have htime : timeLine u = .ok (py! "Logging start time: " ++ hmsStr u.startTs ++ py! ", duration: " ++
      hmsStr (u.lastTs - u.startTs)) := by
    unfold timeLine
    rw [if_neg (by omega)]
  have hrow : ∀ d ∈ tableOrder u.dataList, ∀ e', tableLine d = .error e' ↔ e' = .keyError ∧ Untimed d := by
    intro d hd e'
    have hd := loaded_data h ((tableOrder_spec u.dataList).1.mem_iff.mp hd)
    unfold tableLine Untimed
    rw [← column_field hd (k := py! "timestamp") (by decide) (by decide), ← dictGet_error]
    constructor
    · intro h
      rcases except_bind_error.mp h with h | ⟨_, _, h⟩
      · exact h
      · cases h
    · intro h
      exact except_bind_error.mpr (.inl h)
  have hrows : (tableOrder u.dataList).mapM tableLine = .error e ↔ e = .keyError ∧ ∃ d ∈ u.dataList, Untimed d := by
    rw [mapM_raises (k := .keyError) fun d hd e' h => ((hrow d hd e').mp h).1]
    constructor
    · rintro ⟨h1, d, hd, h2⟩
      exact ⟨h1, d, (tableOrder_spec u.dataList).1.mem_iff.mp hd, ((hrow d hd _).mp h2).2⟩
    · rintro ⟨h1, d, hd, h2⟩
      have hd := (tableOrder_spec u.dataList).1.mem_iff.mpr hd
      exact ⟨h1, d, hd, (hrow d hd _).mpr ⟨rfl, h2⟩⟩
  unfold showInfo
  rw [htime, ok_bind, i3, m3]
  constructor
  · intro h
    rcases except_bind_error.mp h with h | ⟨version, hv, h⟩
    · obtain ⟨rfl, hn⟩ := version_error.mp h
      exact .version hn
    · rw [ok_bind, ok_bind] at h
      rcases except_bind_error.mp h with h | ⟨_, _, h⟩
      · obtain ⟨rfl, d, hd, h⟩ := hrows.mp h
        refine .untimed ?_ hd h
        intro hn
        rw [version_error.mpr ⟨rfl, hn⟩] at hv
        cases hv
      · cases h
  · rintro (hn | ⟨hn, hd, hu⟩)
    · exact except_bind_error.mpr (.inl (version_error.mpr ⟨rfl, hn⟩))
    · cases hv : getVersionInfoStr u with
      | error e' => exact absurd (version_error.mp hv).2 hn
      | ok version =>
        rw [ok_bind, ok_bind, ok_bind]
        exact except_bind_error.mpr (.inl (hrows.mpr ⟨rfl, _, hd, hu⟩))

/-- non-vacuity: a topic without timestamps, and a version that is a text -/
example : (match load 20 {} Sample.untimed with
    | .ok u => decide (Sample.errorOf (showInfo Sample.fmtV (fun _ => []) false u) = some .keyError ∧
      ∃ d ∈ u.dataList, ∀ f ∈ d.fields, f.name ≠ py! "timestamp")
    | _ => false) = true ∧
    (match load 20 {} (Sample.header ++ encMsgs [(tyI, [22] ++ Sample.asc (py! "char[2] ver_sw_release") ++ [65, 66])]) with
    | .ok u => decide (Sample.errorOf (showInfo Sample.fmtV (fun _ => []) false u) = some .typeError ∧
      u.info.get? (py! "ver_sw_release") = some (.str (py! "AB")))
    | _ => false) = true := by decide +kernel

/-- the parts of a list -/
theorem dumpLines_error {sep name : Str} {i : Nat} {m : List Value} {e : PyErr} :
    dumpLines sep name i m = .error e ↔ PartsObstacle m e := by
  have hlen : ∀ x e', itemLen x = .error e' ↔ e' = .typeError ∧ ¬ IsBytes x ∧ ¬ IsText x := by
    intro x e'
    cases x with
    | bytes b => exact ⟨fun h => (by cases h), fun ⟨_, h, _⟩ => absurd ⟨b, rfl⟩ h⟩
    | str b => exact ⟨fun h => (by cases h), fun ⟨_, _, h⟩ => absurd ⟨b, rfl⟩ h⟩
    | _ =>
      constructor
      · intro h; cases h
        exact ⟨rfl, fun ⟨_, h⟩ => (by cases h), fun ⟨_, h⟩ => (by cases h)⟩
      · rintro ⟨rfl, _⟩; rfl
  have hstr : ∀ x e', strItem x = .error e' ↔ e' = .typeError ∧ ¬ IsText x := by
    intro x e'
    cases x with
    | str b => exact ⟨fun h => (by cases h), fun ⟨_, h⟩ => absurd ⟨b, rfl⟩ h⟩
    | _ =>
      constructor
      · intro h; cases h
        exact ⟨rfl, fun ⟨_, h⟩ => (by cases h)⟩
      · rintro ⟨rfl, _⟩; rfl
  have hhex : ∀ x, IsBytes x ∨ IsText x → ∀ e', hexItem x = .error e' ↔ e' = .valueError ∧ ∃ c s, x = .str (c :: s) := by
    rintro x (⟨b, rfl⟩ | ⟨s, rfl⟩) e'
    · exact ⟨fun h => (by cases h), fun ⟨_, _, _, h⟩ => (by cases h)⟩
    · cases s with
      | nil => exact ⟨fun h => (by cases h), fun ⟨_, _, _, h⟩ => (by cases h)⟩
      | cons c s =>
        constructor
        · intro h; cases h
          exact ⟨rfl, c, s, rfl⟩
        · rintro ⟨rfl, _⟩; rfl
  have text : (∀ b, m.head? ≠ some (.bytes b)) → ∀ {g : List Str → List Str}, ((do
      let items ← m.mapM strItem
      (.ok (g items) : Except PyErr (List Str))) = .error e ↔ PartsObstacle m e) := by
    intro hm g
    have : (do
        let items ← m.mapM strItem
        (.ok (g items) : Except PyErr (List Str))) = .error e ↔ m.mapM strItem = .error e := by
      constructor
      · intro h
        rcases except_bind_error.mp h with h | ⟨_, _, h⟩
        · exact h
        · cases h
      · intro h
        exact except_bind_error.mpr (.inl h)
    rw [this, mapM_raises (k := .typeError) fun x _ e' h => ((hstr x e').mp h).1]
    constructor
    · rintro ⟨rfl, v, hv, h⟩
      exact .text hm hv ((hstr v _).mp h).2
    · rintro (⟨_, hv, h⟩ | ⟨h, _, _, _⟩ | ⟨h, _, _⟩)
      · exact ⟨rfl, _, hv, (hstr _ _).mpr ⟨rfl, h⟩⟩
      · exact absurd h (hm _)
      · exact absurd h (hm _)
  unfold dumpLines
  split
  · rename_i b rest
    generalize hm : Value.bytes b :: rest = m at *
    have hh : m.head? = some (.bytes b) := by rw [← hm]; rfl
    by_cases hnum : ∃ v ∈ m, ¬ IsBytes v ∧ ¬ IsText v
    · obtain ⟨v, hv, h1, h2⟩ := hnum
      have : m.mapM itemLen = .error .typeError :=
        (mapM_raises (k := .typeError) fun x _ e' h => ((hlen x e').mp h).1).mpr ⟨rfl, v, hv, (hlen v _).mpr ⟨rfl, h1, h2⟩⟩
      rw [this]
      constructor
      · intro h; cases h
        exact .length hh hv h1 h2
      · rintro (⟨h, _, _⟩ | _ | ⟨_, h, _⟩)
        · exact absurd hh (h b)
        · rfl
        · rcases h v hv with h | h
          · exact absurd h h1
          · exact absurd h h2
    · have hall : ∀ v ∈ m, IsBytes v ∨ IsText v := by
        intro v hv
        by_cases h1 : IsBytes v
        · exact .inl h1
        · by_cases h2 : IsText v
          · exact .inr h2
          · exact absurd ⟨v, hv, h1, h2⟩ hnum
      obtain ⟨lens, hl⟩ : ∃ lens, m.mapM itemLen = .ok lens := by
        cases hr : m.mapM itemLen with
        | ok l => exact ⟨l, rfl⟩
        | error e' =>
          obtain ⟨rfl, v, hv, h⟩ := (mapM_raises (k := .typeError) fun x _ e' h => ((hlen x e').mp h).1).mp hr
          exact absurd ⟨v, hv, ((hlen v _).mp h).2⟩ hnum
      rw [hl, ok_bind]
      have : ∀ {g : List Str → List Str}, ((do
          let items ← m.mapM hexItem
          (.ok (g items) : Except PyErr (List Str))) = .error e ↔ m.mapM hexItem = .error e) := by
        intro g
        constructor
        · intro h
          rcases except_bind_error.mp h with h | ⟨_, _, h⟩
          · exact h
          · cases h
        · intro h
          exact except_bind_error.mpr (.inl h)
      rw [this, mapM_raises (k := .valueError) fun x hx e' h => ((hhex x (hall x hx) e').mp h).1]
      constructor
      · rintro ⟨rfl, v, hv, h⟩
        obtain ⟨_, c, s, rfl⟩ := (hhex v (hall v hv) _).mp h
        exact .hex hh hall hv
      · rintro (⟨h, _, _⟩ | ⟨_, hv, h1, h2⟩ | ⟨_, _, hv⟩)
        · exact absurd hh (h b)
        · exact absurd ⟨_, hv, h1, h2⟩ hnum
        · exact ⟨rfl, _, hv, (hhex _ (hall _ hv) _).mpr ⟨rfl, _, _, rfl⟩⟩
  · rename_i hb
    refine text ?_
    intro b h
    cases m with
    | nil => cases h
    | cons v m =>
      injection h with h
      exact hb b m (by rw [h])

/-- **C97**, `ulog_info --message`: the exception of the first list with an obstacle -/
theorem C97_message {newline : Bool} {u : ULog} {name : Str} {e : PyErr} :
    showMessage newline u name = .error e ↔ MessageObstacle u name e := by
  unfold showMessage MessageObstacle
  cases hg : u.infoMulti.get? name with
  | none => exact ⟨fun h => (by cases h), fun ⟨_, _, _, h, _⟩ => (by cases h)⟩
  | some lists =>
    dsimp only
    have hgood : ∀ {sep name : Str} {i : Nat} {m : List Value}, (∃ y, dumpLines sep name i m = .ok y) ↔ ∀ e', ¬ PartsObstacle m e' := by
      intro sep name i m
      constructor
      · rintro ⟨y, h⟩ e' ho
        rw [dumpLines_error.mpr ho] at h
        cases h
      · intro h
        cases hr : dumpLines sep name i m with
        | ok y => exact ⟨y, rfl⟩
        | error e' => exact absurd (dumpLines_error.mp hr) (h e')
    have key : ∀ (sep : Str) (l : List (List Value)) (n : Nat),
        (l.zipIdx n).mapM (fun p => dumpLines sep name p.2 p.1) = .error e ↔
          ∃ before m after, l = before ++ m :: after ∧ PartsObstacle m e ∧ ∀ x ∈ before, ∀ e', ¬ PartsObstacle x e' := by
      intro sep l n
      rw [mapM_stops]
      constructor
      · rintro ⟨b, a, r, h1, h2, h3⟩
        refine ⟨b.map (·.1), a.1, r.map (·.1), ?_, dumpLines_error.mp h2, ?_⟩
        · have := congrArg (List.map (·.1)) h1
          rw [List.map_append, List.map_cons] at this
          rw [← this, List.zipIdx_map_fst]
        · intro x hx
          obtain ⟨p, hp, rfl⟩ := List.mem_map.mp hx
          exact hgood.mp (h3 p hp)
      · rintro ⟨b, a, r, h1, h2, h3⟩
        refine ⟨b.zipIdx n, (a, n + b.length), r.zipIdx (n + b.length + 1), ?_, dumpLines_error.mpr h2, ?_⟩
        · rw [h1, List.zipIdx_append, List.zipIdx_cons]
        · intro p hp
          exact hgood.mpr (h3 p.1 (List.fst_mem_of_mem_zipIdx hp))
    constructor
    · intro h
      rcases except_bind_error.mp h with h | ⟨_, _, h⟩
      · obtain ⟨b, a, r, h1, h2, h3⟩ := (key _ _ _).mp h
        exact ⟨b, a, r, by rw [h1], h2, h3⟩
      · cases h
    · rintro ⟨b, a, r, h1, h2, h3⟩
      injection h1 with h1
      exact except_bind_error.mpr (.inl ((key _ _ _).mpr ⟨b, a, r, h1, h2, h3⟩))

/-- non-vacuity: the second list is the first with an obstacle, numbers stop before texts after bytes -/
example : MessageObstacle { infoMulti := [(py! "m", [[.str (py! "a")], [.bytes [1], .str (py! "a")], [.int 1]])] } (py! "m") .valueError ∧
    Sample.errorOf (showMessage false { infoMulti := [(py! "m", [[.str (py! "a")], [.bytes [1], .str (py! "a")], [.int 1]])] } (py! "m"))
      = some .valueError ∧
    Sample.errorOf (showMessage false { infoMulti := [(py! "m", [[.bytes [1], .str (py! "a"), .int 1]])] } (py! "m")) = some .typeError ∧
    PartsObstacle [.bytes [1], .str (py! "a"), .int 1] .typeError := by
  refine ⟨C97_message (newline := false).mp ?_, by decide +kernel, by decide +kernel, ?_⟩
  · exact errorOf_eq (by decide +kernel)
  · exact .length (v := .int 1) rfl (by simp) (fun ⟨_, h⟩ => by cases h) (fun ⟨_, h⟩ => by cases h)

/-! ### ulog_extract_gps_dump -/

/-- **C97**, ulog_extract_gps_dump: the streams of a loaded log with bytes in `len` raise a KeyError without
timestamps, or when the length counts more bytes than the message has, and nothing else -/
theorem C97_gps {fuel : Nat} {cfg : Cfg} {bs : Bytes} {u : ULog} (h : load fuel cfg bs = .ok u)
    (ht : ∀ d ∈ u.dataList, GpsTypes d) {required : Int} {e : PyErr} :
    gpsDump u required = .error e ↔
      e = .keyError ∧ ∃ d, u.dataList.head? = some d ∧ IsGpsDump d ∧ GpsObstacle d required := by
  unfold gpsDump
  cases hl : u.dataList with
  | nil => exact ⟨fun h => (by cases h), fun ⟨_, _, h, _⟩ => (by cases h)⟩
  | cons d rest =>
    have hm : d ∈ u.dataList := by rw [hl]; exact List.mem_cons_self ..
    have hd := loaded_data h hm
    have ht := ht d hm
    have hmem : ∀ k : Str, k ∈ d.fields.map (·.name) ↔ ∃ f ∈ d.fields, f.name = k := fun k => List.mem_map
    dsimp only
    by_cases hw : py! "len" ∉ d.fields.map (·.name) ∨ py! "data[0]" ∉ d.fields.map (·.name)
    · rw [if_pos hw]
      refine ⟨fun h => (by cases h), ?_⟩
      rintro ⟨_, d', h, ⟨h1, h2⟩, _⟩
      injection h with h
      subst h
      rcases hw with hw | hw
      · exact absurd ((hmem _).mpr h1) hw
      · exact absurd ((hmem _).mpr h2) hw
    · rw [if_neg hw]
      have hw1 : py! "len" ∈ d.fields.map (·.name) := by
        by_cases h : py! "len" ∈ d.fields.map (·.name)
        · exact h
        · exact absurd (.inl h) hw
      have hw2 : py! "data[0]" ∈ d.fields.map (·.name) := by
        by_cases h : py! "data[0]" ∈ d.fields.map (·.name)
        · exact h
        · exact absurd (.inr h) hw
      have hgps : IsGpsDump d := ⟨(hmem _).mp hw1, (hmem _).mp hw2⟩
      have hiff : (∃ d', (d :: rest).head? = some d' ∧ IsGpsDump d' ∧ GpsObstacle d' required) ↔ GpsObstacle d required := by
        constructor
        · rintro ⟨d', h, _, ho⟩
          injection h with h
          exact h ▸ ho
        · intro ho
          exact ⟨d, rfl, hgps, ho⟩
      rw [hiff]
      obtain ⟨n, _, hn, hr⟩ := hd.rows
      obtain ⟨f, hf, hfn⟩ := hgps.1
      obtain ⟨lens, hlens, hll, _⟩ := hr f hf (by rw [hfn]; decide)
      rw [hfn] at hlens
      rw [dictGet_ok.mpr hlens, ok_bind]
      cases hts : d.data.get? (py! "timestamp") with
      | none =>
        rw [dictGet_error.mpr ⟨rfl, hts⟩]
        constructor
        · intro h; cases h
          exact ⟨rfl, .untimed ((column_field hd (by decide) (by decide)).mp hts)⟩
        · rintro ⟨rfl, _⟩; rfl
      | some ts =>
        rw [dictGet_ok.mpr hts, ok_bind]
        have htl : ts.length = n := hn _ (Dict.mem_of_get? _ _ _ hts)
        have hstep := fun (b : Bytes × Bytes) (i : Nat) (hi : i ∈ List.range ts.length) (e' : PyErr) =>
          gpsStep_error hd ht (i := i) (files := b) (e := e') (required := required) hn (by have := List.mem_range.mp hi; omega) hlens
        have hfold : ∀ e', (List.range ts.length).foldlM (gpsStep d lens
            ((d.data.get? (py! "instance")).getD (List.replicate lens.length (.int 0))) required) ([], []) = .error e' ↔ _ :=
          fun e' => foldlM_raises (e := e') hstep ([], [])
        have htimed : ¬ Untimed d := by
          intro hu
          rw [(column_field hd (by decide) (by decide)).mpr hu] at hts
          cases hts
        constructor
        · intro h
          rcases except_bind_error.mp h with h | ⟨_, _, h⟩
          · obtain ⟨rfl, i, hi, ho, k, m, h1, h2, h3⟩ := (hfold e).mp h
            exact ⟨rfl, .byte ho h1 h2 h3⟩
          · cases h
        · rintro ⟨rfl, ho⟩
          refine except_bind_error.mpr (.inl ((hfold _).mpr ⟨rfl, ?_⟩))
          cases ho with
          | untimed hu => exact absurd hu htimed
          | @byte i k m ho h1 h2 h3 =>
            refine ⟨i, ?_, ho, k, m, h1, h2, h3⟩
            obtain ⟨col, hc, hv⟩ := h1
            rw [hlens] at hc
            injection hc with hc
            subst hc
            have := (List.getElem?_eq_some_iff.mp hv).1
            exact List.mem_range.mpr (by omega)

/-- **C97**, ulog_extract_gps_dump: with a float in `len` every message of the instance raises a TypeError -/
theorem C97_gps_float {fuel : Nat} {cfg : Cfg} {bs : Bytes} {u : ULog} (h : load fuel cfg bs = .ok u) {d : Dataset}
    (hh : u.dataList.head? = some d) (hgps : IsGpsDump d)
    (ht : ∀ f ∈ d.fields, (f.name = py! "len" → f.type = .f32 ∨ f.type = .f64) ∧ (f.name = py! "instance" → f.type ≠ .f32 ∧ f.type ≠ .f64))
    {required : Int} {e : PyErr} :
    gpsDump u required = .error e ↔ e = .keyError ∧ Untimed d ∨
      e = .typeError ∧ ∃ i v, ReadAt d (py! "timestamp") i v ∧ OfInstance d required i := by
  unfold gpsDump
  cases hl : u.dataList with
  | nil => rw [hl] at hh; cases hh
  | cons d' rest =>
    rw [hl] at hh
    injection hh with hh
    subst hh
    have hd := loaded_data h (by rw [hl]; exact List.mem_cons_self .. : d' ∈ u.dataList)
    have hmem : ∀ k : Str, k ∈ d'.fields.map (·.name) ↔ ∃ f ∈ d'.fields, f.name = k := fun k => List.mem_map
    dsimp only
    rw [if_neg fun h => h.elim (fun h => h ((hmem _).mpr hgps.1)) fun h => h ((hmem _).mpr hgps.2)]
    obtain ⟨n, _, hn, hr⟩ := hd.rows
    obtain ⟨f, hf, hfn⟩ := hgps.1
    obtain ⟨lens, hlens, hll, _⟩ := hr f hf (by rw [hfn]; decide)
    rw [hfn] at hlens
    rw [dictGet_ok.mpr hlens, ok_bind]
    cases hts : d'.data.get? (py! "timestamp") with
    | none =>
      rw [dictGet_error.mpr ⟨rfl, hts⟩]
      constructor
      · intro h; cases h
        exact .inl ⟨rfl, (column_field hd (by decide) (by decide)).mp hts⟩
      · rintro (⟨rfl, _⟩ | ⟨_, i, v, ⟨col, hc, _⟩, _⟩)
        · rfl
        · rw [hts] at hc; cases hc
    | some ts =>
      rw [dictGet_ok.mpr hts, ok_bind]
      have htl : ts.length = n := hn _ (Dict.mem_of_get? _ _ _ hts)
      have hstep := fun (b : Bytes × Bytes) (i : Nat) (hi : i ∈ List.range ts.length) (e' : PyErr) =>
        gpsStep_float hd ht (i := i) (files := b) (e := e') (required := required) hn (by have := List.mem_range.mp hi; omega) hlens
      have hfold := fun e' => foldlM_raises (e := e') hstep ([], [])
      have htimed : ¬ Untimed d' := by
        intro hu
        rw [(column_field hd (by decide) (by decide)).mpr hu] at hts
        cases hts
      constructor
      · intro h
        rcases except_bind_error.mp h with h | ⟨_, _, h⟩
        · obtain ⟨rfl, i, hi, ho⟩ := (hfold e).mp h
          have := List.mem_range.mp hi
          exact .inr ⟨rfl, i, ts[i], ⟨ts, hts, List.getElem?_eq_getElem this⟩, ho⟩
        · cases h
      · rintro (⟨_, hu⟩ | ⟨rfl, i, v, ⟨col, hc, hv⟩, ho⟩)
        · exact absurd hu htimed
        · rw [hts] at hc
          injection hc with hc
          subst hc
          exact except_bind_error.mpr (.inl ((hfold _).mpr ⟨rfl, i, List.mem_range.mpr (List.getElem?_eq_some_iff.mp hv).1, ho⟩))

/-- non-vacuity: a float for the length; no exception for an instance without messages -/
example : (match load 30 {} (Sample.header ++ encMsgs [(tyF, Sample.asc (py! "gps_dump:uint64_t timestamp;float len;uint8_t[1] data;")),
      (tyA, [0, 3, 0] ++ Sample.asc (py! "gps_dump")), (tyD, leEnc 2 3 ++ leEnc 8 7 ++ leEnc 4 0x3f800000 ++ [1])]) with
    | .ok u => decide (Sample.errorOf (gpsDump u 0) = some .typeError ∧ (gpsDump u 1).toOption = some (.files [] []) ∧
      u.dataList.map (·.fields) = [[⟨py! "timestamp", .u64⟩, ⟨py! "len", .f32⟩, ⟨py! "data[0]", .u8⟩]])
    | _ => false) = true := by decide +kernel

/-- a log with two GPS messages: two bytes to the device, and a length that counts three -/
def Sample.gpsLens (len : UInt8) : Bytes :=
  Sample.header ++ encMsgs [(tyF, Sample.asc (py! "gps_dump:uint64_t timestamp;uint8_t len;uint8_t[2] data;")),
    (tyA, [0, 3, 0] ++ Sample.asc (py! "gps_dump")), (tyD, leEnc 2 3 ++ leEnc 8 7 ++ [130, 1, 2]),
    (tyD, leEnc 2 3 ++ leEnc 8 9 ++ [len, 3, 4])]

/-- non-vacuity: the length decides; another instance than 0 has no rows -/
example : (match load 30 {} (Sample.gpsLens 2) with
    | .ok u => decide ((gpsDump u 0).toOption = some (.files [1, 2] [3, 4]))
    | _ => false) = true ∧
    (match load 30 {} (Sample.gpsLens 3) with
    | .ok u => decide (Sample.errorOf (gpsDump u 0) = some .keyError ∧ (gpsDump u 1).toOption = some (.files [] []) ∧
      u.dataList.map (·.fields) = [[⟨py! "timestamp", .u64⟩, ⟨py! "len", .u8⟩, ⟨py! "data[0]", .u8⟩, ⟨py! "data[1]", .u8⟩]])
    | _ => false) = true := by decide +kernel

example (d : Dataset) (h : d.fields = [⟨py! "timestamp", .u64⟩, ⟨py! "len", .u8⟩, ⟨py! "data[0]", .u8⟩, ⟨py! "data[1]", .u8⟩]) :
    GpsTypes d ∧ IsGpsDump d := by
  unfold GpsTypes IsGpsDump
  rw [h]
  refine ⟨?_, ⟨⟨py! "len", .u8⟩, by simp, rfl⟩, ⟨⟨py! "data[0]", .u8⟩, by simp, rfl⟩⟩
  intro f hf
  rcases List.mem_cons.mp hf with rfl | hf
  · refine ⟨?_, fun h => by cases h⟩
    rintro (h | ⟨k, h⟩) <;> cases h
  · simp only [List.mem_cons, List.not_mem_nil, or_false] at hf
    rcases hf with rfl | rfl | rfl <;> exact ⟨fun _ => rfl, fun h => by cases h⟩

end PyULog
