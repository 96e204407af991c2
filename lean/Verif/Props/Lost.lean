import Verif.Lemmas.Lost
import Verif.Props.DamageMsg
/-
Property theorems: C109 (a lost message is missing, and nothing else).
-/
namespace PyULog
open Spec

/-! ### messages, dropouts and parameter changes -/

theorem oneLess_append {α : Type} {l l' : List α} (h : l' = l ∨ OneLess l l') (x : α) :
    l' ++ [x] = l ++ [x] ∨ OneLess (l ++ [x]) (l' ++ [x]) := by
  rcases h with rfl | ⟨i, hi, rfl⟩
  · exact .inl rfl
  · refine .inr ⟨i, by rw [List.length_append]; omega, ?_⟩
    rw [List.eraseIdx_append_of_lt_length hi]

theorem oneLess_last {α : Type} (l : List α) (x : α) : OneLess (l ++ [x]) l := by
  refine ⟨l.length, by simp, ?_⟩
  rw [List.eraseIdx_append_of_length_le (Nat.le_refl _), Nat.sub_self]
  simp

theorem msim_lost {R : Rels} (hR : R.Ok) (hr : R.Refl) (cfg : Cfg) (pre post : List (Nat × Bytes)) {ty : Nat} {p : Bytes}
    (hstep : ∀ w, ∃ w1, handleData cfg w ty p = some (.ok w1) ∧ MSim R w1 w) (u : ULog) :
    MRun R (runData cfg (pre ++ (ty, p) :: post) u) (runData cfg (pre ++ post) u) := by
  rw [runData_append, runData_append]
  cases runData cfg pre u with
  | stopped w => exact .stopped (.refl hr w)
  | raised e => exact .raised
  | done w =>
    obtain ⟨w1, h1, h2⟩ := hstep w
    have e : runData cfg ((ty, p) :: post) w = runData cfg post w1 := by
      rw [runData]
      simp only [h1]
    simp only
    rw [e]
    exact msim_run hR cfg post h2

/-- the file without the message is as regular as the one with it -/
theorem plain_lost {fuel : Nat} {cfg : Cfg} {hdr : Bytes} {defs pre post : List (Nat × Bytes)} {m : Nat × Bytes} {u0 : ULog}
    (hf : PlainFile fuel cfg hdr defs (pre ++ m :: post) u0) (hne : pre ≠ []) :
    PlainFile fuel cfg hdr defs (pre ++ post) u0 := by
  refine { hf with hmsgs := ?_, ends := ?_, size := ?_ }
  · intro x hx
    refine hf.hmsgs x ?_
    rw [List.mem_append, List.mem_cons]
    rcases List.mem_append.mp hx with h | h
    · exact .inl h
    · exact .inr (.inr h)
  · intro x hx
    refine hf.ends x ?_
    cases pre with
    | nil => exact absurd rfl hne
    | cons y pre => exact hx
  · have := hf.size
    rw [encMsgs_append, List.length_append] at this ⊢
    have h2 : (encMsgs post).length ≤ (encMsgs (m :: post)).length := by
      simp [encMsgs]
    omega

theorem plain_load {fuel : Nat} {cfg : Cfg} {hdr : Bytes} {defs msgs : List (Nat × Bytes)} {u0 : ULog}
    (hf : PlainFile fuel cfg hdr defs msgs u0) :
    load fuel cfg (hdr ++ encMsgs defs ++ encMsgs msgs) = loadMsgs cfg defs msgs u0 :=
  C18_file fuel cfg hdr defs _ u0 hf.hhdr hf.header hf.hdefs hf.hmsgs hf.ends hf.notAppended hf.hfuel hf.size

theorem lost_file {R : Rels} (hR : R.Ok) (hr : R.Refl) {fuel : Nat} {cfg : Cfg} {hdr : Bytes}
    {defs pre post : List (Nat × Bytes)} {ty : Nat} {p : Bytes} {u0 : ULog}
    (hf : PlainFile fuel cfg hdr defs (pre ++ (ty, p) :: post) u0) (hne : pre ≠ [])
    (hstep : ∀ w, ∃ w1, handleData cfg w ty p = some (.ok w1) ∧ MSim R w1 w) :
    (∀ e, load fuel cfg (fileWith hdr defs pre (ty, p) post) = .raised e →
      load fuel cfg (hdr ++ encMsgs defs ++ encMsgs (pre ++ post)) = .raised e) ∧
    ∀ v, load fuel cfg (fileWith hdr defs pre (ty, p) post) = .ok v →
      ∃ v', load fuel cfg (hdr ++ encMsgs defs ++ encMsgs (pre ++ post)) = .ok v' ∧ MSim R v v' := by
  unfold fileWith
  rw [plain_load hf, plain_load (plain_lost hf hne)]
  unfold loadMsgs
  cases runDefs cfg defs u0 with
  | stopped u => exact ⟨fun e h => h, fun v h => ⟨v, h, .refl hr v⟩⟩
  | raised e => exact ⟨fun e h => h, fun v h => ⟨v, h, .refl hr v⟩⟩
  | done u =>
    simp only
    by_cases hho : cfg.headerOnly = true
    · rw [if_pos hho, if_pos hho]
      exact ⟨fun e h => h, fun v h => ⟨v, h, .refl hr v⟩⟩
    · rw [if_neg hho, if_neg hho]
      exact msim_finish (msim_lost hR hr cfg pre post hstep u)

/-- **C109**: when a logged message that can be read is missing in a file (not the first of the data), the
file raises the same exception, or loads with the same contents without this message. -/
theorem C109_text {fuel : Nat} {cfg : Cfg} {hdr : Bytes} {defs pre post : List (Nat × Bytes)} {p : Bytes} {u0 : ULog}
    (hf : PlainFile fuel cfg hdr defs (pre ++ (tyL, p) :: post) u0) (hne : pre ≠ []) (h9 : 9 ≤ p.length)
    (ht : cfg.ign = true ∨ ¬ NoText (p.drop 9)) :
    (∀ e, load fuel cfg (fileWith hdr defs pre (tyL, p) post) = .raised e →
      load fuel cfg (hdr ++ encMsgs defs ++ encMsgs (pre ++ post)) = .raised e) ∧
    ∀ v, load fuel cfg (fileWith hdr defs pre (tyL, p) post) = .ok v →
      ∃ l, load fuel cfg (hdr ++ encMsgs defs ++ encMsgs (pre ++ post)) = .ok { v with logged := l } ∧
        (l = v.logged ∨ OneLess v.logged l) := by
  let R : Rels := { relsEq with L := fun l l' => l' = l ∨ OneLess l l' }
  have hR : R.Ok := ⟨fun _ _ x h => oneLess_append h x, relsEq_ok.T, relsEq_ok.O, relsEq_ok.P⟩
  have hr : R.Refl := ⟨fun _ => .inl rfl, fun _ => rfl, fun _ => rfl, fun _ => rfl⟩
  have hstep : ∀ w, ∃ w1, handleData cfg w tyL p = some (.ok w1) ∧ MSim R w1 w := by
    intro w
    obtain ⟨s, hs⟩ := text_ok (ign := cfg.ign) ht
    rw [show tyL = MSG_TYPE_LOGGING from rfl, handleData_L]
    unfold parseLogging
    rw [unpackU_ok (by unfold slice; rw [List.length_drop, List.length_take]; omega)]
    simp only [ok_bind]
    rw [unpackU_ok (by unfold slice; rw [List.length_drop, List.length_take]; omega)]
    simp only [ok_bind]
    rw [hs]
    exact ⟨_, rfl, w.logged, w.tagged, w.dropouts, w.changedParams, rfl, .inr (oneLess_last _ _), rfl, rfl, rfl⟩
  obtain ⟨h1, h2⟩ := lost_file hR hr hf hne hstep
  refine ⟨h1, fun v hv => ?_⟩
  obtain ⟨v', hv', a, b, c, d, rfl, hL, hT, hO, hP⟩ := h2 v hv
  refine ⟨a, ?_, hL⟩
  rw [hv']
  cases hT; cases hO; cases hP
  rfl

/-- **C109** for a dropout -/
theorem C109_dropout {fuel : Nat} {cfg : Cfg} {hdr : Bytes} {defs pre post : List (Nat × Bytes)} {p : Bytes} {u0 : ULog}
    (hf : PlainFile fuel cfg hdr defs (pre ++ (tyO, p) :: post) u0) (hne : pre ≠ []) (h2 : p.length = 2) :
    (∀ e, load fuel cfg (fileWith hdr defs pre (tyO, p) post) = .raised e →
      load fuel cfg (hdr ++ encMsgs defs ++ encMsgs (pre ++ post)) = .raised e) ∧
    ∀ v, load fuel cfg (fileWith hdr defs pre (tyO, p) post) = .ok v →
      ∃ l, load fuel cfg (hdr ++ encMsgs defs ++ encMsgs (pre ++ post)) = .ok { v with dropouts := l } ∧
        (l = v.dropouts ∨ OneLess v.dropouts l) := by
  let R : Rels := { relsEq with O := fun l l' => l' = l ∨ OneLess l l' }
  have hR : R.Ok := ⟨relsEq_ok.L, relsEq_ok.T, fun _ _ x h => oneLess_append h x, relsEq_ok.P⟩
  have hr : R.Refl := ⟨fun _ => rfl, fun _ => rfl, fun _ => .inl rfl, fun _ => rfl⟩
  have hstep : ∀ w, ∃ w1, handleData cfg w tyO p = some (.ok w1) ∧ MSim R w1 w := by
    intro w
    rw [show tyO = MSG_TYPE_DROPOUT from rfl, handleData_O]
    unfold parseDropout
    rw [unpackU_ok h2]
    exact ⟨_, rfl, w.logged, w.tagged, w.dropouts, w.changedParams, rfl, rfl, rfl, .inr (oneLess_last _ _), rfl⟩
  obtain ⟨h1, h2⟩ := lost_file hR hr hf hne hstep
  refine ⟨h1, fun v hv => ?_⟩
  obtain ⟨v', hv', a, b, c, d, rfl, hL, hT, hO, hP⟩ := h2 v hv
  refine ⟨c, ?_, hO⟩
  rw [hv']
  cases hL; cases hT; cases hP
  rfl

/-- **C109** for a parameter change that can be read -/
theorem C109_parameter {fuel : Nat} {cfg : Cfg} {hdr : Bytes} {defs pre post : List (Nat × Bytes)} {p : Bytes} {u0 : ULog}
    (hf : PlainFile fuel cfg hdr defs (pre ++ (tyP, p) :: post) u0) (hne : pre ≠ [])
    (hm : ∃ m, parseInfo cfg.ign p = .ok m) :
    (∀ e, load fuel cfg (fileWith hdr defs pre (tyP, p) post) = .raised e →
      load fuel cfg (hdr ++ encMsgs defs ++ encMsgs (pre ++ post)) = .raised e) ∧
    ∀ v, load fuel cfg (fileWith hdr defs pre (tyP, p) post) = .ok v →
      ∃ l, load fuel cfg (hdr ++ encMsgs defs ++ encMsgs (pre ++ post)) = .ok { v with changedParams := l } ∧
        (l = v.changedParams ∨ OneLess v.changedParams l) := by
  let R : Rels := { relsEq with P := fun l l' => l' = l ∨ OneLess l l' }
  have hR : R.Ok := ⟨relsEq_ok.L, relsEq_ok.T, relsEq_ok.O, fun _ _ x h => oneLess_append h x⟩
  have hr : R.Refl := ⟨fun _ => rfl, fun _ => rfl, fun _ => rfl, fun _ => .inl rfl⟩
  have hstep : ∀ w, ∃ w1, handleData cfg w tyP p = some (.ok w1) ∧ MSim R w1 w := by
    intro w
    obtain ⟨m, hm⟩ := hm
    rw [show tyP = MSG_TYPE_PARAMETER from rfl, handleData_P, hm]
    exact ⟨_, rfl, w.logged, w.tagged, w.dropouts, w.changedParams, rfl, rfl, rfl, rfl, .inr (oneLess_last _ _)⟩
  obtain ⟨h1, h2⟩ := lost_file hR hr hf hne hstep
  refine ⟨h1, fun v hv => ?_⟩
  obtain ⟨v', hv', a, b, c, d, rfl, hL, hT, hO, hP⟩ := h2 v hv
  refine ⟨d, ?_, hP⟩
  rw [hv']
  cases hL; cases hT; cases hO
  rfl

theorem oneTagLess_add {t t' : Dict Nat (List TagMsg)} (h : OneTagLess t t') (m : TagMsg) :
    OneTagLess (t.set m.tag ((t.get? m.tag).getD [] ++ [m])) (t'.set m.tag ((t'.get? m.tag).getD [] ++ [m])) := by
  obtain ⟨tag, h1, h2⟩ := h
  refine ⟨tag, ?_, ?_⟩
  · intro x hx
    by_cases he : m.tag = x
    · subst he
      rw [Dict.get?_set_self, Dict.get?_set_self, h1 _ hx]
    · rw [Dict.get?_set_ne _ _ he, Dict.get?_set_ne _ _ he, h1 _ hx]
  · by_cases he : m.tag = tag
    · subst he
      rw [Dict.get?_set_self, Dict.get?_set_self]
      rcases h2 with h2 | h2
      · rw [h2]
        exact .inl rfl
      · rcases oneLess_append (.inr h2) m with h | h
        · exact .inl (congrArg some h)
        · exact .inr h
    · rw [Dict.get?_set_ne _ _ he, Dict.get?_set_ne _ _ he]
      exact h2

/-- **C109** for a tagged message -/
theorem C109_tagged {fuel : Nat} {cfg : Cfg} {hdr : Bytes} {defs pre post : List (Nat × Bytes)} {p : Bytes} {u0 : ULog}
    (hf : PlainFile fuel cfg hdr defs (pre ++ (tyC, p) :: post) u0) (hne : pre ≠ []) (h11 : 11 ≤ p.length)
    (ht : cfg.ign = true ∨ ¬ NoText (p.drop 11)) :
    (∀ e, load fuel cfg (fileWith hdr defs pre (tyC, p) post) = .raised e →
      load fuel cfg (hdr ++ encMsgs defs ++ encMsgs (pre ++ post)) = .raised e) ∧
    ∀ v, load fuel cfg (fileWith hdr defs pre (tyC, p) post) = .ok v →
      ∃ t, load fuel cfg (hdr ++ encMsgs defs ++ encMsgs (pre ++ post)) = .ok { v with tagged := t } ∧
        OneTagLess v.tagged t := by
  let R : Rels := { relsEq with T := OneTagLess }
  have hR : R.Ok := ⟨relsEq_ok.L, fun _ _ m h => oneTagLess_add h m, relsEq_ok.O, relsEq_ok.P⟩
  have hr : R.Refl := ⟨fun _ => rfl, fun _ => ⟨0, fun _ _ => rfl, .inl rfl⟩, fun _ => rfl, fun _ => rfl⟩
  have hstep : ∀ w, ∃ w1, handleData cfg w tyC p = some (.ok w1) ∧ MSim R w1 w := by
    intro w
    obtain ⟨s, hs⟩ := text_ok (ign := cfg.ign) ht
    rw [show tyC = MSG_TYPE_LOGGING_TAGGED from rfl, handleData_C]
    unfold parseLoggingTagged
    rw [unpackU_ok (by unfold slice; rw [List.length_drop, List.length_take]; omega)]
    simp only [ok_bind]
    rw [unpackU_ok (by unfold slice; rw [List.length_drop, List.length_take]; omega)]
    simp only [ok_bind]
    rw [unpackU_ok (by unfold slice; rw [List.length_drop, List.length_take]; omega)]
    simp only [ok_bind]
    rw [hs]
    refine ⟨_, rfl, w.logged, w.tagged, w.dropouts, w.changedParams, rfl, rfl, ?_, rfl, rfl⟩
    refine ⟨leNat (slice 1 3 p), ?_, .inr ?_⟩
    · intro x hx
      exact (Dict.get?_set_ne _ _ (fun e => hx e.symm)).symm
    · show OneLess (((w.tagged.set (leNat (slice 1 3 p)) _).get? (leNat (slice 1 3 p))).getD []) _
      rw [Dict.get?_set_self]
      exact oneLess_last _ _
  obtain ⟨h1, h2⟩ := lost_file hR hr hf hne hstep
  refine ⟨h1, fun v hv => ?_⟩
  obtain ⟨v', hv', a, b, c, d, rfl, hL, hT, hO, hP⟩ := h2 v hv
  refine ⟨b, ?_, hT⟩
  rw [hv']
  cases hL; cases hO; cases hP
  rfl

/-! ### samples -/

/-- **C109** for a sample, as far as it holds: when an accepted sample is missing in a file, the file raises
the same exception, or loads with the same contents without this row; a topic of which it was the only
sample is missing. The last timestamp and the times of parameter changes and dropouts may change, unless the
timestamp of the sample is not larger than those before. Missing: these times in general, see
`C109_different`. -/
theorem C109_sample_partial {fuel : Nat} {cfg : Cfg} {hdr : Bytes} {defs pre post : List (Nat × Bytes)} {p : Bytes}
    {u0 : ULog} (hf : PlainFile fuel cfg hdr defs (pre ++ (tyD, p) :: post) u0) (hne : pre ≠ [])
    (ha : AcceptedAfter cfg defs pre p u0) :
    (∀ e, load fuel cfg (fileWith hdr defs pre (tyD, p) post) = .raised e →
      load fuel cfg (hdr ++ encMsgs defs ++ encMsgs (pre ++ post)) = .raised e) ∧
    ∀ v, load fuel cfg (fileWith hdr defs pre (tyD, p) post) = .ok v →
      ∃ v', load fuel cfg (hdr ++ encMsgs defs ++ encMsgs (pre ++ post)) = .ok v' ∧ LostIn (leAt p 0 2) v v' ∧
        (NotNewest cfg defs pre p u0 →
          v'.lastTs = v.lastTs ∧ v'.changedParams = v.changedParams ∧ v'.dropouts = v.dropouts) := by
  have same : ∀ v : ULog, LostIn (leAt p 0 2) v v := fun v => ⟨rfl, rfl, rfl, .inl rfl⟩
  unfold fileWith
  rw [plain_load hf, plain_load (plain_lost hf hne)]
  unfold loadMsgs
  cases hr : runDefs cfg defs u0 with
  | stopped u => exact ⟨fun e h => h, fun v h => ⟨v, h, same v, fun _ => ⟨rfl, rfl, rfl⟩⟩⟩
  | raised e => exact ⟨fun e h => h, fun v h => ⟨v, h, same v, fun _ => ⟨rfl, rfl, rfl⟩⟩⟩
  | done u =>
    simp only
    by_cases hho : cfg.headerOnly = true
    · rw [if_pos hho, if_pos hho]
      exact ⟨fun e h => h, fun v h => ⟨v, h, same v, fun _ => ⟨rfl, rfl, rfl⟩⟩⟩
    · rw [if_neg hho, if_neg hho]
      have hu : SubsOk u := SubsOk.empty (runDefs_subs defs u0 u hr (by rw [readHeader_init hf.header]))
      have hud : u.dataList = [] := (defs_dataList defs hr).trans (by rw [readHeader_init hf.header])
      have hrun : DRun (NotNewest cfg defs pre p u0) (SubsLess (leAt p 0 2)) (runData cfg (pre ++ (tyD, p) :: post) u)
          (runData cfg (pre ++ post) u) := by
        rw [runData_append, runData_append]
        cases hp : runData cfg pre u with
        | stopped w =>
          have hw : SubsOk w := (runData_state cfg pre u w (by rw [hp]; rfl)).2 hu
          exact .stopped ⟨rfl, rfl, rfl, fun _ => ⟨rfl, rfl, rfl⟩, hw, .inl rfl⟩
        | raised e => exact .raised
        | done w =>
          have hw : SubsOk w := (runData_state cfg pre u w (by rw [hp]; rfl)).2 hu
          obtain ⟨s, hs, hl, ht⟩ := ha u w hr hp
          obtain ⟨w1, h1, h2⟩ := lost_step (T := NotNewest cfg defs pre p u0) hw (by omega) hs hl ht
            (fun t => t u w s hr hp hs)
          have e : runData cfg ((tyD, p) :: post) w = runData cfg post w1 := by
            rw [runData]
            have e1 : handleData cfg w (tyD, p).1 (tyD, p).2 = some (addData w p) := handleData_D ..
            rw [e1, h1]
          simp only
          rw [e]
          exact dsim_run (subsLess_rel _) cfg post h2
      have hdat : ∀ w, runData cfg (pre ++ (tyD, p) :: post) u = .done w ∨
          runData cfg (pre ++ (tyD, p) :: post) u = .stopped w → w.dataList = [] :=
        fun w h => (run_dataList _ h).trans hud
      generalize runData cfg (pre ++ (tyD, p) :: post) u = a at hrun hdat
      generalize runData cfg (pre ++ post) u = b at hrun
      cases hrun with
      | raised => exact ⟨fun e h => h, fun v h => by cases h⟩
      | @done x y h =>
        obtain ⟨h1, h2⟩ := lost_finalize h (hdat x (.inl rfl))
        unfold finish
        simp only
        cases hf : finalize x with
        | error e =>
          rw [h1 e hf]
          exact ⟨fun e h => h, fun v h => by cases h⟩
        | ok w =>
          obtain ⟨w', hw', hd, ht⟩ := h2 w hf
          rw [hw']
          refine ⟨fun e h => (by cases h), fun v hv => ?_⟩
          cases hv
          exact ⟨w', rfl, hd, ht⟩
      | @stopped x y h =>
        obtain ⟨h1, h2⟩ := lost_finalize h (hdat x (.inr rfl))
        unfold finish
        simp only
        cases hf : finalize x with
        | error e =>
          rw [h1 e hf]
          exact ⟨fun e h => h, fun v h => by cases h⟩
        | ok w =>
          obtain ⟨w', hw', hd, ht⟩ := h2 w hf
          rw [hw']
          refine ⟨fun e h => (by cases h), fun v hv => ?_⟩
          cases hv
          exact ⟨w', rfl, hd, ht⟩

namespace Sample

/-- the sample file without one of the messages of its data section -/
def without (i : Nat) : Bytes := header ++ encMsgs defs ++ encMsgs (msgs.take i ++ msgs.drop (i + 1))

end Sample

open Sample in
/-- **C109 is false for the times**: without the first sample, the first change of the parameter happens at
the start of the log; without the only sample of `b`, the log ends earlier, and so does the dropout. -/
theorem C109_different :
    (get (load 20 {} file)).changedParams.map (·.1) = [110, 120] ∧
    (get (load 20 {} (without 2))).changedParams.map (·.1) = [100, 120] ∧
    (get (load 20 {} file)).lastTs = 120 ∧ (get (load 20 {} (without 5))).lastTs = 115 ∧
    (get (load 20 {} file)).dropouts.map (·.ts) = [120] ∧ (get (load 20 {} (without 5))).dropouts.map (·.ts) = [110] := by
  decide +kernel

open Sample in
/-- lost messages of the sample file: the text, the dropout, a sample with an older timestamp, a topic -/
example : load 20 {} (without 4) = .ok { get (load 20 {} file) with logged := [] } ∧
    load 20 {} (without 8) = .ok { get (load 20 {} file) with dropouts := [] } ∧
    load 20 {} (without 10) = .ok { get (load 20 {} file) with tagged := [] } ∧
    load 20 {} (without 9) = .ok { get (load 20 {} file) with
      dataList := withoutSample 3 1 (get (load 20 {} file)).dataList } ∧
    (get (load 20 {} (without 9))).dataList.map (fun d => cell d (py! "x") 1) = [none, none] ∧
    (get (load 20 {} (without 5))).dataList.map (·.name) = [py! "a"] ∧
    (get (load 20 {} file)).dataList.map (·.name) = [py! "a", py! "b"] := by
  refine ⟨by decide +kernel, by decide +kernel, by decide +kernel, by decide +kernel, by decide +kernel,
    by decide +kernel, by decide +kernel⟩

open Sample in
/-- the samples of the file are accepted, and the second one of `a` is not the newest -/
example (u0 : ULog) (hu : readHeader header = .ok u0) :
    AcceptedAfter {} defs (msgs.take 9) (da 115 (2 ^ 16 - 9)).2 u0 ∧
    NotNewest {} defs (msgs.take 9) (da 115 (2 ^ 16 - 9)).2 u0 := by
  have h0 : readHeader header = .ok { fileVersion := 1, startTs := 100, lastTs := 100 } := rfl
  rw [h0] at hu
  injection hu with hu
  subst hu
  have key : (match runDefs {} defs { fileVersion := 1, startTs := 100, lastTs := 100 } with
      | .done u => match runData {} (msgs.take 9) u with
        | .done w => match w.subs.get? (leAt (da 115 (2 ^ 16 - 9)).2 0 2) with
          | some s => decide ((da 115 (2 ^ 16 - 9)).2.length = 2 + rowSize s.fields ∧ tsPos s.fields + 8 ≤ rowSize s.fields ∧
              leAt (da 115 (2 ^ 16 - 9)).2 (2 + tsPos s.fields) 8 ≤ w.lastTs)
          | none => false
        | _ => false
      | _ => false) = true := by decide +kernel
  constructor
  · intro u w hd hp
    rw [hd] at key
    simp only [hp] at key
    cases hs : w.subs.get? (leAt (da 115 (2 ^ 16 - 9)).2 0 2) with
    | none => rw [hs] at key; cases key
    | some s =>
      rw [hs] at key
      have key := of_decide_eq_true key
      exact ⟨s, rfl, key.1, key.2.1⟩
  · intro u w s hd hp hs
    rw [hd] at key
    simp only [hp] at key
    rw [hs] at key
    exact (of_decide_eq_true key).2.2

end PyULog
