import Verif.Lemmas.LostTopic
import Verif.Props.LostKey
/-
Property theorems: C114 (a lost subscription loses its topic, and no other data).
-/
namespace PyULog
open Spec

theorem runDefs_presD {cfg : Cfg} (l : List (Nat × Bytes)) {u v : ULog} (h : runDefs cfg l u = .done v) : PresD u v := by
  induction l generalizing u with
  | nil => cases h; exact .refl _
  | cons m l ih =>
    simp only [runDefs] at h
    cases hod : handleDef cfg u m.1 m.2 with
    | none => rw [hod] at h; exact ih h
    | some o =>
      have hp := handleDef_presD _ _ _ _ _ hod
      rw [hod] at h
      cases o with
      | ok u' => exact hp.trans (ih h)
      | err e u' =>
        cases e
        case indexError =>
          refine hp.trans (.trans ?_ (ih (u := { u' with fileCorrupt := true }) h))
          constructor <;> first | rfl | (intro _; rfl)
        all_goals cases h

/-- **C114**: when a subscription that can be decoded is missing in a file (not the first message of the data),
and no other subscription has its id, the file raises the same exception, or loads with the same contents
without the dataset of this id; if there were samples with this id, the id is reported as missing and the log
as corrupt. (The times of parameter changes and dropouts, and the last timestamp, may be earlier, see
`C114_times`.) -/
theorem C114_subscription {fuel : Nat} {cfg : Cfg} {hdr : Bytes} {defs pre post : List (Nat × Bytes)} {p : Bytes}
    {u0 : ULog} (hf : PlainFile fuel cfg hdr defs (pre ++ (tyA, p) :: post) u0) (hne : pre ≠ [])
    (hs : SubscribesAfter cfg defs pre p u0)
    (ha : ∀ m ∈ pre ++ post, m.1 = tyA → leAt m.2 1 2 ≠ leAt p 1 2) :
    SameLoad (LostTopic (leAt p 1 2)) (load fuel cfg (fileWith hdr defs pre (tyA, p) post))
      (load fuel cfg (hdr ++ encMsgs defs ++ encMsgs (pre ++ post))) := by
  unfold fileWith
  rw [plain_load hf, plain_load (plain_lost hf hne)]
  unfold loadMsgs
  have same : ∀ v : ULog, v.dataList = [] → LostTopic (leAt p 1 2) v v := fun v hv =>
    ⟨rfl, rfl, rfl, by rw [hv]; rfl, fun h => h, fun _ _ => Iff.rfl, fun d hd => (by rw [hv] at hd; cases hd),
      Nat.le_refl _⟩
  cases hr : runDefs cfg defs u0 with
  | stopped u => exact absurd hr (runDefs_ne_stopped _ _ _ _)
  | raised e => exact .inl ⟨_, rfl, rfl⟩
  | done u =>
    have hpd := runDefs_presD defs hr
    have hu : SubsOk u := SubsOk.empty (by rw [hpd.subs, readHeader_init hf.header])
    have hud : u.dataList = [] := by rw [hpd.dataList, readHeader_init hf.header]
    have hn : u.subs.get? (leAt p 1 2) = none := by rw [hpd.subs, readHeader_init hf.header]; rfl
    have hfl : leAt p 1 2 ∉ u.filteredIds := by rw [hpd.filteredIds, readHeader_init hf.header]; exact List.not_mem_nil
    simp only
    by_cases hho : cfg.headerOnly = true
    · rw [if_pos hho, if_pos hho]
      exact .inr ⟨_, _, rfl, rfl, same u hud⟩
    · rw [if_neg hho, if_neg hho]
      have hrun := lsim_lost pre post hu hn hfl rfl ha (fun w => hs u w hr)
      have hdat : ∀ w, runData cfg (pre ++ (tyA, p) :: post) u = .done w ∨
          runData cfg (pre ++ (tyA, p) :: post) u = .stopped w → w.dataList = [] :=
        fun w h => (run_dataList _ h).trans hud
      generalize runData cfg (pre ++ (tyA, p) :: post) u = a at hrun hdat
      generalize runData cfg (pre ++ post) u = b at hrun
      cases hrun with
      | raised => exact .inl ⟨_, rfl, rfl⟩
      | @done x y h =>
        obtain ⟨w, w', h1, h2, h3⟩ := lsim_finalize h (hdat x (.inl rfl))
        unfold finish
        simp only
        rw [h1, h2]
        exact .inr ⟨w, w', rfl, rfl, h3⟩
      | @stopped x y h =>
        obtain ⟨w, w', h1, h2, h3⟩ := lsim_finalize h (hdat x (.inr rfl))
        unfold finish
        simp only
        rw [h1, h2]
        exact .inr ⟨w, w', rfl, rfl, h3⟩

/-- **C114**: the dataset of every other topic is found with the same name and instance -/
theorem C114_dataset {id : Nat} {v v' : ULog} (h : LostTopic id v v') (d : Dataset) (hd : d.msgId ≠ id) :
    d ∈ v'.dataList ↔ d ∈ v.dataList := by
  rw [h.data, List.mem_filter]
  simp [hd]

open Sample in
/-- without the subscription of `b` (the second message of the data) the sample file has the topic `a` only, and
the id 4 is reported as missing -/
theorem C114_sample :
    (get (load 20 {} file)).dataList.map (fun d => (d.name, d.msgId)) = [(py! "a", 3), (py! "b", 4)] ∧
    (get (load 20 {} (without 1))).dataList = (get (load 20 {} file)).dataList.take 1 ∧
    (get (load 20 {} file)).missingIds = [] ∧ (get (load 20 {} (without 1))).missingIds = [4] ∧
    (get (load 20 {} (header ++ encMsgs defs ++ encMsgs (msgs.take 12)))).fileCorrupt = false ∧
    (get (load 20 {} (header ++ encMsgs defs ++ encMsgs (msgs.take 1 ++ (msgs.take 12).drop 2)))).fileCorrupt = true ∧
    (get (load 20 {} (without 1))).logged = (get (load 20 {} file)).logged := by
  decide +kernel

open Sample in
/-- why the times are excluded: without the topic `b`, the log ends earlier, and so does the dropout -/
theorem C114_times :
    (get (load 20 {} file)).lastTs = 120 ∧ (get (load 20 {} (without 1))).lastTs = 115 ∧
    (get (load 20 {} file)).dropouts.map (·.ts) = [120] ∧ (get (load 20 {} (without 1))).dropouts.map (·.ts) = [110] := by
  decide +kernel

open Sample in
/-- the sample file and the subscription of `b` satisfy the hypotheses of C114_subscription -/
example : ∃ u0, PlainFile 20 {} header defs (msgs.take 1 ++ (tyA, [1, 4, 0] ++ asc (py! "b")) :: msgs.drop 2) u0 ∧
    SubscribesAfter {} defs (msgs.take 1) ([1, 4, 0] ++ asc (py! "b")) u0 ∧
    (∀ m ∈ msgs.take 1 ++ msgs.drop 2, m.1 = tyA → leAt m.2 1 2 ≠ leAt ([1, 4, 0] ++ asc (py! "b")) 1 2) := by
  obtain ⟨u0, hu⟩ := sample_plainDef
  refine ⟨u0, hu, ?_, by decide +kernel⟩
  have h0 : readHeader header = .ok { fileVersion := 1, startTs := 100, lastTs := 100 } := rfl
  have hh := hu.header
  rw [h0] at hh
  injection hh with hh
  subst hh
  have key : (match runDefs {} defs { fileVersion := 1, startTs := 100, lastTs := 100 } with
      | .done u => match runData {} (msgs.take 1) u with
        | .done w => match parseAddLogged false w.formats ({} : Cfg).depth ([1, 4, 0] ++ asc (py! "b")) with
          | .ok s => decide (NameFilter.all.accepts s.name = true ∧ tsPos s.fields + 8 ≤ rowSize s.fields)
          | _ => false
        | _ => false
      | _ => false) = true := by decide +kernel
  intro u w hd hp
  rw [hd] at key
  simp only [hp] at key
  split at key
  · rename_i s hs
    exact ⟨s, hs, of_decide_eq_true key⟩
  · cases key

end PyULog
