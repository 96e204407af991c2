import Verif.Lemmas.Damage
import Verif.Lemmas.Interleave
import Verif.Props.Framing
import Verif.Spec.SampleRun
/-
Property theorems: C107 (a damaged sample stays in its sample).
-/
namespace PyULog
open Spec

theorem C107_messages (cfg : Cfg) (defs pre post : List (Nat × Bytes)) (p p' : Bytes) (u0 : ULog) (hs : u0.subs = [])
    (hdl : u0.dataList = []) (hl : p'.length = p.length) (h2 : p'.take 2 = p.take 2) :
    (∀ e, loadMsgs cfg defs (pre ++ (tyD, p) :: post) u0 = .raised e →
      loadMsgs cfg defs (pre ++ (tyD, p') :: post) u0 = .raised e) ∧
    ∀ v, loadMsgs cfg defs (pre ++ (tyD, p) :: post) u0 = .ok v →
      ∃ v', loadMsgs cfg defs (pre ++ (tyD, p') :: post) u0 = .ok v' ∧ DamagedIn (leAt p 0 2) v v' ∧
        ((∀ u w s, runDefs cfg defs u0 = .done u → runData cfg pre u = .done w → w.subs.get? (leAt p 0 2) = some s →
            leAt p' (2 + tsPos s.fields) 8 = leAt p (2 + tsPos s.fields) 8) →
          v'.lastTs = v.lastTs ∧ v'.changedParams = v.changedParams ∧ v'.dropouts = v.dropouts) := by
  have same : ∀ v : ULog, DamagedIn (leAt p 0 2) v v := fun v =>
    ⟨rfl, rfl, rfl, fun d => d, (List.map_id' _).symm, fun d _ => ⟨oneRow_refl d, fun _ => rfl⟩⟩
  unfold loadMsgs
  cases hr : runDefs cfg defs u0 with
  | stopped u => exact ⟨fun e h => h, fun v h => ⟨v, h, same v, fun _ => ⟨rfl, rfl, rfl⟩⟩⟩
  | raised e => exact ⟨fun e h => h, fun v h => ⟨v, h, same v, fun _ => ⟨rfl, rfl, rfl⟩⟩⟩
  | done u =>
    simp only
    by_cases hho : cfg.headerOnly = true
    · rw [if_pos hho, if_pos hho]
      exact ⟨fun e h => h, fun v h => ⟨v, h, same v, fun _ => ⟨rfl, rfl, rfl⟩⟩⟩
    · rw [if_neg hho, if_neg hho]
      have hu : SubsOk u := SubsOk.empty (runDefs_subs defs u0 u hr hs)
      have hud : u.dataList = [] := (defs_dataList defs hr).trans hdl
      have hrun := dsim_damaged (cfg := cfg)
        (T := ∀ u w s, runDefs cfg defs u0 = .done u → runData cfg pre u = .done w →
          w.subs.get? (leAt p 0 2) = some s → leAt p' (2 + tsPos s.fields) 8 = leAt p (2 + tsPos s.fields) 8)
        pre post hu hl h2 (fun t w s hw hs => t u w s hr hw hs)
      have hdat : ∀ w, runData cfg (pre ++ (tyD, p) :: post) u = .done w ∨
          runData cfg (pre ++ (tyD, p) :: post) u = .stopped w → w.dataList = [] :=
        fun w h => (run_dataList _ h).trans hud
      rw [hr] at hrun
      generalize runData cfg (pre ++ (tyD, p) :: post) u = a at hrun hdat
      generalize runData cfg (pre ++ (tyD, p') :: post) u = b at hrun
      cases hrun with
      | raised => exact ⟨fun e h => h, fun v h => by cases h⟩
      | @done x y h =>
        obtain ⟨h1, h2⟩ := damaged_finalize h (hdat x (.inl rfl))
        unfold finish
        simp only
        cases hf : finalize x with
        | error e =>
          rw [h1 e hf]
          exact ⟨fun e h => h, fun v h => by cases h⟩
        | ok w =>
          obtain ⟨w', hw', hd, ht⟩ := h2 w hf
          rw [hw']
          refine ⟨fun e h => (by cases h), fun v hv => ?_⟩
          cases hv
          exact ⟨w', rfl, hd, ht⟩
      | @stopped x y h =>
        obtain ⟨h1, h2⟩ := damaged_finalize h (hdat x (.inr rfl))
        unfold finish
        simp only
        cases hf : finalize x with
        | error e =>
          rw [h1 e hf]
          exact ⟨fun e h => h, fun v h => by cases h⟩
        | ok w =>
          obtain ⟨w', hw', hd, ht⟩ := h2 w hf
          rw [hw']
          refine ⟨fun e h => (by cases h), fun v hv => ?_⟩
          cases hv
          exact ⟨w', rfl, hd, ht⟩

/-- **C107**, as far as it holds: when bytes of one sample of a file are damaged, other than those of its
length, type and subscription id, then the file raises the same exception as before, or it is loaded with
the same contents: all other rows of the topic and all other topics are the same, the file is not marked
corrupt if it was not, and only the last timestamp and the times of parameter changes and dropouts may
change besides the row; these too are the same when the timestamp of the sample is not damaged.
Missing: the times when the timestamp is damaged, see `C107_different`. -/
theorem C107_file_partial (fuel : Nat) (cfg : Cfg) (hdr : Bytes) (defs pre post : List (Nat × Bytes)) (p p' : Bytes)
    (u0 : ULog) (hh : hdr.length = 16) (hu : readHeader hdr = .ok u0)
    (hd : ∀ m ∈ defs, DefFrame m) (hm : ∀ m ∈ pre ++ (tyD, p) :: post, DataFrame m)
    (hne : pre ≠ []) (hends : ∀ m, pre.head? = some m → m.1 = tyA ∨ m.1 = tyL ∨ m.1 = tyC)
    (hap : ∀ u, runDefs cfg defs u0 = .done u → hasDataAppended u = false)
    (hfuel : defs.length < fuel)
    (hlen : 16 + (encMsgs defs).length + (encMsgs (pre ++ (tyD, p) :: post)).length ≤ 2 ^ 50)
    (hl : p'.length = p.length) (h2 : p'.take 2 = p.take 2) :
    (∀ e, load fuel cfg (hdr ++ encMsgs defs ++ encMsgs (pre ++ (tyD, p) :: post)) = .raised e →
      load fuel cfg (hdr ++ encMsgs defs ++ encMsgs (pre ++ (tyD, p') :: post)) = .raised e) ∧
    ∀ v, load fuel cfg (hdr ++ encMsgs defs ++ encMsgs (pre ++ (tyD, p) :: post)) = .ok v →
      ∃ v', load fuel cfg (hdr ++ encMsgs defs ++ encMsgs (pre ++ (tyD, p') :: post)) = .ok v' ∧
        DamagedIn (leAt p 0 2) v v' ∧
        ((∀ u w s, runDefs cfg defs u0 = .done u → runData cfg pre u = .done w → w.subs.get? (leAt p 0 2) = some s →
            leAt p' (2 + tsPos s.fields) 8 = leAt p (2 + tsPos s.fields) 8) →
          v'.lastTs = v.lastTs ∧ v'.changedParams = v.changedParams ∧ v'.dropouts = v.dropouts) := by
  have hm' : ∀ m ∈ pre ++ (tyD, p') :: post, DataFrame m := by
    intro m h
    rw [List.mem_append, List.mem_cons] at h
    rcases h with h | rfl | h
    · exact hm m (List.mem_append.mpr (.inl h))
    · have := hm (tyD, p) (List.mem_append.mpr (.inr (List.mem_cons_self ..)))
      refine ⟨?_, .inl (show isDataType tyD by decide)⟩
      have hf := this.1
      unfold Fits at hf ⊢
      simp only [hl] at hf ⊢
      exact hf
    · exact hm m (List.mem_append.mpr (.inr (List.mem_cons_of_mem _ h)))
  have hhead : ∀ (q : Bytes) m, (pre ++ (tyD, q) :: post).head? = some m → m.1 = tyA ∨ m.1 = tyL ∨ m.1 = tyC := by
    intro q m h
    refine hends m ?_
    cases pre with
    | nil => exact absurd rfl hne
    | cons x pre => exact h
  have hlen' : (encMsgs (pre ++ (tyD, p') :: post)).length = (encMsgs (pre ++ (tyD, p) :: post)).length := by
    rw [encMsgs_append, encMsgs_append, List.length_append, List.length_append]
    congr 1
    simp [encMsgs, encMsg, hl]
  rw [C18_file fuel cfg hdr defs _ u0 hh hu hd hm (hhead p) hap hfuel hlen,
    C18_file fuel cfg hdr defs _ u0 hh hu hd hm' (hhead p') hap hfuel (by rw [hlen']; exact hlen)]
  exact C107_messages cfg defs pre post p p' u0 (by rw [readHeader_init hu]) (by rw [readHeader_init hu]) hl h2

/-- the file is not marked corrupt because of a damaged sample, and nothing but one row of its topic
changes in the datasets -/
theorem C107_not_noticed {id : Nat} {v v' : ULog} (h : DamagedIn id v v') :
    v'.fileCorrupt = v.fileCorrupt ∧ v'.logged = v.logged ∧ v'.info = v.info ∧
      v'.initialParams = v.initialParams ∧ v'.dataList.map (·.name) = v.dataList.map (·.name) ∧
      ∀ (i : Nat) (d : Dataset), v.dataList[i]? = some d → d.msgId ≠ id → v'.dataList[i]? = some d := by
  obtain ⟨f, hf, hr⟩ := h.data
  refine ⟨(congrArg (fun x : ULog => x.fileCorrupt) h.rest :), (congrArg (fun x : ULog => x.logged) h.rest :),
    (congrArg (fun x : ULog => x.info) h.rest :), (congrArg (fun x : ULog => x.initialParams) h.rest :), ?_, ?_⟩
  · rw [hf, List.map_map]
    apply List.map_congr_left
    intro d hd
    exact (congrArg (fun x : Dataset => x.name) (hr d hd).1.head :)
  · intro i d hi hne
    rw [hf, List.getElem?_map, hi]
    simp only [Option.map_some]
    rw [(hr d (List.mem_of_getElem? hi)).2 hne]

namespace Sample

/-- the sample file whose first sample of `a` is another one -/
def damaged (m : Nat × Bytes) : Bytes := header ++ encMsgs defs ++ encMsgs (msgs.take 2 ++ m :: msgs.drop 3)

end Sample

open Sample in
/-- **C107 is false for the times**: with a damaged timestamp in the first sample, the last timestamp of
the log and the times of all later parameter changes and dropouts are the damaged one. -/
theorem C107_different :
    damaged (da 110 7) = file ∧ (da (2 ^ 40) 7).2.length = (da 110 7).2.length ∧
    (da (2 ^ 40) 7).2.take 2 = (da 110 7).2.take 2 ∧
    (get (load 20 {} file)).lastTs = 120 ∧ (get (load 20 {} (damaged (da (2 ^ 40) 7)))).lastTs = 2 ^ 40 ∧
    (get (load 20 {} file)).changedParams.map (·.1) = [110, 120] ∧
    (get (load 20 {} (damaged (da (2 ^ 40) 7)))).changedParams.map (·.1) = [2 ^ 40, 2 ^ 40] ∧
    (get (load 20 {} file)).dropouts.map (·.ts) = [120] ∧
    (get (load 20 {} (damaged (da (2 ^ 40) 7)))).dropouts.map (·.ts) = [2 ^ 40] := by
  decide +kernel

open Sample in
/-- a damaged value changes this value only -/
example : (get (load 20 {} (damaged (da 110 99)))).lastTs = (get (load 20 {} file)).lastTs ∧
    (get (load 20 {} (damaged (da 110 99)))).dropouts = (get (load 20 {} file)).dropouts ∧
    (get (load 20 {} file)).dataList.map (fun d => cell d (py! "x") 0) = [some (.int 7), none] ∧
    (get (load 20 {} (damaged (da 110 99)))).dataList.map (fun d => cell d (py! "x") 0) = [some (.int 99), none] ∧
    (get (load 20 {} (damaged (da 110 99)))).dataList.map (fun d => cell d (py! "x") 1)
      = (get (load 20 {} file)).dataList.map (fun d => cell d (py! "x") 1) ∧
    msgs.take 2 ≠ [] ∧ (∀ m, (msgs.take 2).head? = some m → m.1 = tyA ∨ m.1 = tyL ∨ m.1 = tyC) := by
  refine ⟨by decide +kernel, by decide +kernel, by decide +kernel, by decide +kernel, by decide +kernel,
    by decide, ?_⟩
  intro m h
  cases h
  exact .inl rfl

end PyULog
