import Verif.Lemmas.Dicts
import Verif.Props.Float
/-
A condition that every parsed value satisfies holds for all values of a loaded log.
-/
namespace PyULog
open Spec

/-- all info and parameter values satisfy `P` -/
structure AllVals (P : Value → Prop) (u : ULog) : Prop where
  info : ∀ p ∈ u.info, P p.2
  multi : ∀ p ∈ u.infoMulti, ∀ l ∈ p.2, ∀ v ∈ l, P v
  initial : ∀ p ∈ u.initialParams, P p.2
  defaults : ∀ p ∈ u.defaultParams, ∀ q ∈ p.2, P q.2
  changed : ∀ c ∈ u.changedParams, P c.2.2

/-- the values only -/
def valuesOf (u : ULog) := (u.info, u.infoMulti, u.initialParams, u.defaultParams, u.changedParams)

theorem AllVals.of_eq {P : Value → Prop} {u v : ULog} (h : AllVals P u) (he : valuesOf v = valuesOf u) : AllVals P v := by
  unfold valuesOf at he
  injection he with h1 he
  injection he with h2 he
  injection he with h3 he
  injection he with h4 h5
  exact ⟨h1 ▸ h.info, h2 ▸ h.multi, h3 ▸ h.initial, h4 ▸ h.defaults, h5 ▸ h.changed⟩

theorem parseInfo_value {ign : Bool} {d : Bytes} {m : InfoMsg} (h : parseInfo ign d = .ok m) :
    ∃ b, parseInfoValue ign m.type b = .ok m.value := by
  unfold parseInfo at h
  obtain ⟨keyLen, _, h⟩ := except_bind_ok.mp h
  obtain ⟨tk, _, h⟩ := except_bind_ok.mp h
  dsimp only at h
  obtain ⟨type, _, h⟩ := except_bind_ok.mp h
  obtain ⟨key, _, h⟩ := except_bind_ok.mp h
  obtain ⟨value, h1, h⟩ := except_bind_ok.mp h
  injection h with h
  subst h
  exact ⟨_, h1⟩

theorem parseInfoMulti_value {ign : Bool} {d : Bytes} {m : InfoMsg} (h : parseInfoMulti ign d = .ok m) :
    ∃ b, parseInfoValue ign m.type b = .ok m.value := by
  unfold parseInfoMulti at h
  obtain ⟨cont, _, h⟩ := except_bind_ok.mp h
  obtain ⟨m', h1, h⟩ := except_bind_ok.mp h
  injection h with h
  subst h
  obtain ⟨b, hb⟩ := parseInfo_value h1
  exact ⟨b, hb⟩

theorem parseParamDefault_value {ign : Bool} {d : Bytes} {m : Nat × InfoMsg} (h : parseParamDefault ign d = .ok m) :
    ∃ b, parseInfoValue ign m.2.type b = .ok m.2.value := by
  unfold parseParamDefault at h
  obtain ⟨cont, _, h⟩ := except_bind_ok.mp h
  obtain ⟨m', h1, h⟩ := except_bind_ok.mp h
  injection h with h
  subst h
  exact parseInfo_value h1

theorem set_all {κ α : Type} [DecidableEq κ] {d : Dict κ α} {k : κ} {v : α} {Q : α → Prop} (h : ∀ p ∈ d, Q p.2)
    (hv : Q v) : ∀ p ∈ d.set k v, Q p.2 := by
  intro p hp
  rcases mem_set_val hp with hp | hp
  · exact h p hp
  · rw [hp]; exact hv

theorem getD_all {κ α : Type} [DecidableEq κ] {d : Dict κ α} {k : κ} {v : α} {Q : α → Prop} (h : ∀ p ∈ d, Q p.2)
    (hv : Q v) : Q ((d.get? k).getD v) := by
  cases hg : d.get? k with
  | none => exact hv
  | some x => exact h _ (Dict.mem_of_get? _ _ _ hg)

theorem addDefaultLoop_vals {P : Value → Prop} (key : Str) (value : Value) (hv : P value) (fuel : Nat) (types : BitVec 8)
    (d : Dict Nat (Dict Str Value)) (h : ∀ p ∈ d, ∀ q ∈ p.2, P q.2) :
    ∀ p ∈ addDefaultLoop key value fuel types d, ∀ q ∈ p.2, P q.2 := by
  induction fuel generalizing types d with
  | zero => exact h
  | succ fuel ih =>
    rw [addDefaultLoop]
    split
    · exact h
    · generalize (types &&& (~~~types + 1)) = low
      dsimp only
      have hb : ∀ p ∈ (if d.has (low.toNat - 1) then d else d.set (low.toNat - 1) []), ∀ q ∈ p.2, P q.2 := by
        split
        · exact h
        · exact set_all (Q := fun (l : Dict Str Value) => ∀ q ∈ l, P q.2) h (fun q hq => (List.not_mem_nil hq).elim)
      generalize (if d.has (low.toNat - 1) then d else d.set (low.toNat - 1) []) = d' at hb
      apply ih
      exact set_all (Q := fun (l : Dict Str Value) => ∀ q ∈ l, P q.2) hb
        (set_all (getD_all (Q := fun (l : Dict Str Value) => ∀ q ∈ l, P q.2) hb (fun q hq => (List.not_mem_nil hq).elim)) hv)

theorem addInfoMulti_vals {P : Value → Prop} {u : ULog} (h : AllVals P u) (m : InfoMsg) (hv : P m.value) :
    AllVals P (addInfoMulti u m) := by
  have hone : ∀ v ∈ [m.value], P v := by
    intro v hm
    rw [List.mem_singleton] at hm
    rw [hm]; exact hv
  unfold addInfoMulti
  split
  · rename_i lists hl
    have hlists : ∀ l ∈ lists, ∀ v ∈ l, P v := h.multi _ (Dict.mem_of_get? _ _ _ hl)
    split
    · refine { h with multi := set_all (Q := fun ls => ∀ l ∈ ls, ∀ v ∈ l, P v) h.multi ?_ }
      intro l hl v hv'
      rcases List.mem_append.mp hl with hl | hl
      · exact hlists l (List.dropLast_subset _ hl) v hv'
      · rw [List.mem_singleton] at hl
        subst hl
        rcases List.mem_append.mp hv' with hv' | hv'
        · cases hg : lists.getLast? with
          | none => rw [hg] at hv'; exact (List.not_mem_nil hv').elim
          | some x =>
            rw [hg] at hv'
            exact hlists x (List.mem_of_getLast? hg) v hv'
        · exact hone v hv'
    · refine { h with multi := set_all (Q := fun ls => ∀ l ∈ ls, ∀ v ∈ l, P v) h.multi ?_ }
      intro l hl v hv'
      rcases List.mem_append.mp hl with hl | hl
      · exact hlists l hl v hv'
      · rw [List.mem_singleton] at hl
        subst hl
        exact hone v hv'
  · refine { h with multi := set_all (Q := fun ls => ∀ l ∈ ls, ∀ v ∈ l, P v) h.multi ?_ }
    intro l hl v hv'
    rw [List.mem_singleton] at hl
    subst hl
    exact hone v hv'

theorem bind_vals {α : Type} {P : Value → Prop} {u : ULog} (h : AllVals P u) {r : Except PyErr α} {f : α → ULog}
    (hf : ∀ a, r = .ok a → AllVals P (f a)) : AllVals P (Out.bind r u f).state := by
  cases r with
  | error e => exact h
  | ok a => exact hf a rfl

/-- every parsed value satisfies `P` -/
def Parsed (P : Value → Prop) : Prop := ∀ ign ty b v, parseInfoValue ign ty b = .ok v → P v

theorem handleData_vals {P : Value → Prop} (hP : Parsed P) {cfg : Cfg} {u : ULog} {ty : Nat} {d : Bytes} {o : Out}
    (hu : AllVals P u) (h : handleData cfg u ty d = some o) : AllVals P o.state := by
  by_cases hI : ty = tyI
  · subst hI
    rw [show tyI = MSG_TYPE_INFO from rfl, handleData_I] at h
    cases h
    exact bind_vals hu fun m hm => { hu with info := set_all hu.info ((parseInfo_value hm).elim fun b hb => hP _ _ _ _ hb) }
  by_cases hM : ty = tyM
  · subst hM
    rw [show tyM = MSG_TYPE_INFO_MULTIPLE from rfl, handleData_M] at h
    cases h
    exact bind_vals hu fun m hm => addInfoMulti_vals hu m ((parseInfoMulti_value hm).elim fun b hb => hP _ _ _ _ hb)
  by_cases hQ : ty = tyQ
  · subst hQ
    rw [show tyQ = MSG_TYPE_PARAMETER_DEFAULT from rfl, handleData_Q] at h
    cases h
    exact bind_vals hu fun m hm => { hu with
      defaults := addDefaultLoop_vals _ _ ((parseParamDefault_value hm).elim fun b hb => hP _ _ _ _ hb) _ _ _ hu.defaults }
  by_cases hp : ty = tyP
  · subst hp
    rw [show tyP = MSG_TYPE_PARAMETER from rfl, handleData_P] at h
    cases h
    refine bind_vals hu fun m hm => { hu with changed := ?_ }
    intro c hc
    rcases List.mem_append.mp hc with hc | hc
    · exact hu.changed c hc
    · rw [List.mem_singleton] at hc
      subst hc
      exact (parseInfo_value hm).elim fun b hb => hP _ _ _ _ hb
  exact hu.of_eq (handleData_frame valuesOf h (hI := fun e => absurd e hI) (hM := fun e => absurd e hM)
    (hQ := fun e => absurd e hQ) (hP := fun e => absurd e hp))

theorem handleDef_vals {P : Value → Prop} (hP : Parsed P) {cfg : Cfg} {u : ULog} {ty : Nat} {d : Bytes} {o : Out}
    (hu : AllVals P u) (h : handleDef cfg u ty d = some o) : AllVals P o.state := by
  by_cases hI : ty = tyI
  · subst hI
    rw [show tyI = MSG_TYPE_INFO from rfl, handleDef_I] at h
    cases h
    exact bind_vals hu fun m hm => { hu with info := set_all hu.info ((parseInfo_value hm).elim fun b hb => hP _ _ _ _ hb) }
  by_cases hM : ty = tyM
  · subst hM
    rw [show tyM = MSG_TYPE_INFO_MULTIPLE from rfl, handleDef_M] at h
    cases h
    exact bind_vals hu fun m hm => addInfoMulti_vals hu m ((parseInfoMulti_value hm).elim fun b hb => hP _ _ _ _ hb)
  by_cases hQ : ty = tyQ
  · subst hQ
    rw [show tyQ = MSG_TYPE_PARAMETER_DEFAULT from rfl, handleDef_Q] at h
    cases h
    exact bind_vals hu fun m hm => { hu with
      defaults := addDefaultLoop_vals _ _ ((parseParamDefault_value hm).elim fun b hb => hP _ _ _ _ hb) _ _ _ hu.defaults }
  by_cases hp : ty = tyP
  · subst hp
    rw [show tyP = MSG_TYPE_PARAMETER from rfl, handleDef_P] at h
    cases h
    exact bind_vals hu fun m hm => { hu with
      initial := set_all hu.initial ((parseInfo_value hm).elim fun b hb => hP _ _ _ _ hb) }
  exact hu.of_eq (handleDef_frame valuesOf h (hI := fun e => absurd e hI) (hM := fun e => absurd e hM)
    (hQ := fun e => absurd e hQ) (hP := fun e => absurd e hp))

theorem load_vals {P : Value → Prop} (hP : Parsed P) {fuel : Nat} {cfg : Cfg} {bs : Bytes} {u : ULog}
    (h : load fuel cfg bs = .ok u) : AllVals P u := by
  refine load_inv_all (P := fun _ v => AllVals P v) (fun t v c hh hp => hp.of_eq rfl) (fun t v d hp => hp.of_eq rfl)
    (fun t v ty d o hp hd => handleDef_vals hP hp hd) (fun t v ty d o hp hd => handleData_vals hP hp hd) ?_ h
  intro v hv
  unfold readHeader at hv
  dsimp only at hv
  split at hv
  · cases hv
  · split at hv
    · cases hv
    · injection hv with hv
      subst hv
      exact ⟨fun p hp => (List.not_mem_nil hp).elim, fun p hp => (List.not_mem_nil hp).elim,
        fun p hp => (List.not_mem_nil hp).elim, fun p hp => (List.not_mem_nil hp).elim,
        fun p hp => (List.not_mem_nil hp).elim⟩

end PyULog
