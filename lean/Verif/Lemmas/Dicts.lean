import Verif.Lemmas.Decode
/-
The dictionaries of a loaded log have no repeated keys.
-/
namespace PyULog
open Spec

/-- no repeated keys -/
def DictOk {κ α : Type} (d : Dict κ α) : Prop := (Dict.keys d).Nodup

theorem DictOk.set {κ α : Type} [DecidableEq κ] {d : Dict κ α} (h : DictOk d) (k : κ) (v : α) : DictOk (d.set k v) :=
  Dict.keys_nodup_set d k v h

/-- all dictionaries of a log -/
structure DictsOk (u : ULog) : Prop where
  info : DictOk u.info
  infoTypes : DictOk u.infoTypes
  infoMulti : DictOk u.infoMulti
  infoMultiTypes : DictOk u.infoMultiTypes
  initial : DictOk u.initialParams
  defaults : DictOk u.defaultParams
  default : ∀ p ∈ u.defaultParams, DictOk p.2
  formats : DictOk u.formats
  tagged : DictOk u.tagged

/-- the dictionaries only -/
def dictsOf (u : ULog) :=
  (u.info, u.infoTypes, u.infoMulti, u.infoMultiTypes, u.initialParams, u.defaultParams, u.formats, u.tagged)

theorem DictsOk.of_eq {u v : ULog} (h : DictsOk u) (he : dictsOf v = dictsOf u) : DictsOk v := by
  unfold dictsOf at he
  injection he with h1 he
  injection he with h2 he
  injection he with h3 he
  injection he with h4 he
  injection he with h5 he
  injection he with h6 he
  injection he with h7 h8
  exact ⟨h1 ▸ h.info, h2 ▸ h.infoTypes, h3 ▸ h.infoMulti, h4 ▸ h.infoMultiTypes, h5 ▸ h.initial, h6 ▸ h.defaults,
    h6 ▸ h.default, h7 ▸ h.formats, h8 ▸ h.tagged⟩

theorem mem_set_val {κ α : Type} [DecidableEq κ] {d : Dict κ α} {k : κ} {v : α} {p : κ × α} (h : p ∈ d.set k v) :
    p ∈ d ∨ p.2 = v := by
  induction d with
  | nil =>
    unfold Dict.set at h
    rw [List.mem_singleton] at h
    exact Or.inr (by rw [h])
  | cons q d ih =>
    obtain ⟨a, b⟩ := q
    unfold Dict.set at h
    split at h
    · rcases List.mem_cons.mp h with rfl | h
      · exact Or.inr rfl
      · exact Or.inl (List.mem_cons_of_mem _ h)
    · rcases List.mem_cons.mp h with rfl | h
      · exact Or.inl (List.mem_cons_self ..)
      · rcases ih h with h | h
        · exact Or.inl (List.mem_cons_of_mem _ h)
        · exact Or.inr h

theorem addDefaultLoop_ok (key : Str) (value : Value) (fuel : Nat) (types : BitVec 8)
    (d : Dict Nat (Dict Str Value)) (h : DictOk d) (h2 : ∀ p ∈ d, DictOk p.2) :
    DictOk (addDefaultLoop key value fuel types d) ∧ ∀ p ∈ addDefaultLoop key value fuel types d, DictOk p.2 := by
  induction fuel generalizing types d with
  | zero => exact ⟨h, h2⟩
  | succ fuel ih =>
    rw [addDefaultLoop]
    split
    · exact ⟨h, h2⟩
    · generalize (types &&& (~~~types + 1)) = low
      dsimp only
      have ⟨ha, hb⟩ : DictOk (if d.has (low.toNat - 1) then d else d.set (low.toNat - 1) []) ∧
          ∀ p ∈ (if d.has (low.toNat - 1) then d else d.set (low.toNat - 1) []), DictOk p.2 := by
        split
        · exact ⟨h, h2⟩
        · refine ⟨h.set _ _, fun p hp => ?_⟩
          rcases mem_set_val hp with hp | hp
          · exact h2 p hp
          · rw [hp]; exact List.nodup_nil
      generalize (if d.has (low.toNat - 1) then d else d.set (low.toNat - 1) []) = d' at ha hb
      apply ih
      · exact ha.set _ _
      · intro p hp
        rcases mem_set_val hp with hp | hp
        · exact hb p hp
        · rw [hp]
          apply DictOk.set
          cases hg : d'.get? (low.toNat - 1) with
          | none => exact List.nodup_nil
          | some x => exact hb _ (Dict.mem_of_get? _ _ _ hg)

theorem addInfoMulti_ok {u : ULog} (h : DictsOk u) (m : InfoMsg) : DictsOk (addInfoMulti u m) := by
  unfold addInfoMulti
  split
  · split
    · exact { h with infoMulti := h.infoMulti.set _ _ }
    · exact { h with infoMulti := h.infoMulti.set _ _ }
  · exact { h with
      infoMulti := h.infoMulti.set _ _
      infoMultiTypes := h.infoMultiTypes.set _ _ }

theorem addParamDefault_ok {u : ULog} (h : DictsOk u) (p : Nat × InfoMsg) : DictsOk (addParamDefault u p) := by
  have := addDefaultLoop_ok p.2.key p.2.value 8 (BitVec.ofNat 8 p.1) u.defaultParams h.defaults h.default
  exact { h with
    defaults := this.1
    default := this.2 }

theorem bind_ok {α : Type} {u : ULog} (h : DictsOk u) {r : Except PyErr α} {f : α → ULog} (hf : ∀ a, DictsOk (f a)) :
    DictsOk (Out.bind r u f).state := by
  cases r
  · exact h
  · exact hf _

theorem handleData_dicts {cfg : Cfg} {u : ULog} {ty : Nat} {d : Bytes} {o : Out} (hu : DictsOk u)
    (h : handleData cfg u ty d = some o) : DictsOk o.state := by
  by_cases hI : ty = tyI
  · subst hI
    rw [show tyI = MSG_TYPE_INFO from rfl, handleData_I] at h
    cases h
    exact bind_ok hu fun m => { hu with
      info := hu.info.set _ _
      infoTypes := hu.infoTypes.set _ _ }
  by_cases hM : ty = tyM
  · subst hM
    rw [show tyM = MSG_TYPE_INFO_MULTIPLE from rfl, handleData_M] at h
    cases h
    exact bind_ok hu fun m => addInfoMulti_ok hu m
  by_cases hQ : ty = tyQ
  · subst hQ
    rw [show tyQ = MSG_TYPE_PARAMETER_DEFAULT from rfl, handleData_Q] at h
    cases h
    exact bind_ok hu fun m => addParamDefault_ok hu m
  by_cases hC : ty = tyC
  · subst hC
    rw [show tyC = MSG_TYPE_LOGGING_TAGGED from rfl, handleData_C] at h
    cases h
    exact bind_ok hu fun m => { hu with tagged := hu.tagged.set _ _ }
  exact hu.of_eq (handleData_frame dictsOf h (hI := fun e => absurd e hI) (hM := fun e => absurd e hM)
    (hQ := fun e => absurd e hQ) (hC := fun e => absurd e hC))

theorem handleDef_dicts {cfg : Cfg} {u : ULog} {ty : Nat} {d : Bytes} {o : Out} (hu : DictsOk u)
    (h : handleDef cfg u ty d = some o) : DictsOk o.state := by
  by_cases hI : ty = tyI
  · subst hI
    rw [show tyI = MSG_TYPE_INFO from rfl, handleDef_I] at h
    cases h
    exact bind_ok hu fun m => { hu with
      info := hu.info.set _ _
      infoTypes := hu.infoTypes.set _ _ }
  by_cases hM : ty = tyM
  · subst hM
    rw [show tyM = MSG_TYPE_INFO_MULTIPLE from rfl, handleDef_M] at h
    cases h
    exact bind_ok hu fun m => addInfoMulti_ok hu m
  by_cases hQ : ty = tyQ
  · subst hQ
    rw [show tyQ = MSG_TYPE_PARAMETER_DEFAULT from rfl, handleDef_Q] at h
    cases h
    exact bind_ok hu fun m => addParamDefault_ok hu m
  by_cases hF : ty = tyF
  · subst hF
    rw [show tyF = MSG_TYPE_FORMAT from rfl, handleDef_F] at h
    cases h
    exact bind_ok hu fun m => { hu with formats := hu.formats.set _ _ }
  by_cases hP : ty = tyP
  · subst hP
    rw [show tyP = MSG_TYPE_PARAMETER from rfl, handleDef_P] at h
    cases h
    exact bind_ok hu fun m => { hu with initial := hu.initial.set _ _ }
  exact hu.of_eq (handleDef_frame dictsOf h (hI := fun e => absurd e hI) (hM := fun e => absurd e hM)
    (hQ := fun e => absurd e hQ) (hF := fun e => absurd e hF) (hP := fun e => absurd e hP))

theorem load_dicts {fuel : Nat} {cfg : Cfg} {bs : Bytes} {u : ULog} (h : load fuel cfg bs = .ok u) : DictsOk u := by
  refine load_inv_all (P := fun _ v => DictsOk v) (fun t v c hh hp => hp.of_eq rfl) (fun t v d hp => hp.of_eq rfl)
    (fun t v ty d o hp hd => handleDef_dicts hp hd) (fun t v ty d o hp hd => handleData_dicts hp hd) ?_ h
  intro v hv
  unfold readHeader at hv
  dsimp only at hv
  split at hv
  · cases hv
  · split at hv
    · cases hv
    · injection hv with hv
      subst hv
      exact ⟨List.nodup_nil, List.nodup_nil, List.nodup_nil, List.nodup_nil, List.nodup_nil, List.nodup_nil,
        fun p hp => (List.not_mem_nil hp).elim, List.nodup_nil, List.nodup_nil⟩

end PyULog
