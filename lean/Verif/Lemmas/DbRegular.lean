import Verif.Lemmas.DbBack
import Verif.Lemmas.Dicts
import Verif.Lemmas.Loaded
/-
Helper lemmas: how the attributes of a log read from a file hang together.
-/
namespace PyULog
open Spec

/-! ### columns -/

theorem leAt_window (b : Bytes) (off w n : Nat) (h : n ≤ w) :
    leAt ((List.range w).map fun i => b.getD (off + i) 0) 0 n = leAt b off n := by
  unfold leAt
  congr 1
  refine List.map_congr_left fun i hi => ?_
  rw [List.mem_range] at hi
  have : byteAt ((List.range w).map fun i => b.getD (off + i) 0) (0 + i) = byteAt b (off + i) := by
    unfold byteAt
    have : i < w := by omega
    simp [List.getD, this]
  rw [this]

theorem valueAt_typed (t : BT) (b : Bytes) (off : Nat) : Typed t (valueAt t b off) := by
  refine ⟨(List.range (width t)).map fun i => b.getD (off + i) 0, by simp, ?_⟩
  cases t <;> simp only [valueAt] <;> rw [leAt_window] <;> exact Nat.le_refl _

theorem loaded_typed {fuel : Nat} {cfg : Cfg} {bs : Bytes} {u : ULog} (h : load fuel cfg bs = .ok u) {d : Dataset}
    (hd : d ∈ u.dataList) : ColumnsTyped d := by
  obtain ⟨hfo, -, hnd, -⟩ := loaded_dataset h hd
  obtain ⟨t, ht, tp, post, hl, hpos, hne, he⟩ := (C06_datasets h d).mp hd
  have hf : d.fields = tp.fields := by rw [he]; rfl
  have hdat : d.data = columnsOf tp.fields (post.filterMap (sampleOf d.msgId (rowSize tp.fields))) := by
    rw (occs := .pos [1]) [he]; rfl
  intro f hf' col hc v hv
  have hm := Dict.mem_of_get? _ _ _ hc
  rw [hdat] at hm
  obtain ⟨p, hp, e⟩ := List.mem_map.mp hm
  injection e with e1 e2
  subst e2
  obtain ⟨b, _, rfl⟩ := List.mem_map.mp hv
  obtain ⟨g, k⟩ := p
  have hp1 := List.mem_zipIdx_iff_getElem?.mp hp
  rw [hf] at hf' hnd
  obtain ⟨i, hi⟩ := List.mem_iff_getElem?.mp hf'
  have hne : f.name ≠ [] := by
    rw [← e1]; exact columnName_ne _ _
  have hik := columnNames_inj hnd hi hp1 ((columnName_named i hne).trans e1.symm)
  subst hik
  have : g = f := by
    have hp1 : tp.fields[i]? = some g := hp1
    rw [hi] at hp1
    exact (Option.some.inj hp1).symm
  subst this
  show Typed _ (valueAt g.type _ _)
  exact valueAt_typed _ _ _

/-! ### dictionaries -/

/-- types belong to values, no empty entries, entries stand under their own names -/
structure Aligned (u : ULog) : Prop where
  infoTypes : u.infoTypes.keys = u.info.keys
  multiTypes : u.infoMultiTypes.keys = u.infoMulti.keys
  default : ∀ p ∈ u.defaultParams, p.2 ≠ []
  formats : ∀ p ∈ u.formats, p.2.name = p.1
  tagged : ∀ p ∈ u.tagged, p.2 ≠ [] ∧ ∀ m ∈ p.2, m.tag = p.1

theorem Aligned.of_eq {u v : ULog} (h : Aligned u) (he : dictsOf v = dictsOf u) : Aligned v := by
  unfold dictsOf at he
  injection he with h1 he
  injection he with h2 he
  injection he with h3 he
  injection he with h4 he
  injection he with h5 he
  injection he with h6 he
  injection he with h7 h8
  exact ⟨by rw [h1, h2]; exact h.infoTypes, by rw [h3, h4]; exact h.multiTypes, h6 ▸ h.default, h7 ▸ h.formats,
    h8 ▸ h.tagged⟩

theorem keys_set_eq {κ α β : Type} [DecidableEq κ] {a : Dict κ α} {b : Dict κ β} (h : a.keys = b.keys) (k : κ) (v : α)
    (w : β) : (a.set k v).keys = (b.set k w).keys := by
  rw [Dict.keys_set, Dict.keys_set, h]

theorem mem_set_entry {κ α : Type} [DecidableEq κ] {d : Dict κ α} {k : κ} {v : α} {p : κ × α} (h : p ∈ d.set k v) :
    p ∈ d ∨ p = (k, v) := by
  induction d with
  | nil =>
    unfold Dict.set at h
    rw [List.mem_singleton] at h
    exact Or.inr h
  | cons q d ih =>
    obtain ⟨a, b⟩ := q
    unfold Dict.set at h
    split at h
    · rename_i e
      rcases List.mem_cons.mp h with h | h
      · exact Or.inr (by rw [h, e])
      · exact Or.inl (List.mem_cons_of_mem _ h)
    · rcases List.mem_cons.mp h with rfl | h
      · exact Or.inl List.mem_cons_self
      · rcases ih h with h | h
        · exact Or.inl (List.mem_cons_of_mem _ h)
        · exact Or.inr h

theorem set_ne_nil {κ α : Type} [DecidableEq κ] (d : Dict κ α) (k : κ) (v : α) : d.set k v ≠ [] := by
  cases d with
  | nil => intro h; cases h
  | cons p d =>
    obtain ⟨a, b⟩ := p
    unfold Dict.set
    split <;> intro h <;> cases h

theorem dict_set_set {κ α : Type} [DecidableEq κ] (d : Dict κ α) (k : κ) (v w : α) : (d.set k v).set k w = d.set k w := by
  induction d with
  | nil => simp [Dict.set]
  | cons p d ih =>
    obtain ⟨a, b⟩ := p
    by_cases e : a = k
    · simp [Dict.set, e]
    · simp [Dict.set, e, ih]

theorem addDefaultLoop_ne {key : Str} {value : Value} : ∀ (fuel : Nat) (types : BitVec 8)
    (d : Dict Nat (Dict Str Value)), (∀ p ∈ d, p.2 ≠ []) → ∀ p ∈ addDefaultLoop key value fuel types d, p.2 ≠ []
  | 0, _, d, h => h
  | fuel + 1, types, d, h => by
    rw [addDefaultLoop]
    split
    · exact h
    · generalize (types &&& (~~~types + 1)) = low
      dsimp only
      refine addDefaultLoop_ne fuel _ _ ?_
      have : ∀ w, (if d.has (low.toNat - 1) then d else d.set (low.toNat - 1) []).set (low.toNat - 1) w =
          d.set (low.toNat - 1) w := by
        intro w
        split
        · rfl
        · exact dict_set_set _ _ _ _
      rw [this]
      intro p hp
      rcases mem_set_entry hp with hp | rfl
      · exact h p hp
      · exact set_ne_nil _ _ _

theorem bind_aligned {α : Type} {u : ULog} (h : Aligned u) {r : Except PyErr α} {f : α → ULog}
    (hf : ∀ a, Aligned (f a)) : Aligned (Out.bind r u f).state := by
  cases r
  · exact h
  · exact hf _

theorem addInfoMulti_aligned {u : ULog} (h : Aligned u) (m : InfoMsg) : Aligned (addInfoMulti u m) := by
  unfold addInfoMulti
  have hk : ∀ {lists} w, u.infoMulti.get? m.key = some lists → u.infoMultiTypes.keys = (u.infoMulti.set m.key w).keys := by
    intro lists w hg
    rw [Dict.keys_set, if_pos ((Dict.mem_keys_iff _ _).mpr (by rw [hg]; rfl))]
    exact h.multiTypes
  split
  · rename_i lists hg
    split
    · exact { h with multiTypes := hk _ hg }
    · exact { h with multiTypes := hk _ hg }
  · exact { h with multiTypes := keys_set_eq h.multiTypes _ _ _ }

theorem addTagged_aligned {u : ULog} (h : Aligned u) (m : TagMsg) : Aligned (addTagged u m) := by
  refine { h with tagged := ?_ }
  intro p hp
  rcases mem_set_entry hp with hp | rfl
  · exact h.tagged p hp
  · refine ⟨by simp, fun m' hm' => ?_⟩
    rcases List.mem_append.mp hm' with hm' | hm'
    · cases hg : u.tagged.get? m.tag with
      | none => rw [hg] at hm'; cases hm'
      | some l =>
        rw [hg] at hm'
        exact (h.tagged _ (Dict.mem_of_get? _ _ _ hg)).2 m' hm'
    · rw [List.mem_singleton.mp hm']

theorem handleData_aligned {cfg : Cfg} {u : ULog} {ty : Nat} {d : Bytes} {o : Out} (hu : Aligned u)
    (h : handleData cfg u ty d = some o) : Aligned o.state := by
  by_cases hI : ty = tyI
  · subst hI
    rw [show tyI = MSG_TYPE_INFO from rfl, handleData_I] at h
    cases h
    exact bind_aligned hu fun m => { hu with infoTypes := keys_set_eq hu.infoTypes _ _ _ }
  by_cases hM : ty = tyM
  · subst hM
    rw [show tyM = MSG_TYPE_INFO_MULTIPLE from rfl, handleData_M] at h
    cases h
    exact bind_aligned hu fun m => addInfoMulti_aligned hu m
  by_cases hQ : ty = tyQ
  · subst hQ
    rw [show tyQ = MSG_TYPE_PARAMETER_DEFAULT from rfl, handleData_Q] at h
    cases h
    exact bind_aligned hu fun m => { hu with default := addDefaultLoop_ne _ _ _ hu.default }
  by_cases hC : ty = tyC
  · subst hC
    rw [show tyC = MSG_TYPE_LOGGING_TAGGED from rfl, handleData_C] at h
    cases h
    exact bind_aligned hu fun m => addTagged_aligned hu m
  exact hu.of_eq (handleData_frame dictsOf h (hI := fun e => absurd e hI) (hM := fun e => absurd e hM)
    (hQ := fun e => absurd e hQ) (hC := fun e => absurd e hC))

theorem handleDef_aligned {cfg : Cfg} {u : ULog} {ty : Nat} {d : Bytes} {o : Out} (hu : Aligned u)
    (h : handleDef cfg u ty d = some o) : Aligned o.state := by
  by_cases hI : ty = tyI
  · subst hI
    rw [show tyI = MSG_TYPE_INFO from rfl, handleDef_I] at h
    cases h
    exact bind_aligned hu fun m => { hu with infoTypes := keys_set_eq hu.infoTypes _ _ _ }
  by_cases hM : ty = tyM
  · subst hM
    rw [show tyM = MSG_TYPE_INFO_MULTIPLE from rfl, handleDef_M] at h
    cases h
    exact bind_aligned hu fun m => addInfoMulti_aligned hu m
  by_cases hQ : ty = tyQ
  · subst hQ
    rw [show tyQ = MSG_TYPE_PARAMETER_DEFAULT from rfl, handleDef_Q] at h
    cases h
    exact bind_aligned hu fun m => { hu with default := addDefaultLoop_ne _ _ _ hu.default }
  by_cases hF : ty = tyF
  · subst hF
    rw [show tyF = MSG_TYPE_FORMAT from rfl, handleDef_F] at h
    cases h
    refine bind_aligned hu fun m => { hu with formats := ?_ }
    intro p hp
    rcases mem_set_entry hp with hp | rfl
    · exact hu.formats p hp
    · rfl
  by_cases hP : ty = tyP
  · subst hP
    rw [show tyP = MSG_TYPE_PARAMETER from rfl, handleDef_P] at h
    cases h
    exact bind_aligned hu fun m => ⟨hu.infoTypes, hu.multiTypes, hu.default, hu.formats, hu.tagged⟩
  exact hu.of_eq (handleDef_frame dictsOf h (hI := fun e => absurd e hI) (hM := fun e => absurd e hM)
    (hQ := fun e => absurd e hQ) (hF := fun e => absurd e hF) (hP := fun e => absurd e hP))

theorem load_aligned {fuel : Nat} {cfg : Cfg} {bs : Bytes} {u : ULog} (h : load fuel cfg bs = .ok u) : Aligned u := by
  refine load_inv_all (P := fun _ v => Aligned v) (fun t v c hh hp => hp.of_eq rfl) (fun t v d hp => hp.of_eq rfl)
    (fun t v ty d o hp hd => handleDef_aligned hp hd) (fun t v ty d o hp hd => handleData_aligned hp hd) ?_ h
  intro v hv
  unfold readHeader at hv
  dsimp only at hv
  split at hv
  · cases hv
  · split at hv
    · cases hv
    · injection hv with hv
      subst hv
      exact ⟨rfl, rfl, fun p hp => (List.not_mem_nil hp).elim, fun p hp => (List.not_mem_nil hp).elim,
        fun p hp => (List.not_mem_nil hp).elim⟩

theorem mapVals_keys {κ α β : Type} (f : α → β) (d : Dict κ α) : (d.mapVals f).map (·.1) = d.keys := by
  unfold Dict.mapVals Dict.keys
  rw [List.map_map]
  rfl

/-- a log read from a file, all of whose columns have names -/
theorem load_regular {fuel : Nat} {cfg : Cfg} {bs : Bytes} {u : ULog} (h : load fuel cfg bs = .ok u)
    (hnm : ∀ d ∈ u.dataList, ∀ f ∈ d.fields, f.name ≠ []) :
    Regular (DbLog.ofULog u) := by
  have hd := load_dicts h
  have ha := load_aligned h
  refine ⟨?_, ?_, ?_, ?_, ?_, ?_, ?_, hd.formats, ha.formats, hd.tagged, ha.tagged, (C07_data_list h).2,
    fun d h' => columnNames_named (hnm d h') ▸ (loaded_dataset h h').2.2.1,
    fun d h' => (loaded_dataset h h').1.trans (columnNames_named (hnm d h')), fun d h' => loaded_typed h h'⟩
  · rw [show (DbLog.ofULog u).info = u.info.mapVals some from rfl, mapVals_keys]; exact hd.info
  · rw [show (DbLog.ofULog u).info = u.info.mapVals some from rfl, mapVals_keys]; exact ha.infoTypes
  · rw [show (DbLog.ofULog u).infoMulti = u.infoMulti.mapVals _ from rfl, mapVals_keys]; exact hd.infoMulti
  · rw [show (DbLog.ofULog u).infoMulti = u.infoMulti.mapVals _ from rfl, mapVals_keys]; exact ha.multiTypes
  · rw [show (DbLog.ofULog u).initialParams = u.initialParams.mapVals some from rfl, mapVals_keys]; exact hd.initial
  · rw [show (DbLog.ofULog u).defaultParams = u.defaultParams.mapVals _ from rfl, mapVals_keys]; exact hd.defaults
  · intro p hp
    obtain ⟨q, hq, rfl⟩ := List.mem_map.mp hp
    refine ⟨?_, ?_⟩
    · intro e
      exact ha.default q hq (List.map_eq_nil_iff.mp e)
    · show ((Dict.mapVals some q.2).map (·.1)).Nodup
      rw [mapVals_keys]
      exact hd.default q hq

end PyULog
