import Verif.Lemmas.Decode
/-
Initial state of the data section, running assertion for timestamps, list facts.
-/
namespace PyULog
open Spec

theorem SubsOk.empty {u : ULog} (h : u.subs = []) : SubsOk u := by
  unfold SubsOk
  rw [h]
  exact ⟨List.nodup_nil, fun _ _ h => by cases h⟩

theorem readHeader_init {bs : Bytes} {u : ULog} (h : readHeader bs = .ok u) :
    u = { fileVersion := u.fileVersion, startTs := u.startTs, lastTs := u.startTs } := by
  unfold readHeader at h
  simp only at h
  split at h
  · cases h
  · split at h <;> cases h
    rfl

/-- what holds right after the definitions -/
theorem afterDefs_init {fuel : Nat} {cfg : Cfg} {bs : Bytes} {s : RS}
    (h : afterDefs fuel cfg bs = some s) :
    s.u.subs = [] ∧ s.u.lastTs = s.u.startTs ∧ s.u.logged = [] ∧ s.u.tagged = [] ∧
      s.u.dropouts = [] ∧ s.u.changedParams = [] ∧ s.u.dataList = [] ∧ s.u.filteredIds = [] ∧
      s.u.missingIds = [] ∧ s.u.syncCnt = 0 := by
  obtain ⟨u0, hh, hp, _⟩ := afterDefs_presD h
  have hi := readHeader_init hh
  refine ⟨by rw [hp.subs, hi], by rw [hp.lastTs, hp.startTs, hi], by rw [hp.logged, hi],
    by rw [hp.tagged, hi], by rw [hp.dropouts, hi], by rw [hp.changedParams, hi],
    by rw [hp.dataList, hi], by rw [hp.filteredIds, hi], by rw [hp.missingIds, hi],
    by rw [hp.syncCnt, hi]⟩

/-! ### effect of one message on each attribute -/

theorem handleData_lastTs {cfg : Cfg} {u : ULog} {ty : Nat} {d : Bytes} {o : Out}
    (hu : SubsOk u) (h : handleData cfg u ty d = some o) :
    o.state.lastTs = match acceptedTs (u, ty, d) with
      | some t => max u.lastTs t
      | none => u.lastTs := by
  by_cases hD : ty = tyD
  · subst hD
    rw [show tyD = MSG_TYPE_DATA from rfl, handleData_D] at h
    cases h
    unfold acceptedTs acceptedBy
    simp only [show tyD = MSG_TYPE_DATA from rfl, true_and]
    rcases addData_cases u d hu with ⟨h2, h⟩ | ⟨h2, hn, ⟨_, h⟩ | ⟨_, h⟩⟩ |
        ⟨h2, s, hs, ⟨hl, h⟩ | ⟨hl, ⟨ht, h⟩ | ⟨ht, h⟩⟩⟩ <;> rw [h]
    · rw [if_neg (by omega)]; rfl
    · rw [if_pos h2, hn]; rfl
    · rw [if_pos h2, hn]; rfl
    · rw [if_pos h2, hs]; simp only [if_neg hl]; rfl
    · rw [if_pos h2, hs]; simp only [if_pos hl, if_pos ht]; rfl
    · rw [if_pos h2, hs]; simp only [if_pos hl, if_neg (Nat.not_le.mpr ht)]; rfl
  · have hnone : acceptedTs (u, ty, d) = none := by
      unfold acceptedTs acceptedBy
      simp [hD]
    rw [hnone]
    exact handleData_frame (fun u => u.lastTs) h (hD := fun e => absurd e hD)

theorem lastSeen_snoc (start : Nat) (t : List Tr) (x : Tr) :
    lastSeen start (t ++ [x]) = match acceptedTs x with
      | some ts => max (lastSeen start t) ts
      | none => lastSeen start t := by
  unfold lastSeen
  rw [List.filterMap_append, List.foldl_append]
  cases h : acceptedTs x <;> simp [h]

/-- running assertion for timestamps -/
def TsInv (start : Nat) (t : List Tr) (u : ULog) : Prop :=
  SubsOk u ∧ u.lastTs = lastSeen start t ∧ (∀ x ∈ t, SubsOk x.1) ∧
    ∀ i (h : i < t.length), (t[i]).1.lastTs = lastSeen start (t.take i)

theorem tsInv_insens (start : Nat) : Insens (TsInv start) := by
  intro t u c h hp; exact hp

theorem tsInv_insensF (start : Nat) : InsensF (TsInv start) := by
  intro t u d hp
  exact ⟨SubsOk.empty rfl, hp.2⟩

theorem tsInv_msg (cfg : Cfg) (start : Nat) (t : List Tr) (u : ULog) (ty : Nat) (d : Bytes) (o : Out)
    (hp : TsInv start t u) (h : handleData cfg u ty d = some o) :
    TsInv start (t ++ [(u, ty, d)]) o.state := by
  obtain ⟨h1, h2, h3, h4⟩ := hp
  refine ⟨handleData_subsOk h1 h, ?_, ?_, ?_⟩
  · rw [handleData_lastTs h1 h, lastSeen_snoc, h2]
  · intro x hx
    rcases List.mem_append.mp hx with hx | hx
    · exact h3 x hx
    · simp at hx; rw [hx]; exact h1
  · intro i hi
    simp at hi
    by_cases hlt : i < t.length
    · rw [List.getElem_append_left hlt, List.take_append_of_le_length (by omega)]
      exact h4 i hlt
    · have : i = t.length := by omega
      subst this
      simp [h2]

theorem load_tsInv {fuel : Nat} {cfg : Cfg} {bs : Bytes} {u : ULog}
    (h : load fuel cfg bs = .ok u) : TsInv u.startTs (fileTrace fuel cfg bs).flatten u := by
  obtain ⟨s, hs⟩ := load_afterDefs h
  have hi := afterDefs_init hs
  have key := load_inv (P := fun t v => TsInv s.u.startTs t v ∧ v.startTs = s.u.startTs)
    (fun t v c hh hp => hp) (fun t v d hp => ⟨tsInv_insensF _ t v d hp.1, hp.2⟩)
    (fun t v ty d o hp hd => ⟨tsInv_msg cfg _ t v ty d o hp.1 hd,
      (handleData_pres _ _ _ _ _ hd).startTs.trans hp.2⟩)
    (fun s' hs' => by
      rw [hs] at hs'; cases hs'
      exact ⟨⟨SubsOk.empty hi.1, hi.2.1, by simp, by simp⟩, rfl⟩) h
  rw [key.2]; exact key.1


theorem entry_snoc (l : List α) (x : α) : entry (l ++ [x]) = some ((entry l).getD [] ++ [x]) := by
  cases l <;> rfl

theorem filterMap_snoc (f : α → Option β) (l : List α) (x : α) :
    (l ++ [x]).filterMap f = l.filterMap f ++ (f x).toList := by
  rw [List.filterMap_append]
  cases h : f x <;> simp [h]


end PyULog
