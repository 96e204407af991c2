import Verif.Lemmas.Datasets
/-
Simulation between a load without and a load with a name filter.
-/
namespace PyULog
open Spec

/-- the part of the object that does not depend on the filter -/
def core (u : ULog) : ULog :=
  { u with subs := [], filteredIds := [], missingIds := [], fileCorrupt := false, lastTs := 0,
           changedParams := [], dropouts := [], dataList := [] }

/-- `v` is the object of the load with filter `F` when `u` is the one without -/
structure FSim (F : NameFilter) (u v : ULog) : Prop where
  core : core v = core u
  subs : v.subs = u.subs.filter (fun p => F.accepts p.2.name)
  filtered : ∀ p ∈ u.subs, F.accepts p.2.name = false → p.1 ∈ v.filteredIds
  noFilter : u.filteredIds = []
  corrupt : v.fileCorrupt = true → u.fileCorrupt = true
  missing : ∀ id ∈ v.missingIds, id ∈ u.missingIds
  lastTs : v.lastTs ≤ u.lastTs
  params : v.changedParams.map (·.2) = u.changedParams.map (·.2)
  dropouts : v.dropouts.map (·.duration) = u.dropouts.map (·.duration)
  dataList : v.dataList = u.dataList.filter (fun d => F.accepts d.name)
  subsOk : SubsOk u
  tsIn : ∀ p ∈ u.subs, tsPos p.2.fields + 8 ≤ rowSize p.2.fields

/-- the two loads process a message with the same outcome -/
inductive OutSim (F : NameFilter) : Option Out → Option Out → Prop where
  | none : OutSim F none none
  | ok {u v} : FSim F u v → OutSim F (some (.ok u)) (some (.ok v))
  | err {e u v} : FSim F u v → OutSim F (some (.err e u)) (some (.err e v))

theorem OutSim.bind {F : NameFilter} {r : Except PyErr α} {u v : ULog} {f g : α → ULog}
    (h : FSim F u v) (hf : ∀ a, r = .ok a → FSim F (f a) (g a)) :
    OutSim F (some (Out.bind r u f)) (some (Out.bind r v g)) := by
  cases r with
  | error e => exact .err h
  | ok a => exact .ok (hf a rfl)

theorem filter_set_pos {κ α : Type} [DecidableEq κ] (d : Dict κ α) (k : κ) (a : α) (p : κ × α → Bool)
    (hk : p (k, a) = true) (hold : ∀ b, d.get? k = some b → p (k, b) = true) :
    (d.set k a).filter p = (Dict.set (d.filter p) k a) := by
  induction d with
  | nil => simp [Dict.set, hk]
  | cons q d ih =>
    obtain ⟨k', b⟩ := q
    by_cases h : k' = k
    · subst h
      have hb : p (k', b) = true := hold b (by simp [Dict.get?])
      simp [Dict.set, hk, hb]
    · have ih' := ih (fun b' hb' => hold b' (by simp [Dict.get?, h]; exact hb'))
      simp only [Dict.set, h, if_false, List.filter_cons, ih']
      split
      · simp [Dict.set, h]
      · rfl

theorem filter_set_neg {κ α : Type} [DecidableEq κ] (d : Dict κ α) (k : κ) (a : α) (p : κ × α → Bool)
    (hk : p (k, a) = false) (hold : ∀ b, d.get? k = some b → p (k, b) = false) :
    (d.set k a).filter p = d.filter p := by
  induction d with
  | nil => simp [Dict.set, hk]
  | cons q d ih =>
    obtain ⟨k', b⟩ := q
    by_cases h : k' = k
    · subst h
      have hb : p (k', b) = false := hold b (by simp [Dict.get?])
      simp [Dict.set, hk, hb]
    · have ih' := ih (fun b' hb' => hold b' (by simp [Dict.get?, h]; exact hb'))
      simp only [Dict.set, h, if_false, List.filter_cons, ih']

theorem get?_filter {κ α : Type} [DecidableEq κ] (d : Dict κ α) (hd : (Dict.keys d).Nodup) (k : κ)
    (p : κ × α → Bool) :
    Dict.get? (d.filter p) k = (Dict.get? d k).filter (fun a => p (k, a)) := by
  induction d with
  | nil => rfl
  | cons q d ih =>
    obtain ⟨k', b⟩ := q
    have hd' : (Dict.keys d).Nodup := (List.nodup_cons.mp hd).2
    have hn : k' ∉ Dict.keys d := (List.nodup_cons.mp hd).1
    rw [List.filter_cons]
    by_cases h : k' = k
    · subst h
      split
      · rename_i hp
        simp [Dict.get?, Option.filter, hp]
      · rename_i hp
        rw [ih hd']
        have : Dict.get? d k' = none := (Dict.get?_eq_none_iff _ _).mpr hn
        rw [this]
        simp [Dict.get?, Option.filter, hp]
    · split
      · simp only [Dict.get?, h, if_false]; exact ih hd'
      · simp only [Dict.get?, h, if_false]; exact ih hd'

section
variable {F : NameFilter} {u v : ULog}

theorem FSim.formats (h : FSim F u v) : v.formats = u.formats := by
  have e := congrArg ULog.formats h.core
  exact e
theorem FSim.infoMulti (h : FSim F u v) : v.infoMulti = u.infoMulti := by
  have e := congrArg ULog.infoMulti h.core
  exact e
theorem FSim.infoMultiTypes (h : FSim F u v) : v.infoMultiTypes = u.infoMultiTypes := by
  have e := congrArg ULog.infoMultiTypes h.core
  exact e
theorem FSim.hasSync (h : FSim F u v) : v.hasSync = u.hasSync := by
  have e := congrArg ULog.hasSync h.core
  exact e

theorem FSim.addInfo (h : FSim F u v) (m : InfoMsg) : FSim F (addInfo u m) (addInfo v m) :=
  { h with
    core := by
      show PyULog.addInfo (PyULog.core v) m = PyULog.addInfo (PyULog.core u) m
      rw [h.core] }

theorem FSim.setInfoMulti (h : FSim F u v) (a b) :
    FSim F { u with infoMulti := a, infoMultiTypes := b }
      { v with infoMulti := a, infoMultiTypes := b } :=
  { h with
    core := by
      show { PyULog.core v with infoMulti := a, infoMultiTypes := b }
        = { PyULog.core u with infoMulti := a, infoMultiTypes := b }
      rw [h.core] }

theorem addInfoMulti_eq (m : InfoMsg) :
    ∃ f : Dict Str (List (List Value)) → Dict Str (List (List Value)),
    ∃ g : Dict Str (List (List Value)) → Dict Str Str → Dict Str Str,
      ∀ u, addInfoMulti u m
        = { u with infoMulti := f u.infoMulti, infoMultiTypes := g u.infoMulti u.infoMultiTypes } := by
  refine ⟨fun im => match im.get? m.key with
    | some lists => if m.cont ≠ 0 then
        im.set m.key (lists.dropLast ++ [(lists.getLast?.getD []) ++ [m.value]])
        else im.set m.key (lists ++ [[m.value]])
    | none => im.set m.key [[m.value]],
    fun im it => match im.get? m.key with
    | some _ => it
    | none => it.set m.key m.type, ?_⟩
  intro u
  unfold addInfoMulti
  cases hg : u.infoMulti.get? m.key with
  | none => simp only [hg]
  | some l =>
    simp only [hg]
    split <;> rfl

theorem FSim.addInfoMulti (h : FSim F u v) (m : InfoMsg) :
    FSim F (addInfoMulti u m) (addInfoMulti v m) := by
  obtain ⟨f, g, hfg⟩ := addInfoMulti_eq m
  rw [hfg u, hfg v, h.infoMulti, h.infoMultiTypes]
  exact h.setInfoMulti _ _

theorem fsim_addData (h : FSim F u v) (d : Bytes) :
    OutSim F (some (addData u d)) (some (addData v d)) := by
  have hv : SubsOk v := by
    refine ⟨?_, ?_⟩
    · rw [h.subs]
      exact (List.filter_sublist.map _).nodup h.subsOk.1
    · intro id s hs
      rw [h.subs, get?_filter _ h.subsOk.1] at hs
      obtain ⟨hs, _⟩ := Option.filter_eq_some_iff.mp hs
      exact h.subsOk.2 id s hs
  have hget : ∀ id, v.subs.get? id = (u.subs.get? id).filter (fun s => F.accepts s.name) := by
    intro id; rw [h.subs, get?_filter _ h.subsOk.1]
  rcases addData_cases u d h.subsOk with ⟨h2, hu'⟩ | ⟨h2, hn, ⟨hf, hu'⟩ | ⟨hf, hu'⟩⟩ |
      ⟨h2, s, hs, hc⟩
  · rcases addData_cases v d hv with ⟨_, hv'⟩ | ⟨h2', _⟩ | ⟨h2', _⟩
    · rw [hu', hv']; exact .err h
    · omega
    · omega
  · rw [h.noFilter] at hf; cases hf
  · -- unknown id
    have hvn : v.subs.get? (leAt d 0 2) = none := by rw [hget, hn]; rfl
    rcases addData_cases v d hv with ⟨h2', _⟩ | ⟨_, _, ⟨_, hv'⟩ | ⟨_, hv'⟩⟩ | ⟨_, s', hs', _⟩
    · omega
    · rw [hu', hv']
      exact .ok { h with
        corrupt := fun _ => rfl
        missing := fun id hid => (mem_setAdd _ _ _).mpr (Or.inl (h.missing id hid)) }
    · rw [hu', hv']
      exact .ok { h with
        corrupt := fun _ => rfl
        missing := fun id hid => by
          rcases (mem_setAdd _ _ _).mp hid with hid | hid
          · exact (mem_setAdd _ _ _).mpr (Or.inl (h.missing id hid))
          · exact (mem_setAdd _ _ _).mpr (Or.inr hid) }
    · rw [hvn] at hs'; cases hs'
  · have hmem : (leAt d 0 2, s) ∈ u.subs := Dict.mem_of_get? _ _ _ hs
    by_cases ha : F.accepts s.name = true
    · -- accepted subscription
      have hvs : v.subs.get? (leAt d 0 2) = some s := by
        rw [hget, hs]; simp [Option.filter, ha]
      have hset : ∀ s' : Sub, s'.name = s.name →
          v.subs.set (leAt d 0 2) s'
            = (u.subs.set (leAt d 0 2) s').filter (fun p => F.accepts p.2.name) := by
        intro s' hn'
        rw [filter_set_pos _ _ _ _ (by simp [hn', ha]) (by
          intro b hb; rw [hs] at hb; cases hb; exact ha), ← h.subs]
      have hmem' : ∀ (s' : Sub) p, s'.name = s.name → s'.fields = s.fields →
          p ∈ u.subs.set (leAt d 0 2) s' →
          ∃ q ∈ u.subs, q.1 = p.1 ∧ q.2.name = p.2.name ∧ q.2.fields = p.2.fields := by
        intro s' p hn' hf' hp
        have hnd : (Dict.keys (u.subs.set (leAt d 0 2) s')).Nodup :=
          Dict.keys_nodup_set _ _ _ h.subsOk.1
        have hg := Dict.get?_of_mem _ p.1 p.2 hnd hp
        rw [Dict.get?_set] at hg
        split at hg
        · rename_i he
          cases hg
          exact ⟨(leAt d 0 2, s), hmem, he, hn'.symm, hf'.symm⟩
        · exact ⟨p, Dict.mem_of_get? _ _ _ hg, rfl, rfl, rfl⟩
      rcases addData_cases v d hv with ⟨h2', _⟩ | ⟨_, hvn, _⟩ | ⟨_, s2, hs2, hc2⟩
      · omega
      · rw [hvn] at hvs; cases hvs
      · rw [hvs] at hs2; cases hs2
        rcases hc with ⟨hl, hu'⟩ | ⟨hl, ⟨ht, hu'⟩ | ⟨ht, hu'⟩⟩
        · rcases hc2 with ⟨_, hv'⟩ | ⟨hl2, _⟩
          · rw [hu', hv']
            exact .ok { h with corrupt := fun _ => rfl }
          · exact absurd hl2 hl
        · rcases hc2 with ⟨hl2, _⟩ | ⟨_, ⟨_, hv'⟩ | ⟨ht2, _⟩⟩
          · exact absurd hl hl2
          · rw [hu', hv']
            refine .ok { h with
              subs := hset _ rfl
              filtered := ?_
              lastTs := by have := h.lastTs; simp only; omega
              subsOk := ?_
              tsIn := ?_ }
            · intro p hp hna
              obtain ⟨q, hq, e1, e2, _⟩ := hmem' { s with buffer := s.buffer ++ d.drop 2 } p rfl rfl hp
              rw [← e1]
              exact h.filtered q hq (by rw [e2]; exact hna)
            · have := handleData_subsOk (cfg := {}) (ty := tyD) (d := d) h.subsOk
                (by rw [show tyD = MSG_TYPE_DATA from rfl, handleData_D])
              rw [hu'] at this
              exact this
            · intro p hp
              obtain ⟨q, hq, _, _, e3⟩ := hmem' { s with buffer := s.buffer ++ d.drop 2 } p rfl rfl hp
              rw [← e3]
              exact h.tsIn q hq
          · omega
        · have := h.tsIn _ hmem
          simp only at this
          omega
    · -- rejected subscription
      have ha' : F.accepts s.name = false := by simpa using ha
      have hvn : v.subs.get? (leAt d 0 2) = none := by
        rw [hget, hs]; simp [Option.filter, ha]
      have hfid := h.filtered _ hmem ha'
      rcases addData_cases v d hv with ⟨h2', _⟩ | ⟨_, _, ⟨_, hv'⟩ | ⟨hnf, _⟩⟩ | ⟨_, s', hs', _⟩
      · omega
      · rcases hc with ⟨hl, hu'⟩ | ⟨hl, ⟨ht, hu'⟩ | ⟨ht, hu'⟩⟩
        · rw [hu', hv']
          exact .ok { h with corrupt := fun _ => rfl }
        · rw [hu', hv']
          have hmem' : ∀ (s' : Sub) p, s'.name = s.name → s'.fields = s.fields →
              p ∈ u.subs.set (leAt d 0 2) s' →
              ∃ q ∈ u.subs, q.1 = p.1 ∧ q.2.name = p.2.name ∧ q.2.fields = p.2.fields := by
            intro s' p hn' hf' hp
            have hnd : (Dict.keys (u.subs.set (leAt d 0 2) s')).Nodup :=
              Dict.keys_nodup_set _ _ _ h.subsOk.1
            have hg := Dict.get?_of_mem _ p.1 p.2 hnd hp
            rw [Dict.get?_set] at hg
            split at hg
            · rename_i he
              cases hg
              exact ⟨(leAt d 0 2, s), hmem, he, hn'.symm, hf'.symm⟩
            · exact ⟨p, Dict.mem_of_get? _ _ _ hg, rfl, rfl, rfl⟩
          refine .ok { h with
            subs := ?_
            filtered := ?_
            lastTs := by have := h.lastTs; simp only; omega
            subsOk := ?_
            tsIn := ?_ }
          · rw [filter_set_neg _ _ _ _ (by simpa using ha') (by
              intro b hb; rw [hs] at hb; cases hb; exact ha')]
            exact h.subs
          · intro p hp hna
            obtain ⟨q, hq, e1, e2, _⟩ := hmem' { s with buffer := s.buffer ++ d.drop 2 } p rfl rfl hp
            rw [← e1]
            exact h.filtered q hq (by rw [e2]; exact hna)
          · have := handleData_subsOk (cfg := {}) (ty := tyD) (d := d) h.subsOk
              (by rw [show tyD = MSG_TYPE_DATA from rfl, handleData_D])
            rw [hu'] at this
            exact this
          · intro p hp
            obtain ⟨q, hq, _, _, e3⟩ := hmem' { s with buffer := s.buffer ++ d.drop 2 } p rfl rfl hp
            rw [← e3]
            exact h.tsIn q hq
        · have := h.tsIn _ hmem
          simp only at this
          omega
      · exact absurd hfid hnf
      · rw [hvn] at hs'; cases hs'

end

theorem fsim_handle (cfg : Cfg) {F : NameFilter} {u v : ULog} (h : FSim F u v) (ty : Nat) (d : Bytes)
    (hok : FilterOk cfg F (u, ty, d)) :
    OutSim F (handleData { cfg with filter := .all } u ty d)
      (handleData { cfg with filter := F } v ty d) := by
  by_cases hk : knownData ty = true
  · rcases known_cases hk with hk | hk | hk | hk | hk | hk | hk | hk | hk | hk <;> subst hk
    · rw [handleData_I, handleData_I]
      exact OutSim.bind h fun m _ => h.addInfo m
    · rw [handleData_M, handleData_M]
      exact OutSim.bind h fun m _ => h.addInfoMulti m
    · rw [handleData_P, handleData_P]
      exact OutSim.bind h fun m _ => { h with params := by simp [h.params] }
    · rw [handleData_Q, handleData_Q]
      refine OutSim.bind h fun m _ => { h with core := ?_ }
      show addParamDefault (core v) m = addParamDefault (core u) m
      rw [h.core]
    · rw [handleData_A, handleData_A, h.formats]
      refine OutSim.bind h fun s hs => ?_
      have hspec := subscribed_spec { cfg with filter := .all } u d
      simp only [hs] at hspec
      obtain ⟨tp, htp, hst⟩ : ∃ tp, subscribed { cfg with filter := .all } (u, tyA, d) = some tp ∧
          s = mkSub tp [] := hspec
      obtain ⟨ht, hre⟩ := hok tp htp
      simp only at hre
      have hname : s.name = tp.name := by rw [hst]; rfl
      have hid : s.msgId = tp.msgId := by rw [hst]; rfl
      have hfld : s.fields = tp.fields := by rw [hst]; rfl
      have hsok : SubsOk { u with subs := u.subs.set s.msgId s } := by
        have := handleData_subsOk (cfg := { cfg with filter := .all }) (ty := tyA) (d := d) h.subsOk
          (by rw [show tyA = MSG_TYPE_ADD_LOGGED_MSG from rfl, handleData_A])
        simp only [hs, Out.bind, Out.state] at this
        exact this
      have hmem : ∀ p ∈ u.subs.set s.msgId s, p ∈ u.subs ∨ p = (s.msgId, s) := by
        intro p hp
        have hg := Dict.get?_of_mem _ p.1 p.2 hsok.1 hp
        simp only [Dict.get?_set] at hg
        split at hg
        · rename_i he
          cases hg
          right; rw [he]
        · exact Or.inl (Dict.mem_of_get? _ _ _ hg)
      have hts : ∀ p ∈ u.subs.set s.msgId s, tsPos p.2.fields + 8 ≤ rowSize p.2.fields := by
        intro p hp
        rcases hmem p hp with hp | hp
        · exact h.tsIn p hp
        · rw [hp]; simp only; rw [hfld]; exact ht
      show FSim F { u with subs := u.subs.set s.msgId s } (addSub F v s)
      unfold addSub
      by_cases ha : F.accepts s.name = true
      · rw [if_pos ha]
        refine { h with subs := ?_, filtered := ?_, subsOk := hsok, tsIn := hts }
        · rw [filter_set_pos _ _ _ _ ha (by
            intro b hb
            rw [hid] at hb
            simp only
            rw [hre b hb, ← hname]; exact ha), ← h.subs]
        · intro p hp hna
          rcases hmem p hp with hp | hp
          · exact h.filtered p hp hna
          · rw [hp] at hna; simp only at hna; rw [ha] at hna; cases hna
      · rw [if_neg ha]
        have ha' : F.accepts s.name = false := by simpa using ha
        refine { h with subs := ?_, filtered := ?_, subsOk := hsok, tsIn := hts }
        · rw [filter_set_neg _ _ _ _ ha' (by
            intro b hb
            rw [hid] at hb
            simp only
            rw [hre b hb, ← hname]; exact ha')]
          exact h.subs
        · intro p hp hna
          rcases hmem p hp with hp | hp
          · exact (mem_setAdd _ _ _).mpr (Or.inl (h.filtered p hp hna))
          · rw [hp]; exact (mem_setAdd _ _ _).mpr (Or.inr rfl)
    · rw [handleData_L, handleData_L]
      refine OutSim.bind h fun m _ => { h with core := ?_ }
      show { core v with logged := (core v).logged ++ [m] } = { core u with logged := (core u).logged ++ [m] }
      rw [h.core]
    · rw [handleData_C, handleData_C]
      refine OutSim.bind h fun m _ => { h with core := ?_ }
      show addTagged (core v) m = addTagged (core u) m
      rw [h.core]
    · rw [handleData_D, handleData_D]
      exact fsim_addData h d
    · rw [handleData_O, handleData_O]
      cases hu : parseDropout d u.lastTs with
      | error e =>
        have : parseDropout d v.lastTs = .error e := by
          unfold parseDropout at hu ⊢
          cases hp : unpackU 2 d with
          | error e' => rw [hp] at hu; cases hu; rfl
          | ok n => rw [hp] at hu; cases hu
        rw [this]; exact .err h
      | ok x =>
        have : ∃ y, parseDropout d v.lastTs = .ok y ∧ y.duration = x.duration := by
          unfold parseDropout at hu ⊢
          cases hp : unpackU 2 d with
          | error e' => rw [hp] at hu; cases hu
          | ok n => rw [hp] at hu; cases hu; exact ⟨_, rfl, rfl⟩
        obtain ⟨y, hy, hd⟩ := this
        rw [hy]
        exact .ok { h with dropouts := by simp [h.dropouts, hd] }
    · rw [handleData_S, handleData_S]
      refine .ok { h with core := ?_ }
      show { core v with syncCnt := (core v).syncCnt + 1 } = { core u with syncCnt := (core u).syncCnt + 1 }
      rw [h.core]
  · have hk' : knownData ty = false := by simpa using hk
    rw [handleData_none _ _ _ _ hk', handleData_none _ _ _ _ hk']
    exact .none

/-! ### loops and files -/

theorem fsim_corrupt {F : NameFilter} {u v : ULog} (h : FSim F u v) (hs : Bool) (c : Bool) :
    FSim F { u with hasSync := hs, fileCorrupt := u.fileCorrupt || c }
      { v with hasSync := hs, fileCorrupt := v.fileCorrupt || c } :=
  { h with
    core := by
      show { core v with hasSync := hs } = { core u with hasSync := hs }
      rw [h.core]
    corrupt := by
      have := h.corrupt
      simp only [Bool.or_eq_true]
      rintro (h | h)
      · exact Or.inl (this h)
      · exact Or.inr h }

theorem fsim_corrupt' {F : NameFilter} {u v : ULog} (h : FSim F u v) :
    FSim F { u with fileCorrupt := true } { v with fileCorrupt := true } :=
  { h with corrupt := fun _ => rfl }

theorem fsim_loop (cfg : Cfg) (F : NameFilter) (bs : Bytes) (ru n : Nat) (pos cur : Nat) (u v : ULog)
    (h : FSim F u v)
    (hok : ∀ x ∈ dataTrace { cfg with filter := .all } bs ru n ⟨pos, cur, u⟩, FilterOk cfg F x) :
    (∃ s t, dataLoop { cfg with filter := .all } bs ru n ⟨pos, cur, u⟩ = .done s ∧
        dataLoop { cfg with filter := F } bs ru n ⟨pos, cur, v⟩ = .done t ∧ FSim F s.u t.u) ∨
    (∃ e, dataLoop { cfg with filter := .all } bs ru n ⟨pos, cur, u⟩ = .raised e ∧
        dataLoop { cfg with filter := F } bs ru n ⟨pos, cur, v⟩ = .raised e) ∨
    (dataLoop { cfg with filter := .all } bs ru n ⟨pos, cur, u⟩ = .outOfFuel ∧
        dataLoop { cfg with filter := F } bs ru n ⟨pos, cur, v⟩ = .outOfFuel) := by
  induction n generalizing pos cur u v with
  | zero => exact Or.inr (Or.inr ⟨rfl, rfl⟩)
  | succ n ih =>
    simp only [dataLoop]
    simp only [dataTrace] at hok
    have hmsg : ∀ x ∈ msgAt bs ru ⟨pos, cur, u⟩, FilterOk cfg F x :=
      fun x hx => hok x (List.mem_append_left _ hx)
    unfold dataStep at hok ⊢
    simp only at hok ⊢
    by_cases hh : (readAt bs pos 3).length = 3
    · obtain ⟨h3, hsz, hty⟩ := readAt_facts hh
      simp only [hh, not_true_eq_false, if_false, ne_eq, hsz, hty] at hok ⊢
      by_cases hd : (readAt bs (pos + 3) (leAt bs pos 2)).length < leAt bs pos 2
      · simp only [hd, if_true]
        exact Or.inl ⟨_, _, rfl, rfl, h⟩
      · simp only [hd, if_false] at hok ⊢
        by_cases hr : cur + 3 + (readAt bs (pos + 3) (leAt bs pos 2)).length > ru
        · simp only [hr, if_true]
          exact Or.inl ⟨_, _, rfl, rfl, h⟩
        · simp only [hr, if_false] at hok ⊢
          have hlen : (readAt bs (pos + 3) (leAt bs pos 2)).length = leAt bs pos 2 := by
            have : (readAt bs (pos + 3) (leAt bs pos 2)).length ≤ leAt bs pos 2 := by
              simp [readAt]; omega
            omega
          have hfo : FilterOk cfg F
              (u, byteAt bs (pos + 2), readAt bs (pos + 3) (leAt bs pos 2)) := by
            by_cases hdt : isDataType (byteAt bs (pos + 2))
            · apply hmsg
              unfold msgAt
              simp only
              rw [if_pos]
              · exact List.mem_singleton.mpr rfl
              · refine ⟨h3, ?_, by omega, hdt⟩
                simp [readAt] at hlen; omega
            · intro tp htp
              exfalso
              have hne : byteAt bs (pos + 2) ≠ tyA := by
                intro he; apply hdt; rw [he]; decide
              rw [subscribed_other hne] at htp
              cases htp
          have hrest : ∀ x, x ∈ (match (match handleData { cfg with filter := .all } u
                  (byteAt bs (pos + 2)) (readAt bs (pos + 3) (leAt bs pos 2)) with
                | some (.ok u') => Step.cont ⟨pos + 3 + (readAt bs (pos + 3) (leAt bs pos 2)).length,
                    cur + 3 + (readAt bs (pos + 3) (leAt bs pos 2)).length, u'⟩
                | some (.err .indexError u') =>
                  Step.cont ⟨pos + 3 + (readAt bs (pos + 3) (leAt bs pos 2)).length,
                    cur + 3 + (readAt bs (pos + 3) (leAt bs pos 2)).length,
                    { u' with fileCorrupt := true }⟩
                | some (.err .structError u') =>
                  Step.stop ⟨pos + 3 + (readAt bs (pos + 3) (leAt bs pos 2)).length,
                    cur + 3 + (readAt bs (pos + 3) (leAt bs pos 2)).length, u'⟩
                | some (.err e _) => Step.raise e
                | none => Step.cont (handleUnknown bs (byteAt bs (pos + 2)) (leAt bs pos 2)
                    ⟨pos + 3 + (readAt bs (pos + 3) (leAt bs pos 2)).length,
                      cur + 3 + (readAt bs (pos + 3) (leAt bs pos 2)).length, u⟩)) with
              | .cont s' => dataTrace { cfg with filter := .all } bs ru n s'
              | _ => []) → FilterOk cfg F x :=
            fun x hx => hok x (List.mem_append_right _ hx)
          clear hok
          have hsim := fsim_handle cfg h (byteAt bs (pos + 2))
            (readAt bs (pos + 3) (leAt bs pos 2)) hfo
          generalize handleData { cfg with filter := .all } u (byteAt bs (pos + 2))
            (readAt bs (pos + 3) (leAt bs pos 2)) = o1 at hsim hrest ⊢
          generalize handleData { cfg with filter := F } v (byteAt bs (pos + 2))
            (readAt bs (pos + 3) (leAt bs pos 2)) = o2 at hsim ⊢
          cases hsim with
          | none =>
            simp only at hrest ⊢
            rw [handleUnknown_eq, handleUnknown_eq] at *
            simp only [h.hasSync] at hrest ⊢
            exact ih _ _ _ _ (fsim_corrupt h _ _) hrest
          | ok h' => exact ih _ _ _ _ h' hrest
          | @err e u' v' h' =>
            cases e
            case indexError => exact ih _ _ _ _ (fsim_corrupt' h') hrest
            case structError => exact Or.inl ⟨_, _, rfl, rfl, h'⟩
            all_goals exact Or.inr (Or.inl ⟨_, rfl, rfl⟩)
    · simp only [ne_eq, hh, not_false_eq_true, if_true]
      exact Or.inl ⟨_, _, rfl, rfl, h⟩

theorem mapM_filter {α β : Type} {f : α → Except PyErr β} {p : α → Bool} {q : β → Bool}
    {l : List α} {r : List β} (h : l.mapM f = .ok r) (hq : ∀ a b, f a = .ok b → q b = p a) :
    (l.filter p).mapM f = .ok (r.filter q) := by
  induction l generalizing r with
  | nil => rw [List.mapM_nil] at h; cases h; rfl
  | cons a l ih =>
    rw [List.mapM_cons] at h
    obtain ⟨b, hb, h⟩ := except_bind_ok.mp h
    obtain ⟨bs, hbs, h⟩ := except_bind_ok.mp h
    cases h
    rw [List.filter_cons, List.filter_cons, hq a b hb]
    split
    · rw [List.mapM_cons, hb, ok_bind, ih hbs, ok_bind]; rfl
    · exact ih hbs

theorem fsim_finalize {F : NameFilter} {u v u' : ULog} (h : FSim F u v)
    (hu : finalize u = .ok u') : ∃ v', finalize v = .ok v' ∧ FSim F u' v' := by
  obtain ⟨new, hnew, rfl⟩ := finalize_ok hu
  have hv := mapM_filter (p := fun p => F.accepts p.2.name) (q := fun d => F.accepts d.name) hnew
    (by
      intro a b hb
      unfold mkData at hb
      split at hb <;> cases hb
      rfl)
  have hl : (u.subs.reverse.filter (fun p => p.2.buffer.length > 0)).filter
        (fun p => F.accepts p.2.name)
      = v.subs.reverse.filter (fun p => p.2.buffer.length > 0) := by
    rw [h.subs, List.filter_filter, ← List.filter_reverse, List.filter_filter]
    simp only [Bool.and_comm]
  rw [hl] at hv
  refine ⟨{ v with subs := [], dataList := ssort dsLe (v.dataList ++
    new.filter (fun d => F.accepts d.name)) }, ?_, ?_⟩
  · unfold finalize
    rw [hv]; rfl
  · refine { h with
      core := ?_, subs := rfl, filtered := ?_, dataList := ?_, subsOk := SubsOk.empty rfl, tsIn := ?_ }
    · exact h.core
    · intro p hp; cases hp
    · simp only
      rw [filter_ssort dsLe_total, List.filter_append, h.dataList]
    · intro p hp; cases hp

theorem fsim_readData (cfg : Cfg) (F : NameFilter) (bs : Bytes) (ru pos : Nat) (u v u' : ULog)
    (h : FSim F u v)
    (hok : ∀ x ∈ sectionTrace { cfg with filter := .all } bs ru pos u, FilterOk cfg F x)
    (hu : readData { cfg with filter := .all } bs ru pos u = .ok u') :
    ∃ v', readData { cfg with filter := F } bs ru pos v = .ok v' ∧ FSim F u' v' := by
  unfold readData at hu ⊢
  rcases fsim_loop cfg F bs ru (bs.length + 1) pos pos u v h hok with
    ⟨s, t, hs, ht, hst⟩ | ⟨e, hs, ht⟩ | ⟨hs, ht⟩
  · rw [hs] at hu
    simp only at hu
    rw [ht]
    simp only
    cases hf : finalize s.u with
    | error e => rw [hf] at hu; cases hu
    | ok w =>
      rw [hf] at hu
      cases hu
      obtain ⟨v', hv', hsim⟩ := fsim_finalize hst hf
      rw [hv']
      exact ⟨v', rfl, hsim⟩
  · rw [hs] at hu; cases hu
  · rw [hs] at hu; cases hu

theorem fsim_sections (cfg : Cfg) (F : NameFilter) (bs : Bytes) (offs : List Nat) (pos : Nat)
    (u v u' : ULog) (h : FSim F u v)
    (hok : ∀ t ∈ sectionsTrace { cfg with filter := .all } bs offs pos u, ∀ x ∈ t, FilterOk cfg F x)
    (hu : readSections { cfg with filter := .all } bs offs pos u = .ok u') :
    ∃ v', readSections { cfg with filter := F } bs offs pos v = .ok v' ∧ FSim F u' v' := by
  induction offs generalizing pos u v with
  | nil =>
    exact fsim_readData cfg F bs NO_LIMIT pos u v u' h
      (hok _ (List.mem_singleton.mpr rfl)) hu
  | cons off offs ih =>
    simp only [readSections] at hu ⊢
    simp only [sectionsTrace] at hok
    cases hr : readData { cfg with filter := .all } bs off pos u with
    | raised e => rw [hr] at hu; cases hu
    | outOfFuel => rw [hr] at hu; cases hu
    | ok w =>
      rw [hr] at hu hok
      simp only at hu hok
      obtain ⟨w', hw', hsim⟩ := fsim_readData cfg F bs off pos u v w h
        (hok _ (List.mem_cons_self ..)) hr
      rw [hw']
      simp only
      split at hu
      · cases hu
      · rename_i ho
        rw [if_neg ho]
        exact ih off w w' hsim (fun t ht => hok t (List.mem_cons_of_mem _ ht)) hu

theorem defLoop_filter (cfg : Cfg) (F : NameFilter) (bs : Bytes) (fuel : Nat) (s : RS) :
    defLoop { cfg with filter := F } bs fuel s = defLoop cfg bs fuel s := by
  induction fuel generalizing s with
  | zero => rfl
  | succ fuel ih =>
    simp only [defLoop]
    have : defStep { cfg with filter := F } bs s = defStep cfg bs s := rfl
    rw [this]
    cases defStep cfg bs s with
    | cont s' => exact ih s'
    | stop s' => rfl
    | raise e => rfl

end PyULog
