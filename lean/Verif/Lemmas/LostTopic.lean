import Verif.Spec.LostTopic
import Verif.Lemmas.Lost
import Verif.Props.Lost
/-
Lemmas for C114: two runs of the reader over messages of which one subscription is missing.
-/
namespace PyULog
open Spec

/-! ### the subscriptions -/

/-- the subscriptions with other ids -/
def otherSubs (id : Nat) (d : Dict Nat Sub) : Dict Nat Sub := d.filter fun e => decide (e.1 ≠ id)

theorem otherSubs_set (id x : Nat) (d : Dict Nat Sub) (v : Sub) :
    otherSubs id (d.set x v) = if x = id then otherSubs id d else (otherSubs id d).set x v := by
  induction d with
  | nil =>
    unfold otherSubs Dict.set
    by_cases h : x = id
    · rw [if_pos h, List.filter_cons_of_neg (by simp [h])]
    · rw [if_neg h, List.filter_cons_of_pos (by simp [h])]; rfl
  | cons e d ih =>
    obtain ⟨y, w⟩ := e
    unfold otherSubs at ih ⊢
    by_cases hy : y = x
    · subst hy
      rw [show Dict.set ((y, w) :: d) y v = (y, v) :: d by simp [Dict.set]]
      by_cases h : y = id
      · rw [if_pos h, List.filter_cons_of_neg (by simp [h]), List.filter_cons_of_neg (by simp [h])]
      · rw [if_neg h, List.filter_cons_of_pos (by simp [h]), List.filter_cons_of_pos (by simp [h])]
        simp [Dict.set]
    · rw [show Dict.set ((y, w) :: d) x v = (y, w) :: Dict.set d x v by simp [Dict.set, hy]]
      by_cases h : x = id
      · rw [if_pos h] at ih ⊢
        rw [List.filter_cons, List.filter_cons, ih]
      · rw [if_neg h] at ih ⊢
        by_cases hk : y = id
        · rw [List.filter_cons_of_neg (by simp [hk]), List.filter_cons_of_neg (by simp [hk]), ih]
        · rw [List.filter_cons_of_pos (by simp [hk]), List.filter_cons_of_pos (by simp [hk]), ih]
          simp [Dict.set, hy]

theorem otherSubs_get (id x : Nat) (d : Dict Nat Sub) :
    (otherSubs id d).get? x = if x = id then none else d.get? x := by
  induction d with
  | nil => split <;> rfl
  | cons e d ih =>
    obtain ⟨y, w⟩ := e
    unfold otherSubs at ih ⊢
    by_cases hk : y = id
    · rw [List.filter_cons_of_neg (by simp [hk]), ih]
      by_cases hx : x = id
      · rw [if_pos hx, if_pos hx]
      · rw [if_neg hx, if_neg hx]
        have : ¬ y = x := fun he => hx (he.symm.trans hk)
        simp [Dict.get?, this]
    · rw [List.filter_cons_of_pos (by simp [hk])]
      rw [Dict.get?_cons, ih, Dict.get?_cons]
      by_cases hx : x = id
      · rw [if_pos hx, if_pos hx, if_neg (fun he => hk (by rw [he, hx]))]
      · rw [if_neg hx, if_neg hx]

theorem otherSubs_none {id : Nat} {d : Dict Nat Sub} (h : d.get? id = none) : otherSubs id d = d := by
  unfold otherSubs
  rw [List.filter_eq_self]
  intro e he
  have hn := (Dict.get?_eq_none_iff d id).mp h
  have : e.1 ≠ id := fun hi => hn (hi ▸ List.mem_map.mpr ⟨e, he, rfl⟩)
  simpa using this

theorem addLogged_id {ign : Bool} {fm : Dict Str MsgFormat} {depth : Nat} {d : Bytes} {s : Sub}
    (h : parseAddLogged ign fm depth d = .ok s) : s.msgId = leAt d 1 2 := by
  unfold parseAddLogged at h
  obtain ⟨_, _, h⟩ := except_bind_ok.mp h
  obtain ⟨i, hi, h⟩ := except_bind_ok.mp h
  obtain ⟨_, _, h⟩ := except_bind_ok.mp h
  obtain ⟨⟨fs, idx⟩, _, h⟩ := except_bind_ok.mp h
  simp only at h
  obtain ⟨hl, hv⟩ := unpackU_eq_ok hi
  have h3 : 1 + 2 ≤ d.length := by
    unfold slice at hl
    rw [List.length_drop, List.length_take] at hl
    omega
  split at h
  · cases h
  · cases h
    show i = _
    rw [leAt_slice _ _ _ h3, hv]

/-! ### the simulation -/

/-- the part of the object that does not depend on the samples of the topic -/
def quietLog (u : ULog) : ULog :=
  { u with subs := [], lastTs := 0, changedParams := [], dropouts := [], missingIds := [], fileCorrupt := false }

/-- `v` is the object of the log without the subscription -/
structure LSim (id : Nat) (u v : ULog) : Prop where
  core : quietLog v = quietLog u
  params : v.changedParams.map (·.2) = u.changedParams.map (·.2)
  dropouts : v.dropouts.map (·.duration) = u.dropouts.map (·.duration)
  corrupt : u.fileCorrupt = true → v.fileCorrupt = true
  ts : v.lastTs ≤ u.lastTs
  missing : ∀ i, i ≠ id → (i ∈ v.missingIds ↔ i ∈ u.missingIds)
  subs : v.subs = otherSubs id u.subs
  wanted : id ∉ u.filteredIds
  room : ∀ s, u.subs.get? id = some s → tsPos s.fields + 8 ≤ rowSize s.fields
  reported : ∀ s, u.subs.get? id = some s → s.buffer ≠ [] → id ∈ v.missingIds ∧ v.fileCorrupt = true
  subsOk : SubsOk u

inductive LOut (id : Nat) : Option Out → Option Out → Prop where
  | none : LOut id none none
  | ok {u v} : LSim id u v → LOut id (some (.ok u)) (some (.ok v))
  | err {e u v} : LSim id u v → LOut id (some (.err e u)) (some (.err e v))

section
variable {id : Nat} {u v : ULog}

theorem LOut.bind {α : Type} {r : Except PyErr α} {f g : α → ULog} (h : LSim id u v)
    (hf : ∀ a, r = .ok a → LSim id (f a) (g a)) :
    LOut id (some (Out.bind r u f)) (some (Out.bind r v g)) := by
  cases r with
  | error e => exact .err h
  | ok a => exact .ok (hf a rfl)

theorem LSim.refl (hu : SubsOk u) (hn : u.subs.get? id = none) (hf : id ∉ u.filteredIds) : LSim id u u :=
  ⟨rfl, rfl, rfl, fun h => h, Nat.le_refl _, fun _ _ => Iff.rfl, (otherSubs_none hn).symm, hf,
    fun s hs => (by rw [hn] at hs; cases hs), fun s hs => (by rw [hn] at hs; cases hs), hu⟩

theorem LSim.subsOk' (h : LSim id u v) : SubsOk v := by
  refine ⟨?_, ?_⟩
  · rw [h.subs]
    exact h.subsOk.1.sublist (List.Sublist.map _ List.filter_sublist)
  · intro i s hs
    rw [h.subs, otherSubs_get] at hs
    split at hs
    · cases hs
    · exact h.subsOk.2 i s hs

theorem LSim.corrupted (h : LSim id u v) : LSim id { u with fileCorrupt := true } { v with fileCorrupt := true } :=
  { h with
    core := h.core
    corrupt := fun _ => rfl
    reported := fun s hs hb => ⟨(h.reported s hs hb).1, rfl⟩
    subsOk := h.subsOk }

theorem lsim_addData (h : LSim id u v) (d : Bytes) : LOut id (some (addData u d)) (some (addData v d)) := by
  have hf : v.filteredIds = u.filteredIds := (congrArg (fun x : ULog => x.filteredIds) h.core :)
  have hsub : ∀ o, addData u d = o → SubsOk o.state := fun o ho =>
    handleData_subsOk (cfg := {}) (ty := MSG_TYPE_DATA) (d := d) h.subsOk (by rw [handleData_D, ho])
  have hget : v.subs.get? (leAt d 0 2) = if leAt d 0 2 = id then none else u.subs.get? (leAt d 0 2) := by
    rw [h.subs, otherSubs_get]
  rcases addData_cases u d h.subsOk with ⟨h2, hu'⟩ | ⟨h2, hn, hc⟩ | ⟨h2, s, hs, hc⟩
  · rcases addData_cases v d h.subsOk' with ⟨_, hv'⟩ | ⟨h2', _⟩ | ⟨h2', _⟩
    · rw [hu', hv']; exact .err h
    · omega
    · omega
  · have hvn : v.subs.get? (leAt d 0 2) = none := by
      rw [hget, hn]; split <;> rfl
    rcases addData_cases v d h.subsOk' with ⟨h2', _⟩ | ⟨_, _, hc'⟩ | ⟨_, s', hs', _⟩
    · omega
    · rcases hc with ⟨hi, hu'⟩ | ⟨hi, hu'⟩
      · rcases hc' with ⟨_, hv'⟩ | ⟨hi', _⟩
        · rw [hu', hv']; exact .ok h
        · rw [hf] at hi'; exact absurd hi hi'
      · rcases hc' with ⟨hi', _⟩ | ⟨_, hv'⟩
        · rw [hf] at hi'; exact absurd hi' hi
        · rw [hu', hv']
          refine .ok { h with core := h.core, corrupt := fun _ => rfl, missing := ?_, reported := ?_, subsOk := h.subsOk }
          · intro i hi
            show i ∈ setAdd v.missingIds _ ↔ i ∈ setAdd u.missingIds _
            rw [mem_setAdd, mem_setAdd, h.missing i hi]
          · intro s hs hb
            exact ⟨(mem_setAdd _ _ _).mpr (.inl (h.reported s hs hb).1), rfl⟩
    · rw [hvn] at hs'; cases hs'
  · by_cases hid : leAt d 0 2 = id
    · -- a sample of the topic
      rw [if_pos hid] at hget
      rcases addData_cases v d h.subsOk' with ⟨h2', _⟩ | ⟨_, _, hc'⟩ | ⟨_, s', hs', _⟩
      · omega
      · rcases hc' with ⟨hi', _⟩ | ⟨_, hv'⟩
        · rw [hf, hid] at hi'; exact absurd hi' h.wanted
        · rw [hv', hid]
          have hrep : id ∈ setAdd v.missingIds id := (mem_setAdd _ _ _).mpr (.inr rfl)
          have hmis : ∀ i, i ≠ id → (i ∈ setAdd v.missingIds id ↔ i ∈ u.missingIds) := by
            intro i hi
            rw [mem_setAdd, h.missing i hi]
            exact ⟨fun h => h.resolve_right hi, .inl⟩
          rw [hid] at hs hc
          rcases hc with ⟨_, hu'⟩ | ⟨_, ⟨_, hu'⟩ | ⟨ht, _⟩⟩
          · rw [hu']
            exact .ok { h with
              core := h.core, corrupt := fun _ => rfl, missing := hmis, reported := fun _ _ _ => ⟨hrep, rfl⟩,
              subsOk := h.subsOk }
          · have hok := hsub _ hu'
            rw [hu']
            refine .ok { h with
              core := h.core, corrupt := fun _ => rfl, missing := hmis, reported := fun _ _ _ => ⟨hrep, rfl⟩,
              subsOk := hok, ts := ?_, subs := ?_, room := ?_ }
            · exact Nat.le_trans h.ts (Nat.le_max_left _ _)
            · show v.subs = otherSubs id (u.subs.set id _)
              rw [otherSubs_set, if_pos rfl, h.subs]
            · intro t htg
              have htg : (u.subs.set id { s with buffer := s.buffer ++ d.drop 2 }).get? id = some t := htg
              rw [Dict.get?_set_self] at htg
              injection htg with htg
              subst htg
              exact h.room s hs
          · have := h.room s hs
            omega
      · rw [hget] at hs'; cases hs'
    · -- a sample of another topic
      rw [if_neg hid, hs] at hget
      have hset : ∀ x : Sub, v.subs.set (leAt d 0 2) x = otherSubs id (u.subs.set (leAt d 0 2) x) := by
        intro x
        rw [otherSubs_set, if_neg hid, h.subs]
      have hroom : ∀ x t : Sub, (u.subs.set (leAt d 0 2) x).get? id = some t → u.subs.get? id = some t := by
        intro x t ht
        rw [Dict.get?_set_ne _ _ hid] at ht
        exact ht
      rcases addData_cases v d h.subsOk' with ⟨h2', _⟩ | ⟨_, hvn, _⟩ | ⟨_, s', hs', hc'⟩
      · omega
      · rw [hget] at hvn; cases hvn
      · rw [hget] at hs'
        injection hs' with hs'
        subst hs'
        rcases hc with ⟨hl, hu'⟩ | ⟨hl, ⟨ht, hu'⟩ | ⟨ht, hu'⟩⟩
        · rcases hc' with ⟨_, hv'⟩ | ⟨hl', _⟩
          · rw [hu', hv']; exact .ok h.corrupted
          · exact absurd hl' hl
        · rcases hc' with ⟨hl', _⟩ | ⟨_, ⟨_, hv'⟩ | ⟨ht', _⟩⟩
          · exact absurd hl hl'
          · have hok := hsub _ hu'
            rw [hu', hv']
            refine .ok { h with
              core := h.core, subsOk := hok, subs := hset _, ts := ?_,
              room := fun t ht => h.room t (hroom _ t ht), reported := fun t ht => h.reported t (hroom _ t ht) }
            show max v.lastTs _ ≤ max u.lastTs _
            have := h.ts
            omega
          · omega
        · rcases hc' with ⟨hl', _⟩ | ⟨_, ⟨ht', _⟩ | ⟨_, hv'⟩⟩
          · exact absurd hl hl'
          · omega
          · have hok := hsub _ hu'
            rw [hu', hv']
            exact .err { h with
              core := h.core, subsOk := hok, subs := hset _,
              room := fun t ht => h.room t (hroom _ t ht), reported := fun t ht => h.reported t (hroom _ t ht) }

theorem lsim_handle (cfg : Cfg) (h : LSim id u v) (ty : Nat) (d : Bytes) (ha : ty = tyA → leAt d 1 2 ≠ id) :
    LOut id (handleData cfg u ty d) (handleData cfg v ty d) := by
  by_cases hk : knownData ty = true
  · rcases known_cases hk with hk | hk | hk | hk | hk | hk | hk | hk | hk | hk <;> subst hk
    · rw [handleData_I, handleData_I]
      refine LOut.bind h fun m _ => { h with core := ?_, subsOk := h.subsOk }
      show addInfo (quietLog v) m = addInfo (quietLog u) m
      rw [h.core]
    · rw [handleData_M, handleData_M]
      refine LOut.bind h fun m _ => ?_
      obtain ⟨f, g, hfg⟩ := addInfoMulti_eq m
      rw [hfg u, hfg v]
      refine { h with core := ?_, subsOk := h.subsOk }
      show { quietLog v with infoMulti := f (quietLog v).infoMulti, infoMultiTypes := g (quietLog v).infoMulti (quietLog v).infoMultiTypes }
        = { quietLog u with infoMulti := f (quietLog u).infoMulti, infoMultiTypes := g (quietLog u).infoMulti (quietLog u).infoMultiTypes }
      rw [h.core]
    · rw [handleData_P, handleData_P]
      refine LOut.bind h fun m _ => { h with core := h.core, subsOk := h.subsOk, params := ?_ }
      simp [h.params]
    · rw [handleData_Q, handleData_Q]
      refine LOut.bind h fun m _ => { h with core := ?_, subsOk := h.subsOk }
      show addParamDefault (quietLog v) m = addParamDefault (quietLog u) m
      rw [h.core]
    · have hfm : v.formats = u.formats := (congrArg (fun x : ULog => x.formats) h.core :)
      have hsok : ∀ s, parseAddLogged cfg.ign u.formats cfg.depth d = .ok s → SubsOk (addSub cfg.filter u s) := by
        intro s hs
        have := handleData_subsOk (cfg := cfg) (ty := MSG_TYPE_ADD_LOGGED_MSG) (d := d) h.subsOk
          (by rw [handleData_A])
        simpa only [hs, Out.bind, Out.state] using this
      rw [handleData_A, handleData_A, hfm]
      refine LOut.bind h fun s hs => ?_
      have hsk := hsok s hs
      have hne : s.msgId ≠ id := by
        rw [addLogged_id hs]
        exact ha rfl
      unfold addSub at hsk ⊢
      split
      · rename_i hacc
        rw [if_pos hacc] at hsk
        have hroom : ∀ t : Sub, (u.subs.set s.msgId s).get? id = some t → u.subs.get? id = some t := by
          intro t ht
          rw [Dict.get?_set_ne _ _ hne] at ht
          exact ht
        refine { h with
          core := h.core, subsOk := hsk, subs := ?_, room := fun t ht => h.room t (hroom t ht),
          reported := fun t ht => h.reported t (hroom t ht) }
        show v.subs.set _ _ = otherSubs id (u.subs.set _ _)
        rw [otherSubs_set, if_neg hne, h.subs]
      · refine { h with core := ?_, subsOk := h.subsOk, wanted := ?_ }
        · show { quietLog v with filteredIds := setAdd (quietLog v).filteredIds s.msgId }
            = { quietLog u with filteredIds := setAdd (quietLog u).filteredIds s.msgId }
          rw [h.core]
        · show id ∉ setAdd u.filteredIds s.msgId
          rw [mem_setAdd]
          exact fun hh => hh.elim h.wanted fun e => hne e.symm
    · rw [handleData_L, handleData_L]
      refine LOut.bind h fun m _ => { h with core := ?_, subsOk := h.subsOk }
      show { quietLog v with logged := (quietLog v).logged ++ [m] } = { quietLog u with logged := (quietLog u).logged ++ [m] }
      rw [h.core]
    · rw [handleData_C, handleData_C]
      refine LOut.bind h fun m _ => { h with core := ?_, subsOk := h.subsOk }
      show addTagged (quietLog v) m = addTagged (quietLog u) m
      rw [h.core]
    · rw [handleData_D, handleData_D]
      exact lsim_addData h d
    · rw [handleData_O, handleData_O]
      unfold parseDropout
      cases unpackU 2 d with
      | error e => exact .err h
      | ok n =>
        refine .ok { h with core := h.core, subsOk := h.subsOk, dropouts := ?_ }
        simp [h.dropouts]
    · rw [handleData_S, handleData_S]
      refine .ok { h with core := ?_, subsOk := h.subsOk }
      show { quietLog v with syncCnt := (quietLog v).syncCnt + 1 } = { quietLog u with syncCnt := (quietLog u).syncCnt + 1 }
      rw [h.core]
  · have hk' : knownData ty = false := by simpa using hk
    rw [handleData_none _ _ _ _ hk', handleData_none _ _ _ _ hk']
    exact .none

end

inductive LRun (id : Nat) : Run → Run → Prop where
  | done {u v} : LSim id u v → LRun id (.done u) (.done v)
  | stopped {u v} : LSim id u v → LRun id (.stopped u) (.stopped v)
  | raised {e} : LRun id (.raised e) (.raised e)

theorem lsim_run {id : Nat} (cfg : Cfg) (l : List (Nat × Bytes)) {u v : ULog} (h : LSim id u v)
    (ha : ∀ m ∈ l, m.1 = tyA → leAt m.2 1 2 ≠ id) : LRun id (runData cfg l u) (runData cfg l v) := by
  induction l generalizing u v with
  | nil => exact .done h
  | cons m l ih =>
    have hs := lsim_handle cfg h m.1 m.2 (ha m (.head _))
    have ha' : ∀ m ∈ l, m.1 = tyA → leAt m.2 1 2 ≠ id := fun x hx => ha x (.tail _ hx)
    unfold runData
    generalize handleData cfg u m.1 m.2 = a at hs
    generalize handleData cfg v m.1 m.2 = b at hs
    cases hs with
    | none => exact ih h ha'
    | ok h' => exact ih h' ha'
    | @err e u' v' h' =>
      cases e
      case indexError => exact ih h'.corrupted ha'
      case structError => exact .stopped h'
      all_goals exact .raised

/-- without a subscription with this id, the id stays unknown -/
theorem unsubscribed_handle {cfg : Cfg} {id : Nat} {u : ULog} {ty : Nat} {d : Bytes} {o : Out} (hu : SubsOk u)
    (hn : u.subs.get? id = none) (hf : id ∉ u.filteredIds) (ha : ty = tyA → leAt d 1 2 ≠ id)
    (h : handleData cfg u ty d = some o) : o.state.subs.get? id = none ∧ id ∉ o.state.filteredIds := by
  have hs := lsim_handle cfg (LSim.refl (u := u) hu hn hf) ty d ha
  rw [h] at hs
  have key : LSim id o.state o.state := by
    cases hs with
    | ok h' => exact h'
    | err h' => exact h'
  refine ⟨?_, key.wanted⟩
  rw [key.subs, otherSubs_get, if_pos rfl]

theorem lsim_lost {cfg : Cfg} {id : Nat} (pre post : List (Nat × Bytes)) {p : Bytes} {u : ULog} (hu : SubsOk u)
    (hn : u.subs.get? id = none) (hf : id ∉ u.filteredIds) (hid : leAt p 1 2 = id)
    (ha : ∀ m ∈ pre ++ post, m.1 = tyA → leAt m.2 1 2 ≠ id)
    (hs : ∀ w, runData cfg pre u = .done w → ∃ s, parseAddLogged cfg.ign w.formats cfg.depth p = .ok s ∧
      cfg.filter.accepts s.name = true ∧ tsPos s.fields + 8 ≤ rowSize s.fields) :
    LRun id (runData cfg (pre ++ (tyA, p) :: post) u) (runData cfg (pre ++ post) u) := by
  induction pre generalizing u with
  | nil =>
    obtain ⟨s, h1, h2, h3⟩ := hs u rfl
    have e1 : handleData cfg u (tyA, p).1 (tyA, p).2 = some (.ok (addSub cfg.filter u s)) := by
      show handleData cfg u MSG_TYPE_ADD_LOGGED_MSG p = _
      rw [handleData_A, h1]
      rfl
    have hok : SubsOk (addSub cfg.filter u s) := handleData_subsOk hu e1
    show LRun id (runData cfg ((tyA, p) :: post) u) (runData cfg post u)
    rw [show runData cfg ((tyA, p) :: post) u = runData cfg post (addSub cfg.filter u s) by
      rw [runData]
      simp only [e1]]
    refine lsim_run cfg post ?_ ha
    have hsid : s.msgId = id := (addLogged_id h1).trans hid
    unfold addSub at hok ⊢
    rw [if_pos h2] at hok ⊢
    refine { LSim.refl (u := u) hu hn hf with core := rfl, subsOk := hok, subs := ?_, room := ?_, reported := ?_ }
    · show u.subs = otherSubs id (u.subs.set s.msgId s)
      rw [otherSubs_set, if_pos hsid, otherSubs_none hn]
    · intro t ht
      have ht : (u.subs.set s.msgId s).get? id = some t := ht
      rw [hsid, Dict.get?_set_self] at ht
      injection ht with ht
      subst ht
      exact h3
    · intro t ht hb
      have ht : (u.subs.set s.msgId s).get? id = some t := ht
      rw [hsid, Dict.get?_set_self] at ht
      injection ht with ht
      subst ht
      exact absurd (parseAddLogged_subOk h1).2 hb
  | cons m pre ih =>
    rw [List.cons_append, List.cons_append]
    have ha' : ∀ m ∈ pre ++ post, m.1 = tyA → leAt m.2 1 2 ≠ id := fun x hx => ha x (.tail _ hx)
    unfold runData
    unfold runData at hs
    cases hr : handleData cfg u m.1 m.2 with
    | none =>
      rw [hr] at hs
      exact ih hu hn hf ha' hs
    | some o =>
      have hok := handleData_subsOk hu hr
      obtain ⟨hn', hf'⟩ := unsubscribed_handle hu hn hf (ha m (.head _)) hr
      rw [hr] at hs
      cases o with
      | ok w => exact ih hok hn' hf' ha' hs
      | err e w =>
        cases e
        case indexError => exact ih (u := { w with fileCorrupt := true }) hok hn' hf' ha' hs
        case structError => exact .stopped (LSim.refl (u := w) hok hn' hf')
        all_goals exact .raised

/-! ### the datasets -/

theorem mkData_id {s : Sub} {d : Dataset} (h : mkData s = .ok d) : d.msgId = s.msgId := by
  unfold mkData at h
  split at h <;> cases h
  rfl

theorem lsim_finalize {id : Nat} {u v : ULog} (h : LSim id u v) (hd : u.dataList = []) :
    ∃ w w', finalize u = .ok w ∧ finalize v = .ok w' ∧ LostTopic id w w' := by
  have hdv : v.dataList = [] := by
    rw [← hd]
    exact (congrArg (fun x : ULog => x.dataList) h.core :)
  obtain ⟨w, hw⟩ := finalize_total u h.subsOk
  obtain ⟨new, hnew, rfl⟩ := finalize_ok hw
  have hkey : ∀ e ∈ u.subs, e.2.msgId = e.1 := fun e he =>
    (h.subsOk.2 _ _ (Dict.get?_of_mem u.subs e.1 e.2 h.subsOk.1 he)).msgId
  have hv := mapM_filter (p := fun e : Nat × Sub => decide (e.2.msgId ≠ id)) (q := fun d => decide (d.msgId ≠ id)) hnew
    (by
      intro a b hb
      rw [mkData_id hb])
  have hl : (u.subs.reverse.filter (fun p => p.2.buffer.length > 0)).filter (fun e => decide (e.2.msgId ≠ id))
      = v.subs.reverse.filter (fun p => p.2.buffer.length > 0) := by
    rw [h.subs, otherSubs, List.filter_filter, ← List.filter_reverse, List.filter_filter]
    apply List.filter_congr
    intro e he
    rw [hkey e (List.mem_reverse.mp he), Bool.and_comm]
  rw [hl] at hv
  refine ⟨_, { v with subs := [], dataList := ssort dsLe (v.dataList ++ new.filter (fun d => decide (d.msgId ≠ id))) },
    hw, ?_, ?_⟩
  · unfold finalize
    rw [hv]; rfl
  · refine ⟨?_, h.params, h.dropouts, ?_, h.corrupt, h.missing, ?_, h.ts⟩
    · show { quietLog v with dataList := [] } = { quietLog u with dataList := [] }
      rw [h.core]
    · show ssort dsLe (v.dataList ++ _) = (ssort dsLe (u.dataList ++ new)).filter _
      rw [filter_ssort dsLe_total, hd, hdv, List.nil_append, List.nil_append]
    · intro d hdm hid
      have hdm : d ∈ ssort dsLe (u.dataList ++ new) := hdm
      rw [hd, List.nil_append] at hdm
      have hdn : d ∈ new := (ssort_perm dsLe new).mem_iff.mp hdm
      obtain ⟨e, he, hmk⟩ := mapM_mem hnew hdn
      obtain ⟨he, hb⟩ := List.mem_filter.mp he
      have he := List.mem_reverse.mp he
      have hei : e.1 = id := by rw [← hkey e he, ← mkData_id hmk, hid]
      have hg := Dict.get?_of_mem u.subs e.1 e.2 h.subsOk.1 he
      rw [hei] at hg
      refine h.reported e.2 hg ?_
      intro hnil
      rw [hnil] at hb
      simp at hb

end PyULog
