import Verif.Props.LoadError
import Verif.Spec.Notices
namespace PyULog
open Spec

/-! ### messages of the data section -/

theorem handleData_index {cfg : Cfg} {u v : ULog} {ty : Nat} {d : Bytes}
    (h : handleData cfg u ty d = some (.err .indexError v)) : v = u := by
  have bnd : ∀ {α : Type} {r : Except PyErr α} {f : α → ULog},
      some (Out.bind r u f) = some (.err .indexError v) → v = u := by
    intro α r f h
    cases r with
    | ok a => cases h
    | error e => cases h; rfl
  by_cases hk : knownData ty = true
  · rcases known_cases hk with hk | hk | hk | hk | hk | hk | hk | hk | hk | hk <;> subst hk
    · rw [handleData_I] at h; exact bnd h
    · rw [handleData_M] at h; exact bnd h
    · rw [handleData_P] at h; exact bnd h
    · rw [handleData_Q] at h; exact bnd h
    · rw [handleData_A] at h; exact bnd h
    · rw [handleData_L] at h; exact bnd h
    · rw [handleData_C] at h; exact bnd h
    · have ho := C91_message h
      generalize hT : MSG_TYPE_DATA = T at ho
      cases ho <;> cases hT
    · rw [handleData_O] at h; exact bnd h
    · rw [handleData_S] at h; cases h
  · rw [handleData_none _ _ _ _ (by simpa using hk)] at h
    cases h

theorem index_iff {cfg : Cfg} {u : ULog} {ty : Nat} {d : Bytes} :
    DataObstacle cfg u d ty .indexError ↔ handleData cfg u ty d = some (.err .indexError u) := by
  constructor
  · intro h
    obtain ⟨e', v', h1, h2⟩ := C91_message_exact h
    rcases h2 with rfl | ⟨h2, _⟩
    · rw [handleData_index h1] at h1
      exact h1
    · simp at h2
  · exact C91_message

theorem corruptNotice_data {cfg : Cfg} {u : ULog} {ty : Nat} {d : Bytes} :
    (DataObstacle cfg u d ty .indexError ∧ u.fileCorrupt = false →
      corruptNotice .badData (handleData cfg u ty d) = [.badData]) ∧
    (¬ (DataObstacle cfg u d ty .indexError ∧ u.fileCorrupt = false) →
      corruptNotice .badData (handleData cfg u ty d) = []) := by
  constructor
  · rintro ⟨h1, h2⟩
    rw [index_iff.mp h1]
    show (if u.fileCorrupt then [] else [Notice.badData]) = _
    rw [h2]; rfl
  · intro h
    unfold corruptNotice
    split
    · rename_i v hv
      have := handleData_index hv
      subst this
      split
      · rfl
      · rename_i hc
        exact absurd ⟨index_iff.mpr hv, by simpa using hc⟩ h
    · rfl

theorem noSubscription_iff {u : ULog} {d : Bytes} {id : Nat} :
    NoSubscription (u, tyD, d) id ↔ 2 ≤ d.length ∧ leAt d 0 2 = id ∧ u.subs.get? id = none ∧ id ∉ u.filteredIds :=
  ⟨fun h => h.2, fun h => ⟨rfl, h⟩⟩

open Classical in
theorem sampleNotices_eq (u : ULog) (d : Bytes) :
    sampleNotices u d = if NoSubscription (u, tyD, d) (leAt d 0 2) ∧ leAt d 0 2 ∉ u.missingIds then [.noSub (leAt d 0 2)] else [] := by
  unfold sampleNotices
  by_cases h2 : 2 ≤ d.length
  · have : unpackU 2 (d.take 2) = .ok (leAt d 0 2) := by
      rw [unpackU_ok (by simp; omega), leAt_eq _ _ _ (by omega)]
      simp
    rw [this]
    simp only
    cases hg : u.subs.get? (leAt d 0 2) with
    | some s =>
      rw [if_pos (by simp [Dict.has, hg]), if_neg]
      rintro ⟨⟨_, _, _, h, _⟩, _⟩
      simp [hg] at h
    | none =>
      rw [if_neg (by simp [Dict.has, hg])]
      by_cases hf : leAt d 0 2 ∈ u.filteredIds
      · rw [if_pos hf, if_neg]
        rintro ⟨⟨_, _, _, _, h⟩, _⟩
        exact h hf
      · rw [if_neg hf]
        by_cases hm : leAt d 0 2 ∈ u.missingIds
        · rw [if_pos hm, if_neg (fun h => h.2 hm)]
        · rw [if_neg hm, if_pos ⟨⟨rfl, h2, rfl, hg, hf⟩, hm⟩]
  · have : unpackU 2 (d.take 2) = .error .structError := by
      unfold unpackU
      rw [if_neg (by simp; omega)]
    rw [this, if_neg]
    rintro ⟨⟨_, h, _⟩, _⟩
    exact h2 h

theorem said_eq (cfg : Cfg) (u : ULog) (ty : Nat) (d : Bytes) :
    (if ty = MSG_TYPE_DATA then sampleNotices u d else []) ++ corruptNotice .badData (handleData cfg u ty d) =
      said cfg (u, ty, d) := by
  unfold said
  by_cases ht : ty = tyD
  · subst ht
    have hno : ¬ DataObstacle cfg u d tyD .indexError := by
      intro ho
      generalize hT : tyD = T at ho
      cases ho <;> cases hT
    rw [corruptNotice_data.2 (fun h => hno h.1), List.append_nil, show MSG_TYPE_DATA = tyD from rfl, if_pos rfl, sampleNotices_eq]
    split
    · rfl
    · rw [if_neg (fun h => hno h.1)]
  · rw [show MSG_TYPE_DATA = tyD from rfl, if_neg ht, if_neg (fun h => ht h.1.1), List.nil_append]
    split
    · rename_i h; exact corruptNotice_data.1 h
    · rename_i h; exact corruptNotice_data.2 h

/-- what an iteration does with a message -/
inductive Goes (st : Step) : Out → Prop
  | ok {u' : ULog} {s' : RS} : st = .cont s' → s'.u = u' → Goes st (.ok u')
  | index {u' : ULog} {s' : RS} : st = .cont s' → s'.u = { u' with fileCorrupt := true } → Goes st (.err .indexError u')
  | struct {u' : ULog} {s' : RS} : st = .stop s' → s'.u = u' → Goes st (.err .structError u')
  | raises {e : PyErr} {u' : ULog} : st = .raise e → Goes st (.err e u')

theorem dataStep_goes (cfg : Cfg) (bs : Bytes) (ru : Nat) (s : RS) :
    (msgAt bs ru s = [] ∧ dataNotices cfg bs ru s = [] ∧
      ∀ s', dataStep cfg bs ru s = .cont s' ∨ dataStep cfg bs ru s = .stop s' →
        s'.u.missingIds = s.u.missingIds ∧ (s.u.fileCorrupt = true → s'.u.fileCorrupt = true)) ∨
    ∃ ty d o, msgAt bs ru s = [(s.u, ty, d)] ∧ handleData cfg s.u ty d = some o ∧
      dataNotices cfg bs ru s = said cfg (s.u, ty, d) ∧ Goes (dataStep cfg bs ru s) o := by
  unfold dataStep dataNotices
  simp only
  by_cases hh : (readAt bs s.pos 3).length = 3
  · obtain ⟨h3, hsz, hty⟩ := readAt_facts hh
    simp only [hh, ne_eq, not_true_eq_false, if_false, hsz, hty]
    by_cases hd : (readAt bs (s.pos + 3) (leAt bs s.pos 2)).length < leAt bs s.pos 2
    · left
      simp only [if_pos hd]
      refine ⟨?_, trivial, ?_⟩
      · unfold msgAt
        rw [if_neg]
        rintro ⟨_, h2, _⟩
        simp [readAt] at hd; omega
      · rintro s' (h | h) <;> cases h
        exact ⟨rfl, id⟩
    · simp only [if_neg hd]
      have hlen : (readAt bs (s.pos + 3) (leAt bs s.pos 2)).length = leAt bs s.pos 2 := by
        have : (readAt bs (s.pos + 3) (leAt bs s.pos 2)).length ≤ leAt bs s.pos 2 := by
          simp [readAt]; omega
        omega
      have hfit : s.pos + 3 + leAt bs s.pos 2 ≤ bs.length := by
        simp [readAt] at hlen; omega
      simp only [hlen]
      by_cases hr : s.cur + 3 + leAt bs s.pos 2 > ru
      · left
        simp only [if_pos hr]
        refine ⟨?_, trivial, ?_⟩
        · unfold msgAt
          rw [if_neg]
          rintro ⟨_, _, h2, _⟩
          omega
        · rintro s' (h | h) <;> cases h
          exact ⟨rfl, id⟩
      · simp only [if_neg hr]
        by_cases hk : knownData (byteAt bs (s.pos + 2)) = true
        · right
          obtain ⟨o, ho⟩ := handleData_some cfg s.u _ (readAt bs (s.pos + 3) (leAt bs s.pos 2)) hk
          refine ⟨_, _, o, ?_, ho, said_eq _ _ _ _, ?_⟩
          · unfold msgAt
            rw [if_pos ⟨h3, hfit, by omega, (isDataType_iff _).mpr hk⟩]; rfl
          · rw [ho]
            cases o with
            | ok u' => exact .ok rfl rfl
            | err e' u' =>
              cases e'
              case indexError => exact .index rfl rfl
              case structError => exact .struct rfl rfl
              all_goals exact .raises rfl
        · left
          have hk' : knownData (byteAt bs (s.pos + 2)) = false := by simpa using hk
          rw [handleData_none _ _ _ _ hk']
          refine ⟨?_, ?_, ?_⟩
          · unfold msgAt
            rw [if_neg]
            rintro ⟨_, _, _, h2⟩
            exact hk ((isDataType_iff _).mp h2)
          · rw [if_neg]
            · rfl
            · intro h
              rw [h] at hk'
              cases hk'
          · rintro s' (h | h)
            · have h := Step.cont.inj h
              rw [← h, handleUnknown_eq]
              exact ⟨rfl, fun h => by simp [h]⟩
            · cases h
  · left
    simp only [ne_eq, hh, not_false_eq_true, if_true]
    refine ⟨?_, trivial, ?_⟩
    · unfold msgAt
      rw [if_neg]
      rintro ⟨h2, _⟩
      apply hh
      simp [readAt]; omega
    · rintro s' (h | h) <;> cases h
      exact ⟨rfl, id⟩

theorem dataNotices_eq (cfg : Cfg) (bs : Bytes) (ru : Nat) (s : RS) :
    dataNotices cfg bs ru s = (msgAt bs ru s).flatMap (said cfg) := by
  rcases dataStep_goes cfg bs ru s with ⟨h1, h2, _⟩ | ⟨ty, d, o, h1, _, h2, _⟩
  · rw [h1, h2]; rfl
  · rw [h1, h2]; simp

theorem dataLoopNotices_eq (cfg : Cfg) (bs : Bytes) (ru n : Nat) (s : RS) :
    dataLoopNotices cfg bs ru n s = (dataTrace cfg bs ru n s).flatMap (said cfg) := by
  induction n generalizing s with
  | zero => rfl
  | succ n ih =>
    simp only [dataLoopNotices, dataTrace, List.flatMap_append, dataNotices_eq]
    congr 1
    cases dataStep cfg bs ru s with
    | cont s' => exact ih s'
    | stop s' => rfl
    | raise e => rfl

theorem sectionsNotices_eq (cfg : Cfg) (bs : Bytes) (offs : List Nat) (pos : Nat) (u : ULog)
    (ho : ∀ off ∈ offs, off < 2 ^ 63) :
    sectionsNotices cfg bs offs pos u = (sectionsTrace cfg bs offs pos u).flatten.flatMap (said cfg) := by
  induction offs generalizing pos u with
  | nil => simp [sectionsNotices, sectionsTrace, sectionTrace, dataLoopNotices_eq]
  | cons off offs ih =>
    simp only [sectionsNotices, sectionsTrace, List.flatten_cons, List.flatMap_append, sectionTrace, dataLoopNotices_eq]
    congr 1
    have h1 := ho off (by simp)
    cases readData cfg bs off pos u with
    | ok u' => 
      simp only
      rw [if_neg (by omega)]
      exact ih _ _ (fun o h => ho o (by simp [h]))
    | raised e => rfl
    | outOfFuel => rfl

theorem readSections_offs {cfg : Cfg} {bs : Bytes} {offs : List Nat} {pos : Nat} {u u' : ULog}
    (h : readSections cfg bs offs pos u = .ok u') : ∀ off ∈ offs, off < 2 ^ 63 := by
  induction offs generalizing pos u with
  | nil => intro off h; cases h
  | cons off offs ih =>
    simp only [readSections] at h
    split at h
    · split at h
      · cases h
      · intro o ho
        rcases List.mem_cons.mp ho with rfl | ho
        · omega
        · exact ih h o ho
    · rename_i hne; exact absurd h (hne _)

/-! ### messages of the definition section -/

theorem handleDef_index {cfg : Cfg} {u v : ULog} {ty : Nat} {d : Bytes}
    (h : handleDef cfg u ty d = some (.err .indexError v)) : v = u := by
  have bnd : ∀ {α : Type} {r : Except PyErr α} {f : α → ULog},
      some (Out.bind r u f) = some (.err .indexError v) → v = u := by
    intro α r f h
    cases r with
    | ok a => cases h
    | error e => cases h; rfl
  by_cases hk : knownDef ty = true
  · rcases knownDef_cases hk with hk | hk | hk | hk | hk | hk <;> subst hk
    · rw [handleDef_I] at h; exact bnd h
    · rw [handleDef_M] at h; exact bnd h
    · rw [handleDef_F] at h; exact bnd h
    · rw [handleDef_P] at h; exact bnd h
    · rw [handleDef_Q] at h; exact bnd h
    · have ho := (C91_definition cfg u _ d .indexError).mp ⟨_, h⟩
      generalize hT : MSG_TYPE_FLAG_BITS = T at ho
      cases ho <;> cases hT
  · rw [handleDef_none _ _ _ _ (by simpa using hk)] at h
    cases h

theorem corruptNotice_def (cfg : Cfg) (u : ULog) (ty : Nat) (d : Bytes) :
    corruptNotice .badDefs (handleDef cfg u ty d) = saidDef cfg (u, ty, d) := by
  unfold saidDef
  split
  · rename_i h
    obtain ⟨h1, h2⟩ := h
    obtain ⟨v, hv⟩ := (C91_definition cfg u ty d .indexError).mpr h1
    have := handleDef_index hv
    subst this
    rw [hv]
    show (if v.fileCorrupt then [] else [Notice.badDefs]) = _
    rw [show v.fileCorrupt = false from h2]; rfl
  · rename_i h
    unfold corruptNotice
    split
    · rename_i v hv
      have := handleDef_index hv
      subst this
      split
      · rfl
      · rename_i hc
        exact absurd ⟨(C91_definition cfg v ty d .indexError).mp ⟨_, hv⟩, by simpa using hc⟩ h
    · rfl

theorem defNotices_eq (cfg : Cfg) (bs : Bytes) (s : RS) :
    defNotices cfg bs s = saidFlags bs s.pos ++ (defAt bs s).flatMap (saidDef cfg) := by
  unfold defNotices
  simp only
  by_cases hh : (readAt bs s.pos 3).length = 3
  · obtain ⟨h3, hsz, hty⟩ := readAt_facts hh
    rw [if_neg (by simpa using hh)]
    simp only [hsz, hty]
    congr 1
    · unfold saidFlags
      have hl : s.pos + 3 + (readAt bs (s.pos + 3) (leAt bs s.pos 2)).length = min (s.pos + 3 + leAt bs s.pos 2) bs.length := by
        simp [readAt]; omega
      by_cases hb : byteAt bs (s.pos + 2) = tyB
      · rw [show MSG_TYPE_FLAG_BITS = tyB from rfl, if_pos hb, if_pos ⟨h3, hb⟩, hl]
        rfl
      · rw [show MSG_TYPE_FLAG_BITS = tyB from rfl, if_neg hb, if_neg (fun h => hb h.2)]
    · by_cases hk : knownDef (byteAt bs (s.pos + 2)) = true
      · have hm : defAt bs s = [(s.u, byteAt bs (s.pos + 2), readAt bs (s.pos + 3) (leAt bs s.pos 2))] := by
          unfold defAt
          rw [if_pos ⟨h3, (knownDef_mem _).mpr hk⟩]; rfl
        rw [hm, corruptNotice_def]
        simp
      · have hm : defAt bs s = [] := by
          unfold defAt
          rw [if_neg]
          rintro ⟨_, h2⟩
          exact hk ((knownDef_mem _).mp h2)
        rw [hm, handleDef_none _ _ _ _ (by simpa using hk)]
        rfl
  · rw [if_pos (by simpa using hh)]
    have hlt : ¬ s.pos + 3 ≤ bs.length := by
      intro h
      apply hh
      simp [readAt]; omega
    rw [saidFlags, if_neg (fun h => hlt h.1), defAt, if_neg (fun h => hlt h.1)]
    rfl

theorem defLoopNotices_eq (cfg : Cfg) (bs : Bytes) (n : Nat) (s : RS) :
    defLoopNotices cfg bs n s =
      (defStates cfg bs n s).flatMap fun s => saidFlags bs s.pos ++ (defAt bs s).flatMap (saidDef cfg) := by
  induction n generalizing s with
  | zero => rfl
  | succ n ih =>
    simp only [defLoopNotices, defStates, List.flatMap_cons, defNotices_eq]
    congr 1
    cases defStep cfg bs s with
    | cont s' => exact ih s'
    | stop s' => rfl
    | raise e => rfl

/-! ### the object after a report -/

/-- what a data section message does to the missing subscriptions and to the corruption flag -/
theorem handleData_missing {cfg : Cfg} {u : ULog} {ty : Nat} {d : Bytes} {o : Out}
    (h : handleData cfg u ty d = some o) :
    (NoSubscription (u, ty, d) (leAt d 0 2) ∧ ∃ v, o = .ok v ∧ v.missingIds = setAdd u.missingIds (leAt d 0 2) ∧
      v.fileCorrupt = true) ∨
    ((∀ id, ¬ NoSubscription (u, ty, d) id) ∧ o.state.missingIds = u.missingIds) := by
  have other : ty ≠ tyD → ∀ id, ¬ NoSubscription (u, ty, d) id := fun h id h1 => h h1.1
  have bnd : ∀ {α : Type} {r : Except PyErr α} {f : α → ULog}, some (Out.bind r u f) = some o →
      (∀ a, (f a).missingIds = u.missingIds) → o.state.missingIds = u.missingIds := by
    intro α r f h hf
    cases r with
    | ok a => cases h; exact hf a
    | error e => cases h; rfl
  by_cases hk : knownData ty = true
  · rcases known_cases hk with hk | hk | hk | hk | hk | hk | hk | hk | hk | hk <;> subst hk
    · rw [handleData_I] at h; exact Or.inr ⟨other (by decide), bnd h (fun a => rfl)⟩
    · rw [handleData_M] at h
      refine Or.inr ⟨other (by decide), bnd h (fun a => ?_)⟩
      unfold addInfoMulti
      split
      · split <;> rfl
      · rfl
    · rw [handleData_P] at h; exact Or.inr ⟨other (by decide), bnd h (fun a => rfl)⟩
    · rw [handleData_Q] at h; exact Or.inr ⟨other (by decide), bnd h (fun a => rfl)⟩
    · rw [handleData_A] at h
      refine Or.inr ⟨other (by decide), bnd h (fun a => ?_)⟩
      unfold addSub
      split <;> rfl
    · rw [handleData_L] at h; exact Or.inr ⟨other (by decide), bnd h (fun a => rfl)⟩
    · rw [handleData_C] at h; exact Or.inr ⟨other (by decide), bnd h (fun a => rfl)⟩
    · rw [handleData_D] at h
      cases h
      unfold addData
      by_cases h2 : 2 ≤ d.length
      · have : unpackU 2 (d.take 2) = .ok (leAt d 0 2) := by
          rw [unpackU_ok (by simp; omega), leAt_eq _ _ _ (by omega)]
          simp
        rw [this]
        simp only
        cases hg : u.subs.get? (leAt d 0 2) with
        | some s =>
          right
          constructor
          · rintro id ⟨_, _, rfl, h, _⟩
            simp [hg] at h
          · simp only
            split
            · rfl
            · generalize unpackU 8 _ = r
              cases r with
              | error e => rfl
              | ok ts =>
                simp only [Out.state]
                split <;> rfl
        | none =>
          simp only
          by_cases hf : leAt d 0 2 ∈ u.filteredIds
          · rw [if_pos hf]
            right
            refine ⟨?_, rfl⟩
            rintro id ⟨_, _, rfl, _, h⟩
            exact h hf
          · rw [if_neg hf]
            exact Or.inl ⟨⟨rfl, h2, rfl, hg, hf⟩, _, rfl, rfl, rfl⟩
      · have : unpackU 2 (d.take 2) = .error .structError := by
          unfold unpackU
          rw [if_neg (by simp; omega)]
        rw [this]
        right
        refine ⟨?_, rfl⟩
        rintro id ⟨_, h, _⟩
        exact h2 h
    · rw [handleData_O] at h; exact Or.inr ⟨other (by decide), bnd h (fun a => rfl)⟩
    · rw [handleData_S] at h; cases h; exact Or.inr ⟨other (by decide), rfl⟩
  · rw [handleData_none _ _ _ _ (by simpa using hk)] at h
    cases h

/-- the corruption flag as a number -/
def flagOf (u : ULog) : Nat := if u.fileCorrupt then 1 else 0

theorem flagOf_le (u : ULog) : flagOf u ≤ 1 := by unfold flagOf; split <;> omega

theorem flagOf_true {u : ULog} (h : u.fileCorrupt = true) : flagOf u = 1 := by simp [flagOf, h]

theorem flagOf_false {u : ULog} (h : u.fileCorrupt = false) : flagOf u = 0 := by simp [flagOf, h]

theorem flagOf_mono {u v : ULog} (h : u.fileCorrupt = true → v.fileCorrupt = true) : flagOf u ≤ flagOf v := by
  by_cases hu : u.fileCorrupt = true
  · rw [flagOf_true hu, flagOf_true (h hu)]; omega
  · rw [flagOf_false (by simpa using hu)]; omega

/-- reports `ns` on the way from `u` to `v` -/
structure Reported (ns : List Notice) (u v : ULog) : Prop where
  bad : ns.countP badLine + flagOf u ≤ flagOf v
  loud : (∃ n ∈ ns, hintLine n = false) → v.fileCorrupt = true
  missing : v.missingIds = u.missingIds ++ ns.filterMap subjectOf

theorem Reported.refl (u : ULog) : Reported [] u u := ⟨by simp, by simp, by simp⟩

theorem Reported.trans {a b : List Notice} {u v w : ULog} (h1 : Reported a u v) (h2 : Reported b v w) :
    Reported (a ++ b) u w where
  bad := by
    have := h1.bad
    have := h2.bad
    rw [List.countP_append]
    omega
  loud := by
    rintro ⟨n, hn, hh⟩
    rcases List.mem_append.mp hn with hn | hn
    · have hv := h1.loud ⟨n, hn, hh⟩
      have hb := h2.bad
      rw [flagOf_true hv] at hb
      by_cases hw : w.fileCorrupt = true
      · exact hw
      · rw [flagOf_false (by simpa using hw)] at hb
        omega
    · exact h2.loud ⟨n, hn, hh⟩
  missing := by rw [h2.missing, h1.missing, List.filterMap_append, List.append_assoc]

theorem Reported.same {u v : ULog} (hm : v.missingIds = u.missingIds)
    (hc : u.fileCorrupt = true → v.fileCorrupt = true) : Reported [] u v :=
  ⟨by simpa using flagOf_mono hc, by simp, by simp [hm]⟩

theorem dataStep_reported {cfg : Cfg} {bs : Bytes} {ru : Nat} {s s' : RS}
    (h : dataStep cfg bs ru s = .cont s' ∨ dataStep cfg bs ru s = .stop s') :
    Reported (dataNotices cfg bs ru s) s.u s'.u := by
  rcases dataStep_goes cfg bs ru s with ⟨_, h2, h3⟩ | ⟨ty, d, o, _, ho, h2, hg⟩
  · rw [h2]
    exact .same (h3 s' h).1 (h3 s' h).2
  · rw [h2]
    have hp := handleData_pres _ _ _ _ _ ho
    unfold said
    rcases handleData_missing ho with ⟨hu, v, rfl, hm, hc⟩ | ⟨hu, hm⟩
    · have hs' : s'.u = v := by
        cases hg with
        | ok h1 h2 => rcases h with h | h <;> rw [h1] at h <;> cases h; exact h2
      rw [hs']
      by_cases hin : leAt d 0 2 ∈ s.u.missingIds
      · rw [if_neg (fun h => h.2 hin), if_neg]
        · refine .same ?_ (fun _ => hc)
          rw [hm, setAdd, if_pos hin]
        · rintro ⟨ho', _⟩
          have := index_iff.mp ho'
          rw [ho] at this
          cases this
      · rw [if_pos ⟨hu, hin⟩]
        refine ⟨?_, fun _ => hc, ?_⟩
        · rw [flagOf_true hc]
          have := flagOf_le s.u
          simpa [badLine] using this
        · rw [hm, setAdd, if_neg hin]
          rfl
    · rw [if_neg (fun h => hu _ h.1)]
      split
      · rename_i hi
        obtain ⟨hi, hf⟩ := hi
        have hi := index_iff.mp hi
        rw [ho] at hi
        cases hi
        have hs' : s'.u = { s.u with fileCorrupt := true } := by
          cases hg with
          | index h1 h2 => rcases h with h | h <;> rw [h1] at h <;> cases h; exact h2
          | raises h1 => rcases h with h | h <;> rw [h1] at h <;> cases h
        rw [hs']
        refine ⟨?_, fun _ => rfl, by simp [subjectOf]⟩
        rw [flagOf_false hf]
        exact Nat.le_refl _
      · cases hg with
        | ok h1 h2 =>
          rcases h with h | h <;> rw [h1] at h <;> cases h
          rw [h2]
          exact .same hm hp.corrupt
        | index h1 h2 =>
          rcases h with h | h <;> rw [h1] at h <;> cases h
          rw [h2]
          exact .same hm (fun _ => rfl)
        | struct h1 h2 =>
          rcases h with h | h <;> rw [h1] at h <;> cases h
          rw [h2]
          exact .same hm hp.corrupt
        | raises h1 => rcases h with h | h <;> rw [h1] at h <;> cases h

theorem dataLoop_reported {cfg : Cfg} {bs : Bytes} {ru n : Nat} {s s' : RS} (h : dataLoop cfg bs ru n s = .done s') :
    Reported (dataLoopNotices cfg bs ru n s) s.u s'.u := by
  induction n generalizing s with
  | zero => cases h
  | succ n ih =>
    simp only [dataLoop] at h
    simp only [dataLoopNotices]
    cases hs : dataStep cfg bs ru s with
    | cont s1 =>
      rw [hs] at h
      exact (dataStep_reported (Or.inl hs)).trans (ih h)
    | stop s1 =>
      rw [hs] at h
      cases h
      rw [List.append_nil]
      exact dataStep_reported (Or.inr hs)
    | raise e => rw [hs] at h; cases h

theorem readData_reported {cfg : Cfg} {bs : Bytes} {ru pos : Nat} {u u' : ULog} (h : readData cfg bs ru pos u = .ok u') :
    Reported (dataLoopNotices cfg bs ru (bs.length + 1) { pos := pos, cur := pos, u := u }) u u' := by
  unfold readData at h
  split at h
  · rename_i s heq
    have h1 := dataLoop_reported heq
    unfold LoadRes.ofExcept at h
    split at h
    · rename_i u2 hfz
      cases h
      obtain ⟨new, _, h2⟩ := finalize_ok hfz
      rw [← List.append_nil (dataLoopNotices _ _ _ _ _)]
      refine h1.trans (.same ?_ ?_) <;> rw [h2]
      exact id
    · cases h
  · cases h
  · cases h

theorem readSections_reported {cfg : Cfg} {bs : Bytes} {offs : List Nat} {pos : Nat} {u u' : ULog}
    (h : readSections cfg bs offs pos u = .ok u') : Reported (sectionsNotices cfg bs offs pos u) u u' := by
  induction offs generalizing pos u with
  | nil => exact readData_reported h
  | cons off offs ih =>
    simp only [readSections] at h
    simp only [sectionsNotices]
    split at h
    · rename_i u2 heq
      have h1 := readData_reported heq
      split at h
      · cases h
      · rename_i hlt
        rw [heq]
        simp only
        rw [if_neg hlt]
        exact h1.trans (ih h)
    · rename_i hne; exact absurd h (hne _)

theorem flags_reported (bs : Bytes) (pos : Nat) (u : ULog) : Reported (saidFlags bs pos) u u := by
  unfold saidFlags
  split
  · refine ⟨?_, ?_, ?_⟩ <;> split <;> split <;> simp [badLine, hintLine, subjectOf]
  · exact .refl u

theorem defStep_reported {cfg : Cfg} {bs : Bytes} {s s' : RS}
    (h : defStep cfg bs s = .cont s' ∨ defStep cfg bs s = .stop s') :
    Reported (defNotices cfg bs s) s.u s'.u := by
  have hp : PresD s.u s'.u := defStep_presD h
  rw [defNotices_eq]
  refine (flags_reported bs s.pos s.u).trans ?_
  rcases hd : defAt bs s with _ | ⟨x, l⟩
  · exact .same hp.missingIds hp.corrupt
  · have hx : x = (s.u, byteAt bs (s.pos + 2), (bs.drop (s.pos + 3)).take (leAt bs s.pos 2)) ∧ l = [] ∧
        s.pos + 3 ≤ bs.length := by
      unfold defAt at hd
      split at hd
      · rename_i h; cases hd; exact ⟨rfl, rfl, h.1⟩
      · cases hd
    obtain ⟨rfl, rfl, h3⟩ := hx
    simp only [List.flatMap_cons, List.flatMap_nil, List.append_nil]
    rw [← corruptNotice_def]
    unfold corruptNotice
    split
    · rename_i v hv
      have hvu := handleDef_index hv
      subst hvu
      split
      · exact .same hp.missingIds hp.corrupt
      · rename_i hf
        have hh : (readAt bs s.pos 3).length = 3 := by simp [readAt]; omega
        obtain ⟨_, hsz, hty⟩ := readAt_facts hh
        have hc : s'.u.fileCorrupt = true := by
          unfold defStep at h
          simp only [hh, hsz, hty] at h
          have hv' : handleDef cfg s.u (byteAt bs (s.pos + 2)) (readAt bs (s.pos + 3) (leAt bs s.pos 2)) =
            some (.err .indexError s.u) := hv
          rw [hv'] at h
          rcases h with h | h
          · cases h; rfl
          · cases h
        refine ⟨?_, fun _ => hc, ?_⟩
        · rw [flagOf_true hc, flagOf_false (by simpa using hf)]
          exact Nat.le_refl _
        · rw [hp.missingIds]
          simp [subjectOf]
    · exact .same hp.missingIds hp.corrupt

theorem defLoop_reported {cfg : Cfg} {bs : Bytes} {n : Nat} {s s' : RS} (h : defLoop cfg bs n s = .done s') :
    Reported (defLoopNotices cfg bs n s) s.u s'.u := by
  induction n generalizing s with
  | zero => cases h
  | succ n ih =>
    simp only [defLoop] at h
    simp only [defLoopNotices]
    cases hs : defStep cfg bs s with
    | cont s1 =>
      rw [hs] at h
      exact (defStep_reported (Or.inl hs)).trans (ih h)
    | stop s1 =>
      rw [hs] at h
      cases h
      rw [List.append_nil]
      exact defStep_reported (Or.inr hs)
    | raise e => rw [hs] at h; cases h

/-- the reports of a load start with an object that is not corrupt -/
theorem load_reported {fuel : Nat} {cfg : Cfg} {bs : Bytes} {u : ULog} (h : load fuel cfg bs = .ok u) :
    Reported (loadNotices fuel cfg bs) {} u := by
  rw [load_eq] at h
  unfold loadNotices headerNotices
  split at h
  · cases h
  · rename_i u0 hh
    have h0 := readHeader_init hh
    simp only [hh]
    have hv : Reported (if u0.fileVersion > 1 then [Notice.version] else []) {} u0 := by
      rw [h0]
      split
      · exact ⟨Nat.le_refl _, by simp [hintLine], rfl⟩
      · exact ⟨Nat.le_refl _, by simp, rfl⟩
    refine hv.trans ?_
    split at h
    · cases h
    · cases h
    · rename_i s heq
      rw [heq]
      have h1 : Reported _ u0 s.u := defLoop_reported heq
      split at h
      · rename_i ho
        cases h
        simp only [ho, if_true, List.append_nil]
        exact h1
      · rename_i ho
        simp only [ho]
        exact h1.trans (readSections_reported h)

end PyULog
