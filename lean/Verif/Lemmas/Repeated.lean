import Verif.Spec.Repeated
import Verif.Lemmas.RoundDefs
import Verif.Lemmas.Lost
/-
A message that is read a second time right after the first time.
-/
namespace PyULog
open Spec

/-- the default is stored for this index -/
def HasDefault (key : Str) (value : Value) (t : Nat) (d : Dict Nat (Dict Str Value)) : Prop :=
  ∃ e, d.get? t = some e ∧ e.get? key = some value

/-- the default is stored for all indices of the mask -/
def AllDefaults (key : Str) (value : Value) : Nat → BitVec 8 → Dict Nat (Dict Str Value) → Prop
  | 0, _, _ => True
  | n + 1, types, d => types = 0 ∨
    (HasDefault key value ((types &&& (~~~types + 1)).toNat - 1) d ∧
      AllDefaults key value n (types ^^^ (types &&& (~~~types + 1))) d)

theorem hasDefault_step {key : Str} {value : Value} {t : Nat} (s : Nat) {d : Dict Nat (Dict Str Value)}
    (h : HasDefault key value t d) (e : Dict Str Value) (he : ∀ x, d.get? s = some x → e = x.set key value) :
    HasDefault key value t (d.set s e) := by
  obtain ⟨x, h1, h2⟩ := h
  by_cases hs : s = t
  · subst hs
    exact ⟨e, Dict.get?_set_self _ _ _, by rw [he x h1, Dict.get?_set_self]⟩
  · exact ⟨x, by rw [Dict.get?_set_ne _ _ hs]; exact h1, h2⟩

/-- one step of the loop keeps the defaults that are there -/
theorem hasDefault_keep {key : Str} {value : Value} {t : Nat} (s : Nat) {d : Dict Nat (Dict Str Value)}
    (h : HasDefault key value t d) :
    HasDefault key value t ((if d.has s then d else d.set s []).set s
      ((((if d.has s then d else d.set s []).get? s).getD []).set key value)) := by
  by_cases hs : d.has s = true
  · rw [if_pos hs]
    exact hasDefault_step s h _ fun x hx => by rw [hx]; rfl
  · rw [if_neg hs, set_set]
    have hn : d.get? s = none := by
      unfold Dict.has at hs
      cases hg : d.get? s with
      | none => rfl
      | some x => rw [hg] at hs; exact absurd rfl hs
    exact hasDefault_step s h _ fun x hx => by rw [hn] at hx; cases hx

theorem hasDefault_loop {key : Str} {value : Value} {t : Nat} (n : Nat) (types : BitVec 8)
    {d : Dict Nat (Dict Str Value)} (h : HasDefault key value t d) :
    HasDefault key value t (addDefaultLoop key value n types d) := by
  induction n generalizing types d with
  | zero => exact h
  | succ n ih =>
    unfold addDefaultLoop
    by_cases h0 : types = 0
    · rw [if_pos h0]; exact h
    · rw [if_neg h0]
      exact ih _ (hasDefault_keep _ h)

theorem allDefaults_loop (key : Str) (value : Value) (n : Nat) (types : BitVec 8) (d : Dict Nat (Dict Str Value)) :
    AllDefaults key value n types (addDefaultLoop key value n types d) := by
  induction n generalizing types d with
  | zero => trivial
  | succ n ih =>
    unfold addDefaultLoop AllDefaults
    by_cases h0 : types = 0
    · exact .inl h0
    · rw [if_neg h0]
      exact .inr ⟨hasDefault_loop n _ ⟨_, Dict.get?_set_self _ _ _, Dict.get?_set_self _ _ _⟩, ih _ _⟩

theorem loop_allDefaults {key : Str} {value : Value} (n : Nat) (types : BitVec 8) {d : Dict Nat (Dict Str Value)}
    (h : AllDefaults key value n types d) : addDefaultLoop key value n types d = d := by
  induction n generalizing types with
  | zero => rfl
  | succ n ih =>
    unfold addDefaultLoop
    unfold AllDefaults at h
    by_cases h0 : types = 0
    · rw [if_pos h0]
    · rw [if_neg h0]
      obtain ⟨⟨e, h1, h2⟩, h3⟩ := h.resolve_left h0
      have hh : d.has ((types &&& (~~~types + 1)).toNat - 1) = true := by unfold Dict.has; rw [h1]; rfl
      simp only
      rw [if_pos hh, h1]
      simp only [Option.getD_some]
      rw [set_get_self h2, set_get_self h1]
      exact ih _ h3

theorem addParamDefault_twice (u : ULog) (p : Nat × InfoMsg) :
    addParamDefault (addParamDefault u p) p = addParamDefault u p := by
  unfold addParamDefault
  simp only
  rw [loop_allDefaults 8 _ (allDefaults_loop _ _ _ _ _)]

theorem addInfo_twice (u : ULog) (m : InfoMsg) : addInfo (addInfo u m) m = addInfo u m := by
  unfold addInfo
  simp only [set_set]

theorem addSub_twice (f : NameFilter) (u : ULog) (s : Sub) : addSub f (addSub f u s) s = addSub f u s := by
  unfold addSub
  by_cases h : f.accepts s.name = true
  · simp only [h, if_true, set_set]
  · have hm : s.msgId ∈ setAdd u.filteredIds s.msgId := by
      unfold setAdd
      split
      · assumption
      · simp
    simp only [h]
    show ({ u with filteredIds := setAdd (setAdd u.filteredIds s.msgId) s.msgId } : ULog) = _
    rw [show setAdd (setAdd u.filteredIds s.msgId) s.msgId = setAdd u.filteredIds s.msgId from if_pos hm]
    rfl

theorem applyFlagBits_twice {u v : ULog} {f : List Nat × List Nat × List Nat} (h : applyFlagBits u f = .ok v) :
    applyFlagBits v f = .ok v := by
  unfold applyFlagBits at h ⊢
  simp only at h ⊢
  split at h
  · cases h
  · rename_i h1
    split at h
    · cases h
    · rename_i h2
      rw [if_neg h1, if_neg h2]
      injection h with h
      subst h
      rfl

/-- reading the message again, after it was read or after it was skipped as corrupt, changes nothing -/
structure ReadAgain (f : ULog → Option Out) (u : ULog) : Prop where
  ok : ∀ v, f u = some (.ok v) → f v = some (.ok v)
  err : ∀ v, f u = some (.err .indexError v) →
    f { v with fileCorrupt := true } = some (.err .indexError { v with fileCorrupt := true })

theorem readAgain_bind {α : Type} {u : ULog} (r : ULog → Except PyErr α) (g : ULog → α → ULog)
    (h1 : ∀ a, r (g u a) = r u) (h2 : r { u with fileCorrupt := true } = r u) (h3 : ∀ a, g (g u a) a = g u a) :
    ReadAgain (fun u => some (Out.bind (r u) u (g u))) u := by
  constructor
  · intro v hv
    cases hr : r u with
    | error e => rw [hr] at hv; cases hv
    | ok a =>
      rw [hr] at hv
      injection hv with hv
      injection hv with hv
      subst hv
      simp only [h1, hr, Out.bind, h3]
  · intro v hv
    cases hr : r u with
    | ok a => rw [hr] at hv; cases hv
    | error e =>
      rw [hr] at hv
      injection hv with hv
      injection hv with he hv
      subst hv he
      simp only [h2, hr, Out.bind]

theorem handleDef_readAgain (cfg : Cfg) (u : ULog) {ty : Nat} (p : Bytes) (hm : ty ≠ tyM) :
    ReadAgain (fun u => handleDef cfg u ty p) u := by
  have hm' : ty ≠ MSG_TYPE_INFO_MULTIPLE := hm
  unfold handleDef
  by_cases h1 : ty = MSG_TYPE_INFO
  · simp only [h1, if_true]
    exact readAgain_bind (fun _ => _) addInfo (fun _ => rfl) rfl (addInfo_twice u)
  by_cases h2 : ty = MSG_TYPE_FORMAT
  · simp only [h1, hm', if_false]
    simp only [h2, if_true]
    exact readAgain_bind (fun _ => _) (fun u f => { u with formats := u.formats.set f.name f }) (fun _ => rfl) rfl
      (fun a => by simp only [set_set])
  by_cases h3 : ty = MSG_TYPE_PARAMETER
  · simp only [h1, hm', h2, if_false]
    simp only [h3, if_true]
    exact readAgain_bind (fun _ => _) (fun u (m : InfoMsg) => { u with initialParams := u.initialParams.set m.key m.value })
      (fun _ => rfl) rfl (fun a => by simp only [set_set])
  by_cases h4 : ty = MSG_TYPE_PARAMETER_DEFAULT
  · simp only [h1, hm', h2, h3, if_false]
    simp only [h4, if_true]
    exact readAgain_bind (fun _ => _) addParamDefault (fun _ => rfl) rfl (addParamDefault_twice u)
  by_cases h5 : ty = MSG_TYPE_FLAG_BITS
  · simp only [h1, hm', h2, h3, h4, if_false]
    simp only [h5, if_true]
    constructor
    · intro v hv
      cases hp : parseFlagBits p with
      | error e => rw [hp] at hv; cases hv
      | ok f =>
        rw [hp] at hv
        injection hv with hv
        simp only
        rw [applyFlagBits_twice hv]
    · intro v hv
      cases hp : parseFlagBits p with
      | error e =>
        rw [hp] at hv
        injection hv with hv
        injection hv with he hv
        subst he
        rfl
      | ok f =>
        rw [hp] at hv
        injection hv with hv
        unfold applyFlagBits at hv
        simp only at hv
        split at hv
        · cases hv
        · split at hv <;> cases hv
  · simp only [h1, hm', h2, h3, h4, h5, if_false]
    exact ⟨fun v hv => (by cases hv), fun v hv => (by cases hv)⟩

theorem handleData_readAgain (cfg : Cfg) (u : ULog) {ty : Nat} (p : Bytes) (hm : ¬ addsEntry ty) :
    ReadAgain (fun u => handleData cfg u ty p) u := by
  have hn : ∀ t ∈ [tyM, tyP, tyL, tyC, tyD, tyO, tyS], ty ≠ t := fun t ht h => hm (h ▸ ht)
  have hM : ty ≠ MSG_TYPE_INFO_MULTIPLE := hn tyM (by decide)
  have hP : ty ≠ MSG_TYPE_PARAMETER := hn tyP (by decide)
  have hL : ty ≠ MSG_TYPE_LOGGING := hn tyL (by decide)
  have hC : ty ≠ MSG_TYPE_LOGGING_TAGGED := hn tyC (by decide)
  have hD : ty ≠ MSG_TYPE_DATA := hn tyD (by decide)
  have hO : ty ≠ MSG_TYPE_DROPOUT := hn tyO (by decide)
  have hS : ty ≠ MSG_TYPE_SYNC := hn tyS (by decide)
  unfold handleData
  by_cases h1 : ty = MSG_TYPE_INFO
  · simp only [h1, if_true]
    exact readAgain_bind (fun _ => _) addInfo (fun _ => rfl) rfl (addInfo_twice u)
  by_cases h4 : ty = MSG_TYPE_PARAMETER_DEFAULT
  · simp only [h1, hM, hP, if_false]
    simp only [h4, if_true]
    exact readAgain_bind (fun _ => _) addParamDefault (fun _ => rfl) rfl (addParamDefault_twice u)
  by_cases h5 : ty = MSG_TYPE_ADD_LOGGED_MSG
  · simp only [h1, hM, hP, h4, if_false]
    simp only [h5, if_true]
    refine readAgain_bind (fun u => parseAddLogged cfg.ign u.formats cfg.depth p) (addSub cfg.filter)
      (fun a => ?_) rfl (addSub_twice _ u)
    unfold addSub
    split <;> rfl
  · simp only [h1, hM, hP, h4, h5, hL, hC, hD, hO, hS, if_false]
    exact ⟨fun v hv => (by cases hv), fun v hv => (by cases hv)⟩

theorem runDefs_twice (cfg : Cfg) {m : Nat × Bytes} (hm : m.1 ≠ tyM) (l : List (Nat × Bytes)) (u : ULog) :
    runDefs cfg (m :: m :: l) u = runDefs cfg (m :: l) u := by
  have hs := handleDef_readAgain cfg u m.2 hm
  rw [runDefs, runDefs]
  cases ho : handleDef cfg u m.1 m.2 with
  | none => simp only; try rw [runDefs, ho]
  | some o =>
    cases o with
    | ok v => simp only; rw [runDefs, hs.ok v ho]
    | err e v =>
      cases e
      case indexError => simp only; rw [runDefs, hs.err v ho]
      all_goals rfl

theorem runData_twice (cfg : Cfg) {m : Nat × Bytes} (hm : ¬ addsEntry m.1) (l : List (Nat × Bytes)) (u : ULog) :
    runData cfg (m :: m :: l) u = runData cfg (m :: l) u := by
  have hs := handleData_readAgain cfg u m.2 hm
  rw [runData, runData]
  cases ho : handleData cfg u m.1 m.2 with
  | none => simp only; try rw [runData, ho]
  | some o =>
    cases o with
    | ok v => simp only; rw [runData, hs.ok v ho]
    | err e v =>
      cases e
      case indexError => simp only; rw [runData, hs.err v ho]
      all_goals rfl

theorem runDefs_tail (cfg : Cfg) {a b : List (Nat × Bytes)} (h : ∀ u, runDefs cfg a u = runDefs cfg b u)
    (pre : List (Nat × Bytes)) (u : ULog) : runDefs cfg (pre ++ a) u = runDefs cfg (pre ++ b) u := by
  induction pre generalizing u with
  | nil => exact h u
  | cons m l ih => simp only [List.cons_append, runDefs, ih]

theorem runData_tail (cfg : Cfg) {a b : List (Nat × Bytes)} (h : ∀ u, runData cfg a u = runData cfg b u)
    (pre : List (Nat × Bytes)) (u : ULog) : runData cfg (pre ++ a) u = runData cfg (pre ++ b) u := by
  induction pre generalizing u with
  | nil => exact h u
  | cons m l ih => simp only [List.cons_append, runData, ih]

theorem runDefs_rep (cfg : Cfg) {m : Nat × Bytes} (hm : m.1 ≠ tyM) (n : Nat) (l : List (Nat × Bytes)) (u : ULog) :
    runDefs cfg (m :: List.replicate n m ++ l) u = runDefs cfg (m :: l) u := by
  induction n with
  | zero => rfl
  | succ n ih => exact (runDefs_twice cfg hm _ u).trans ih

theorem runData_rep (cfg : Cfg) {m : Nat × Bytes} (hm : ¬ addsEntry m.1) (n : Nat) (l : List (Nat × Bytes)) (u : ULog) :
    runData cfg (m :: List.replicate n m ++ l) u = runData cfg (m :: l) u := by
  induction n with
  | zero => rfl
  | succ n ih => exact (runData_twice cfg hm _ u).trans ih

end PyULog
