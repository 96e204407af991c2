import Verif.Lemmas.Errors
/-
The definition section: what its messages change, which exceptions they raise, progress.
-/
namespace PyULog

/-- message types processed in place in the definition section -/
def knownDef (ty : Nat) : Bool :=
  ty = MSG_TYPE_INFO || ty = MSG_TYPE_INFO_MULTIPLE || ty = MSG_TYPE_FORMAT ||
  ty = MSG_TYPE_PARAMETER || ty = MSG_TYPE_PARAMETER_DEFAULT || ty = MSG_TYPE_FLAG_BITS

theorem knownDef_cases {ty : Nat} (h : knownDef ty = true) :
    ty = MSG_TYPE_INFO ∨ ty = MSG_TYPE_INFO_MULTIPLE ∨ ty = MSG_TYPE_FORMAT ∨
    ty = MSG_TYPE_PARAMETER ∨ ty = MSG_TYPE_PARAMETER_DEFAULT ∨ ty = MSG_TYPE_FLAG_BITS := by
  simpa [knownDef, or_assoc] using h

theorem handleDef_none (cfg : Cfg) (u : ULog) (ty : Nat) (data : Bytes)
    (h : knownDef ty = false) : handleDef cfg u ty data = none := by
  simp only [knownDef, Bool.or_eq_false_iff, decide_eq_false_iff_not] at h
  simp [handleDef, h]

section
variable (cfg : Cfg) (u : ULog) (data : Bytes)
theorem handleDef_I : handleDef cfg u MSG_TYPE_INFO data =
    some (Out.bind (parseInfo cfg.ign data) u (addInfo u)) := rfl
theorem handleDef_M : handleDef cfg u MSG_TYPE_INFO_MULTIPLE data =
    some (Out.bind (parseInfoMulti cfg.ign data) u (addInfoMulti u)) := rfl
theorem handleDef_F : handleDef cfg u MSG_TYPE_FORMAT data =
    some (Out.bind (parseFormat cfg.ign data) u fun f =>
      { u with formats := u.formats.set f.name f }) := rfl
theorem handleDef_P : handleDef cfg u MSG_TYPE_PARAMETER data =
    some (Out.bind (parseInfo cfg.ign data) u fun m =>
      { u with initialParams := u.initialParams.set m.key m.value }) := rfl
theorem handleDef_Q : handleDef cfg u MSG_TYPE_PARAMETER_DEFAULT data =
    some (Out.bind (parseParamDefault cfg.ign data) u (addParamDefault u)) := rfl
theorem handleDef_B : handleDef cfg u MSG_TYPE_FLAG_BITS data =
    some (match parseFlagBits data with
      | .ok f => applyFlagBits u f
      | .error e => .err e u) := rfl
end

theorem handleDef_some (cfg : Cfg) (u : ULog) (ty : Nat) (data : Bytes)
    (h : knownDef ty = true) : ∃ o, handleDef cfg u ty data = some o := by
  rcases knownDef_cases h with h | h | h | h | h | h <;> subst h <;> exact ⟨_, rfl⟩

/-- what the definition section leaves alone -/
structure PresD (u u' : ULog) : Prop where
  hasSync : u'.hasSync = u.hasSync
  startTs : u'.startTs = u.startTs
  lastTs : u'.lastTs = u.lastTs
  fileVersion : u'.fileVersion = u.fileVersion
  dataList : u'.dataList = u.dataList
  subs : u'.subs = u.subs
  filteredIds : u'.filteredIds = u.filteredIds
  missingIds : u'.missingIds = u.missingIds
  logged : u'.logged = u.logged
  tagged : u'.tagged = u.tagged
  dropouts : u'.dropouts = u.dropouts
  changedParams : u'.changedParams = u.changedParams
  syncCnt : u'.syncCnt = u.syncCnt
  corrupt : u.fileCorrupt = true → u'.fileCorrupt = true

theorem PresD.refl (u : ULog) : PresD u u := by constructor <;> simp

theorem PresD.trans {u v w : ULog} (h1 : PresD u v) (h2 : PresD v w) : PresD u w where
  hasSync := h2.hasSync.trans h1.hasSync
  startTs := h2.startTs.trans h1.startTs
  lastTs := h2.lastTs.trans h1.lastTs
  fileVersion := h2.fileVersion.trans h1.fileVersion
  dataList := h2.dataList.trans h1.dataList
  subs := h2.subs.trans h1.subs
  filteredIds := h2.filteredIds.trans h1.filteredIds
  missingIds := h2.missingIds.trans h1.missingIds
  logged := h2.logged.trans h1.logged
  tagged := h2.tagged.trans h1.tagged
  dropouts := h2.dropouts.trans h1.dropouts
  changedParams := h2.changedParams.trans h1.changedParams
  syncCnt := h2.syncCnt.trans h1.syncCnt
  corrupt := fun h => h2.corrupt (h1.corrupt h)

theorem bind_presD {r : Except PyErr α} {u : ULog} {f : α → ULog} (h : ∀ a, PresD u (f a)) :
    PresD u (Out.bind r u f).state := by
  unfold Out.bind
  cases r
  · exact PresD.refl u
  · exact h _

theorem applyFlagBits_presD (u : ULog) (f) : PresD u (applyFlagBits u f).state := by
  unfold applyFlagBits
  simp only
  split
  · constructor <;> simp [Out.state]
  · split <;> constructor <;> simp [Out.state]

theorem handleDef_presD (cfg : Cfg) (u : ULog) (ty : Nat) (data : Bytes) (o : Out)
    (h : handleDef cfg u ty data = some o) : PresD u o.state := by
  by_cases hk : knownDef ty = true
  · rcases knownDef_cases hk with hk | hk | hk | hk | hk | hk <;> subst hk
    · rw [handleDef_I] at h; cases h
      apply bind_presD; intro a; constructor <;> simp [addInfo]
    · rw [handleDef_M] at h; cases h
      apply bind_presD; intro a
      unfold addInfoMulti
      split
      · split <;> constructor <;> simp
      · constructor <;> simp
    · rw [handleDef_F] at h; cases h
      apply bind_presD; intro a; constructor <;> simp
    · rw [handleDef_P] at h; cases h
      apply bind_presD; intro a; constructor <;> simp
    · rw [handleDef_Q] at h; cases h
      apply bind_presD; intro a; constructor <;> simp [addParamDefault]
    · rw [handleDef_B] at h; cases h
      cases parseFlagBits data with
      | error e => exact PresD.refl u
      | ok f => exact applyFlagBits_presD u f
  · rw [handleDef_none _ _ _ _ (by simpa using hk)] at h; cases h

theorem unpackBytes_err {n : Nat} {b : Bytes} {e : PyErr} (h : unpackBytes n b = .error e) :
    e = .structError := by
  unfold unpackBytes at h
  split at h <;> cases h; rfl

theorem unpack3Q_err {b : Bytes} {e : PyErr} (h : unpack3Q b = .error e) :
    e = .structError := by
  unfold unpack3Q at h
  split at h <;> cases h; rfl

theorem parseFlagBits_err {b : Bytes} {e : PyErr} (h : parseFlagBits b = .error e) :
    e = .structError := by
  unfold parseFlagBits at h
  rcases except_bind_error.mp h with h | ⟨_, _, h⟩
  · exact unpackBytes_err h
  rcases except_bind_error.mp h with h | ⟨_, _, h⟩
  · exact unpackBytes_err h
  rcases except_bind_error.mp h with h | ⟨_, _, h⟩
  · exact unpack3Q_err h
  · cases h

theorem handleDef_err {cfg : Cfg} {u u' : ULog} {ty : Nat} {d : Bytes} {e : PyErr}
    (h : handleDef cfg u ty d = some (.err e u')) :
    e = .indexError ∨ e = .structError ∨ (e = .unicodeError ∧ cfg.ign = false) ∨ e = .valueError ∨
      e = .notImplemented := by
  by_cases hk : knownDef ty = true
  · rcases knownDef_cases hk with hk | hk | hk | hk | hk | hk <;> subst hk
    · rw [handleDef_I] at h; injection h with h
      rcases parseInfo_err (Out.bind_eq_err.mp h).1 with h | h | h <;> simp [h]
    · rw [handleDef_M] at h; injection h with h
      rcases parseInfoMulti_err (Out.bind_eq_err.mp h).1 with h | h | h <;> simp [h]
    · rw [handleDef_F] at h; injection h with h
      rcases parseFormat_err (Out.bind_eq_err.mp h).1 with h | h | h <;> simp [h]
    · rw [handleDef_P] at h; injection h with h
      rcases parseInfo_err (Out.bind_eq_err.mp h).1 with h | h | h <;> simp [h]
    · rw [handleDef_Q] at h; injection h with h
      rcases parseParamDefault_err (Out.bind_eq_err.mp h).1 with h | h | h <;> simp [h]
    · rw [handleDef_B] at h; injection h with h
      cases hf : parseFlagBits d with
      | error e' => rw [hf] at h; cases h; simp [parseFlagBits_err hf]
      | ok f =>
        rw [hf] at h
        simp only [applyFlagBits] at h
        split at h
        · cases h; simp
        · split at h
          · cases h; simp
          · cases h
  · rw [handleDef_none _ _ _ _ (by simpa using hk)] at h; cases h

theorem defStep_presD {cfg : Cfg} {bs : Bytes} {s s' : RS}
    (h : defStep cfg bs s = .cont s' ∨ defStep cfg bs s = .stop s') : PresD s.u s'.u := by
  unfold defStep at h
  simp only at h
  split at h
  · rcases h with h | h <;> cases h
    exact PresD.refl _
  · split at h
    · rcases h with h | h <;> cases h
    · split at h
      · rename_i u heq
        rcases h with h | h <;> cases h
        exact handleDef_presD _ _ _ _ _ heq
      · rename_i u heq
        rcases h with h | h <;> cases h
        have := handleDef_presD _ _ _ _ _ heq
        exact this.trans (by constructor <;> simp [Out.state])
      · rcases h with h | h <;> cases h
      · split at h
        · split at h
          · rcases h with h | h <;> cases h
            exact PresD.refl _
          · rcases h with h | h <;> cases h
        · split at h
          · split at h
            · rcases h with h | h <;> cases h
              constructor <;> simp
            · rcases h with h | h <;> cases h
          · rcases h with h | h <;> cases h
            exact PresD.refl _

theorem defLoop_presD {cfg : Cfg} {bs : Bytes} {fuel : Nat} {s s' : RS}
    (h : defLoop cfg bs fuel s = .done s') : PresD s.u s'.u := by
  induction fuel generalizing s with
  | zero => cases h
  | succ fuel ih =>
    simp only [defLoop] at h
    split at h
    · rename_i s2 heq
      exact (defStep_presD (Or.inl heq)).trans (ih h)
    · rename_i s2 heq
      cases h
      exact defStep_presD (Or.inr heq)
    · cases h

theorem defStep_err {cfg : Cfg} {bs : Bytes} {s : RS} {e : PyErr}
    (h : defStep cfg bs s = .raise e) :
    e = .structError ∨ (e = .unicodeError ∧ cfg.ign = false) ∨ e = .valueError ∨ e = .notImplemented ∨
      e = .osError := by
  unfold defStep at h
  simp only at h
  split at h
  · cases h
  · split at h
    · cases h; simp
    · split at h
      · cases h
      · cases h
      · rename_i u hne heq
        cases h
        rcases handleDef_err heq with h | h | h | h | h <;> simp_all
      · split at h
        · split at h
          · cases h
          · rename_i heq
            cases h
            unfold seekBack at heq
            split at heq <;> cases heq; simp
        · split at h
          · split at h
            · cases h
            · rename_i heq
              cases h
              unfold seekBack at heq
              split at heq <;> cases heq; simp
          · cases h

theorem defLoop_err {cfg : Cfg} {bs : Bytes} {fuel : Nat} {s : RS} {e : PyErr}
    (h : defLoop cfg bs fuel s = .raised e) :
    e = .structError ∨ (e = .unicodeError ∧ cfg.ign = false) ∨ e = .valueError ∨ e = .notImplemented ∨
      e = .osError := by
  induction fuel generalizing s with
  | zero => cases h
  | succ fuel ih =>
    simp only [defLoop] at h
    split at h
    · exact ih h
    · cases h
    · rename_i e' heq
      cases h
      exact defStep_err heq

/-! ### the data phase of a whole load -/

theorem dataStep_err {cfg : Cfg} {bs : Bytes} {ru : Nat} {s : RS} {e : PyErr}
    (h : dataStep cfg bs ru s = .raise e) :
    (e = .unicodeError ∧ cfg.ign = false) ∨ e = .recursionError ∨ e = .keyError ∨
      e = .valueError := by
  unfold dataStep at h
  simp only at h
  split at h
  · cases h
  · split at h
    · cases h
    · split at h
      · cases h
      · split at h
        · cases h
        · cases h
        · cases h
        · rename_i heq
          cases h
          rcases handleData_err heq with h | h | h | h | h | h <;> simp_all
        · cases h

theorem dataLoop_err {cfg : Cfg} {bs : Bytes} {ru fuel : Nat} {s : RS} {e : PyErr}
    (h : dataLoop cfg bs ru fuel s = .raised e) :
    (e = .unicodeError ∧ cfg.ign = false) ∨ e = .recursionError ∨ e = .keyError ∨
      e = .valueError := by
  induction fuel generalizing s with
  | zero => cases h
  | succ fuel ih =>
    simp only [dataLoop] at h
    split at h
    · exact ih h
    · cases h
    · rename_i e' heq
      cases h
      exact dataStep_err heq

theorem mkData_err {s : Sub} {e : PyErr} (h : mkData s = .error e) : e = .valueError := by
  unfold mkData at h
  split at h <;> cases h; rfl

theorem finalize_err {u : ULog} {e : PyErr} (h : finalize u = .error e) : e = .valueError := by
  unfold finalize at h
  rcases except_bind_error.mp h with h | ⟨_, _, h⟩
  · exact mapM_err (P := fun e => e = .valueError) (fun a e h => mkData_err h) _ _ h
  · cases h

theorem readData_err {cfg : Cfg} {bs : Bytes} {ru pos : Nat} {u : ULog} {e : PyErr}
    (h : readData cfg bs ru pos u = .raised e) :
    (e = .unicodeError ∧ cfg.ign = false) ∨ e = .recursionError ∨ e = .keyError ∨
      e = .valueError := by
  unfold readData at h
  split at h
  · rename_i s heq
    unfold LoadRes.ofExcept at h
    split at h
    · cases h
    · rename_i e' he
      cases h
      simp [finalize_err he]
  · rename_i e' heq
    cases h
    exact dataLoop_err heq
  · cases h

theorem readSections_err {cfg : Cfg} {bs : Bytes} {offs : List Nat} {pos : Nat} {u : ULog}
    {e : PyErr} (h : readSections cfg bs offs pos u = .raised e) :
    (e = .unicodeError ∧ cfg.ign = false) ∨ e = .recursionError ∨ e = .keyError ∨
      e = .valueError := by
  induction offs generalizing pos u with
  | nil =>
    rcases readData_err h with h | h | h | h <;> simp [h]
  | cons off offs ih =>
    simp only [readSections] at h
    split at h
    · split at h
      · cases h; simp
      · exact ih h
    · rcases readData_err h with h | h | h | h <;> simp [h]

/-- the three phases of `load` -/
theorem load_eq {fuel : Nat} {cfg : Cfg} {bs : Bytes} :
    load fuel cfg bs =
      match readHeader bs with
      | .error e => .raised e
      | .ok u =>
        match defLoop cfg bs fuel { pos := 16, cur := 16, u := u } with
        | .raised e => .raised e
        | .outOfFuel => .outOfFuel
        | .done s =>
          if cfg.headerOnly then .ok s.u
          else readSections cfg bs
            (if hasDataAppended s.u then s.u.appendedOffsets else []) s.pos s.u := rfl

theorem replay_pres {cfg : Cfg} {evs : List SEv} {u u' : ULog}
    (h : replay cfg evs u = .done u') : Pres { u with hasSync := u'.hasSync } u' := by
  induction evs generalizing u with
  | nil => cases h; constructor <;> simp
  | cons ev evs ih =>
    simp only [replay] at h
    have key : ∀ v, Pres u v → Pres { u with hasSync := v.hasSync } v := by
      intro v hv
      rw [hv.hasSync]; exact hv
    cases ev with
    | unknown c hs =>
      simp only [applyEv] at h
      have := ih h
      refine Pres.trans ?_ this
      constructor <;> simp
      intro h; simp [h]
    | msg ty data =>
      simp only [applyEv] at h
      cases hd : handleData cfg u ty data with
      | none =>
        rw [hd] at h
        exact ih h
      | some o =>
        have hp := handleData_pres _ _ _ _ _ hd
        rw [hd] at h
        cases o with
        | ok u2 =>
          have := ih h
          refine Pres.trans ?_ this
          obtain ⟨h1, h2, h3, h4, h5, h6, h7, h8, h9, h10, h11, h12, h13, h14⟩ := hp
          constructor <;> first | assumption | rfl
        | err e u2 =>
          obtain ⟨h1, h2, h3, h4, h5, h6, h7, h8, h9, h10, h11, h12, h13, h14⟩ := hp
          cases e
          case indexError =>
            have := ih h
            refine Pres.trans ?_ this
            constructor <;> first | assumption | rfl | simp
          case structError =>
            cases h
            constructor <;> first | assumption | rfl
          all_goals cases h

/-- what a data section leaves alone (`dataList` is extended at the end) -/
structure PresS (u u' : ULog) : Prop where
  startTs : u'.startTs = u.startTs
  fileVersion : u'.fileVersion = u.fileVersion
  initialParams : u'.initialParams = u.initialParams
  formats : u'.formats = u.formats
  compat : u'.compat = u.compat
  incompat : u'.incompat = u.incompat
  appendedOffsets : u'.appendedOffsets = u.appendedOffsets
  lastTs : u.lastTs ≤ u'.lastTs
  corrupt : u.fileCorrupt = true → u'.fileCorrupt = true
  logged : u.logged <+: u'.logged
  dropouts : u.dropouts <+: u'.dropouts
  changedParams : u.changedParams <+: u'.changedParams

theorem PresS.trans {u v w : ULog} (h1 : PresS u v) (h2 : PresS v w) : PresS u w where
  startTs := h2.startTs.trans h1.startTs
  fileVersion := h2.fileVersion.trans h1.fileVersion
  initialParams := h2.initialParams.trans h1.initialParams
  formats := h2.formats.trans h1.formats
  compat := h2.compat.trans h1.compat
  incompat := h2.incompat.trans h1.incompat
  appendedOffsets := h2.appendedOffsets.trans h1.appendedOffsets
  lastTs := Nat.le_trans h1.lastTs h2.lastTs
  corrupt := fun h => h2.corrupt (h1.corrupt h)
  logged := h1.logged.trans h2.logged
  dropouts := h1.dropouts.trans h2.dropouts
  changedParams := h1.changedParams.trans h2.changedParams

theorem finalize_ok {u u' : ULog} (h : finalize u = .ok u') :
    ∃ new, ((u.subs.reverse.filter (fun p => p.2.buffer.length > 0)).mapM fun p => mkData p.2)
        = .ok new ∧
      u' = { u with subs := [], dataList := ssort dsLe (u.dataList ++ new) } := by
  unfold finalize at h
  obtain ⟨new, h1, h2⟩ := except_bind_ok.mp h
  injection h2 with h2
  exact ⟨new, h1, h2.symm⟩

theorem readData_presS {cfg : Cfg} {bs : Bytes} {ru pos : Nat} {u u' : ULog}
    (h : readData cfg bs ru pos u = .ok u') : PresS u u' := by
  rw [readData_eq] at h
  split at h
  · rename_i u2 heq
    have hp := replay_pres heq
    unfold LoadRes.ofExcept at h
    split at h
    · rename_i u3 h3
      cases h
      obtain ⟨new, _, rfl⟩ := finalize_ok h3
      obtain ⟨h1, h2, h3, h4, h5, h6, h7, h8, h9, h10, h11, h12, h13, h14⟩ := hp
      constructor <;> assumption
    · cases h
  · cases h

theorem readSections_presS {cfg : Cfg} {bs : Bytes} {offs : List Nat} {pos : Nat} {u u' : ULog}
    (h : readSections cfg bs offs pos u = .ok u') : PresS u u' := by
  induction offs generalizing pos u with
  | nil => exact readData_presS h
  | cons off offs ih =>
    simp only [readSections] at h
    split at h
    · rename_i u2 heq
      split at h
      · cases h
      · exact (readData_presS heq).trans (ih h)
    · rename_i hne
      exact absurd h (hne _)

theorem readData_ne_outOfFuel (cfg : Cfg) (bs : Bytes) (ru pos : Nat) (u : ULog) :
    readData cfg bs ru pos u ≠ .outOfFuel := by
  rw [readData_eq]
  split
  · unfold LoadRes.ofExcept; split <;> simp
  · simp

theorem readSections_ne_outOfFuel (cfg : Cfg) (bs : Bytes) (offs : List Nat) (pos : Nat) (u : ULog) :
    readSections cfg bs offs pos u ≠ .outOfFuel := by
  induction offs generalizing pos u with
  | nil => exact readData_ne_outOfFuel _ _ _ _ _
  | cons off offs ih =>
    simp only [readSections]
    split
    · split
      · simp
      · exact ih _ _
    · exact readData_ne_outOfFuel _ _ _ _ _

end PyULog
