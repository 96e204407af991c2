import Verif.Lemmas.Sync
/-
The data section factored into framing (`scan`, independent of the object) and message
processing (`replay`); progress of the loop.
-/
namespace PyULog

/-- message types processed in the data section -/
def knownData (ty : Nat) : Bool :=
  ty = MSG_TYPE_INFO || ty = MSG_TYPE_INFO_MULTIPLE || ty = MSG_TYPE_PARAMETER ||
  ty = MSG_TYPE_PARAMETER_DEFAULT || ty = MSG_TYPE_ADD_LOGGED_MSG || ty = MSG_TYPE_LOGGING ||
  ty = MSG_TYPE_LOGGING_TAGGED || ty = MSG_TYPE_DATA || ty = MSG_TYPE_DROPOUT || ty = MSG_TYPE_SYNC

theorem handleData_none (cfg : Cfg) (u : ULog) (ty : Nat) (data : Bytes)
    (h : knownData ty = false) : handleData cfg u ty data = none := by
  simp only [knownData, Bool.or_eq_false_iff, decide_eq_false_iff_not] at h
  simp [handleData, h]

theorem known_cases {ty : Nat} (h : knownData ty = true) :
    ty = MSG_TYPE_INFO ∨ ty = MSG_TYPE_INFO_MULTIPLE ∨ ty = MSG_TYPE_PARAMETER ∨
    ty = MSG_TYPE_PARAMETER_DEFAULT ∨ ty = MSG_TYPE_ADD_LOGGED_MSG ∨ ty = MSG_TYPE_LOGGING ∨
    ty = MSG_TYPE_LOGGING_TAGGED ∨ ty = MSG_TYPE_DATA ∨ ty = MSG_TYPE_DROPOUT ∨
    ty = MSG_TYPE_SYNC := by
  simpa [knownData, or_assoc] using h

section
variable (cfg : Cfg) (u : ULog) (data : Bytes)

theorem handleData_I : handleData cfg u MSG_TYPE_INFO data =
    some (Out.bind (parseInfo cfg.ign data) u (addInfo u)) := rfl
theorem handleData_M : handleData cfg u MSG_TYPE_INFO_MULTIPLE data =
    some (Out.bind (parseInfoMulti cfg.ign data) u (addInfoMulti u)) := rfl
theorem handleData_P : handleData cfg u MSG_TYPE_PARAMETER data =
    some (Out.bind (parseInfo cfg.ign data) u fun m =>
      { u with changedParams := u.changedParams ++ [(u.lastTs, m.key, m.value)] }) := rfl
theorem handleData_Q : handleData cfg u MSG_TYPE_PARAMETER_DEFAULT data =
    some (Out.bind (parseParamDefault cfg.ign data) u (addParamDefault u)) := rfl
theorem handleData_A : handleData cfg u MSG_TYPE_ADD_LOGGED_MSG data =
    some (Out.bind (parseAddLogged cfg.ign u.formats cfg.depth data) u (addSub cfg.filter u)) := rfl
theorem handleData_L : handleData cfg u MSG_TYPE_LOGGING data =
    some (Out.bind (parseLogging cfg.ign data) u fun m => { u with logged := u.logged ++ [m] }) := rfl
theorem handleData_C : handleData cfg u MSG_TYPE_LOGGING_TAGGED data =
    some (Out.bind (parseLoggingTagged cfg.ign data) u (addTagged u)) := rfl
theorem handleData_D : handleData cfg u MSG_TYPE_DATA data = some (addData u data) := rfl
theorem handleData_O : handleData cfg u MSG_TYPE_DROPOUT data =
    some (Out.bind (parseDropout data u.lastTs) u fun d =>
      { u with dropouts := u.dropouts ++ [d] }) := rfl
theorem handleData_S : handleData cfg u MSG_TYPE_SYNC data =
    some (.ok { u with syncCnt := u.syncCnt + 1 }) := rfl
end

theorem handleData_some (cfg : Cfg) (u : ULog) (ty : Nat) (data : Bytes)
    (h : knownData ty = true) : ∃ o, handleData cfg u ty data = some o := by
  rcases known_cases h with h | h | h | h | h | h | h | h | h | h <;> subst h <;> exact ⟨_, rfl⟩

theorem Out.bind_eq_ok {r : Except PyErr α} {u u' : ULog} {f : α → ULog} :
    Out.bind r u f = .ok u' ↔ ∃ a, r = .ok a ∧ f a = u' := by
  unfold Out.bind
  cases r <;> simp

theorem Out.bind_eq_err {r : Except PyErr α} {u u' : ULog} {f : α → ULog} {e : PyErr} :
    Out.bind r u f = .err e u' ↔ r = .error e ∧ u = u' := by
  unfold Out.bind
  cases r <;> simp

/-- the part of the object that no data-section message changes, and what only grows -/
structure Pres (u u' : ULog) : Prop where
  hasSync : u'.hasSync = u.hasSync
  startTs : u'.startTs = u.startTs
  fileVersion : u'.fileVersion = u.fileVersion
  initialParams : u'.initialParams = u.initialParams
  formats : u'.formats = u.formats
  compat : u'.compat = u.compat
  incompat : u'.incompat = u.incompat
  appendedOffsets : u'.appendedOffsets = u.appendedOffsets
  dataList : u'.dataList = u.dataList
  lastTs : u.lastTs ≤ u'.lastTs
  corrupt : u.fileCorrupt = true → u'.fileCorrupt = true
  logged : u.logged <+: u'.logged
  dropouts : u.dropouts <+: u'.dropouts
  changedParams : u.changedParams <+: u'.changedParams

theorem Pres.refl (u : ULog) : Pres u u := by
  constructor <;> simp

theorem Pres.trans {u v w : ULog} (h1 : Pres u v) (h2 : Pres v w) : Pres u w where
  hasSync := h2.hasSync.trans h1.hasSync
  startTs := h2.startTs.trans h1.startTs
  fileVersion := h2.fileVersion.trans h1.fileVersion
  initialParams := h2.initialParams.trans h1.initialParams
  formats := h2.formats.trans h1.formats
  compat := h2.compat.trans h1.compat
  incompat := h2.incompat.trans h1.incompat
  appendedOffsets := h2.appendedOffsets.trans h1.appendedOffsets
  dataList := h2.dataList.trans h1.dataList
  lastTs := Nat.le_trans h1.lastTs h2.lastTs
  corrupt := fun h => h2.corrupt (h1.corrupt h)
  logged := h1.logged.trans h2.logged
  dropouts := h1.dropouts.trans h2.dropouts
  changedParams := h1.changedParams.trans h2.changedParams

/-- state carried by an outcome -/
def Out.state : Out → ULog
  | .ok u => u
  | .err _ u => u

theorem addData_pres (u : ULog) (data : Bytes) : Pres u (addData u data).state := by
  unfold addData
  cases unpackU 2 (data.take 2) with
  | error e => exact Pres.refl u
  | ok msgId =>
    simp only
    cases u.subs.get? msgId with
    | some s =>
      simp only
      by_cases h : data.length - 2 < s.itemSize ∨ data.length - 2 > s.maxSize
      · rw [if_pos h]; constructor <;> simp [Out.state]
      · rw [if_neg h]
        generalize (if data.length - 2 > s.itemSize then data.take (2 + s.itemSize) else data) = d
        cases unpackU 8 (slice (s.tsOff + 2) (s.tsOff + 10) d) with
        | error e => constructor <;> simp [Out.state]
        | ok ts =>
          simp only [Out.state]
          by_cases ht : ts > u.lastTs
          · rw [if_pos ht]; constructor <;> simp
            omega
          · rw [if_neg ht]; constructor <;> simp
    | none =>
      simp only
      by_cases h : msgId ∈ u.filteredIds
      · rw [if_pos h]; exact Pres.refl u
      · rw [if_neg h]; constructor <;> simp [Out.state]

theorem bind_pres {r : Except PyErr α} {u : ULog} {f : α → ULog} (h : ∀ a, Pres u (f a)) :
    Pres u (Out.bind r u f).state := by
  unfold Out.bind
  cases r
  · exact Pres.refl u
  · exact h _

theorem handleData_pres (cfg : Cfg) (u : ULog) (ty : Nat) (data : Bytes) (o : Out)
    (h : handleData cfg u ty data = some o) : Pres u o.state := by
  by_cases hk : knownData ty = true
  · rcases known_cases hk with hk | hk | hk | hk | hk | hk | hk | hk | hk | hk <;> subst hk
    · rw [handleData_I] at h; cases h
      apply bind_pres; intro a; constructor <;> simp [addInfo]
    · rw [handleData_M] at h; cases h
      apply bind_pres; intro a
      unfold addInfoMulti
      split
      · split <;> constructor <;> simp
      · constructor <;> simp
    · rw [handleData_P] at h; cases h
      apply bind_pres; intro a; constructor <;> simp
    · rw [handleData_Q] at h; cases h
      apply bind_pres; intro a; constructor <;> simp [addParamDefault]
    · rw [handleData_A] at h; cases h
      apply bind_pres; intro a
      unfold addSub
      split <;> constructor <;> simp
    · rw [handleData_L] at h; cases h
      apply bind_pres; intro a; constructor <;> simp
    · rw [handleData_C] at h; cases h
      apply bind_pres; intro a; constructor <;> simp [addTagged]
    · rw [handleData_D] at h; cases h
      exact addData_pres u data
    · rw [handleData_O] at h; cases h
      apply bind_pres; intro a; constructor <;> simp
    · rw [handleData_S] at h; cases h
      constructor <;> simp [Out.state]
  · rw [handleData_none _ _ _ _ (by simpa using hk)] at h; cases h

/-! ### framing without the object -/

/-- position bookkeeping of `handleUnknown`: new position, `curr_file_pos`, `_has_sync`, and
whether the file is marked corrupt -/
def skim (bs : Bytes) (ty size pos cur : Nat) (hasSync : Bool) : Nat × Nat × Bool × Bool :=
  if packetCorrupt ty size then
    let p := pos - 2 - size
    if hasSync then
      match findSyncFwd bs (bs.length + 1) p with
      | some q => (q, p, hasSync, true)
      | none => (p, p, false, true)
    else (p, p, hasSync, true)
  else if hasSync then
    match findSyncBack bs pos size with
    | some q => (q, cur, hasSync, true)
    | none => (pos, cur, hasSync, false)
  else (pos, cur, hasSync, false)

theorem handleUnknown_eq (bs : Bytes) (ty size : Nat) (s : RS) :
    handleUnknown bs ty size s =
      let r := skim bs ty size s.pos s.cur s.u.hasSync
      { pos := r.1, cur := r.2.1,
        u := { s.u with hasSync := r.2.2.1, fileCorrupt := s.u.fileCorrupt || r.2.2.2 } } := by
  obtain ⟨pos, cur, u⟩ := s
  unfold handleUnknown skim
  simp only
  split
  · split
    · split <;> simp_all
    · simp_all
  · split
    · split
      · simp_all
      · cases u; simp_all
    · cases u; simp_all

/-- what one frame of the data section contributes -/
inductive SEv where
  | msg (ty : Nat) (data : Bytes)
  | unknown (corrupt hasSync : Bool)
  deriving DecidableEq, Repr

/-- framing of the data section -/
def scan (bs : Bytes) (readUntil : Nat) : Nat → Nat → Nat → Bool → List SEv
  | 0, _, _, _ => []
  | fuel + 1, pos, cur, hasSync =>
    let hdr := readAt bs pos 3
    if hdr.length ≠ 3 then []
    else
      let size := leNat (hdr.take 2)
      let ty := leNat (hdr.drop 2)
      let data := readAt bs (pos + 3) size
      if data.length < size then []
      else if cur + 3 + data.length > readUntil then []
      else if knownData ty then
        .msg ty data :: scan bs readUntil fuel (pos + 3 + data.length) (cur + 3 + data.length) hasSync
      else
        let r := skim bs ty size (pos + 3 + data.length) (cur + 3 + data.length) hasSync
        .unknown r.2.2.2 r.2.2.1 :: scan bs readUntil fuel r.1 r.2.1 r.2.2.1

/-- result of processing one event -/
inductive SRes where
  | cont (u : ULog)
  | stop (u : ULog)
  | raise (e : PyErr)
  deriving DecidableEq, Repr

/-- processing of one event -/
def applyEv (cfg : Cfg) (u : ULog) : SEv → SRes
  | .unknown c h => .cont { u with hasSync := h, fileCorrupt := u.fileCorrupt || c }
  | .msg ty data =>
    match handleData cfg u ty data with
    | some (.ok u) => .cont u
    | some (.err .indexError u) => .cont { u with fileCorrupt := true }
    | some (.err .structError u) => .stop u
    | some (.err e _) => .raise e
    | none => .cont u

/-- result of processing a sequence of events -/
inductive RRes where
  | done (u : ULog)
  | raised (e : PyErr)
  deriving DecidableEq, Repr

/-- processing of a sequence of events -/
def replay (cfg : Cfg) : List SEv → ULog → RRes
  | [], u => .done u
  | ev :: evs, u =>
    match applyEv cfg u ev with
    | .cont u => replay cfg evs u
    | .stop u => .done u
    | .raise e => .raised e

theorem applyEv_hasSync (cfg : Cfg) (u u' : ULog) (ty : Nat) (data : Bytes)
    (h : applyEv cfg u (.msg ty data) = .cont u') : u'.hasSync = u.hasSync := by
  simp only [applyEv] at h
  split at h
  · rename_i u2 heq
    cases h; exact (handleData_pres _ _ _ _ _ heq).hasSync
  · rename_i u2 heq
    cases h; exact (handleData_pres _ _ _ _ _ heq).hasSync
  · cases h
  · cases h
  · cases h; rfl

/-! ### progress -/

theorem skim_progress (bs : Bytes) (ty size pos cur : Nat) (hs : Bool)
    (hl : pos + 3 + size ≤ bs.length) :
    pos < (skim bs ty size (pos + 3 + size) cur hs).1 ∧
      (skim bs ty size (pos + 3 + size) cur hs).1 ≤ bs.length := by
  unfold skim
  simp only
  split
  · split
    · have hp : pos + 3 + size - 2 - size = pos + 1 := by omega
      have := findSyncFwd_spec bs (bs.length + 1) (pos + 3 + size - 2 - size) (by omega)
      split
      · rename_i q heq
        rw [heq] at this
        obtain ⟨i, h1, h2, h3, h4⟩ := this
        have := h3.len
        simp; omega
      · simp; omega
    · simp; omega
  · split
    · have := findSyncBack_spec bs (pos + 3 + size) size (by omega) hl
      split
      · rename_i q heq
        rw [heq] at this
        obtain ⟨i, h1, h2, h3, h4, h5⟩ := this
        simp; omega
      · simp; omega
    · simp; omega

/-- every iteration that continues moves forward, and stays inside the file -/
theorem dataStep_progress (cfg : Cfg) (bs : Bytes) (ru : Nat) (s s' : RS)
    (h : dataStep cfg bs ru s = .cont s') : s.pos < s'.pos ∧ s'.pos ≤ bs.length := by
  unfold dataStep at h
  simp only at h
  split at h
  · cases h
  · rename_i hh
    have hh : (readAt bs s.pos 3).length = 3 := by
      simpa using hh
    generalize hsize : leNat ((readAt bs s.pos 3).take 2) = size at h
    generalize hty : leNat ((readAt bs s.pos 3).drop 2) = ty at h
    have hlen : (readAt bs (s.pos + 3) size).length = min size (bs.length - (s.pos + 3)) := by
      simp [readAt]
    split at h
    · cases h
    · split at h
      · cases h
      · have hfull : (readAt bs (s.pos + 3) size).length = size := by omega
        have h3 : s.pos + 3 ≤ bs.length := by
          simp [readAt] at hh; omega
        split at h
        · cases h; simp; omega
        · cases h; simp; omega
        · cases h
        · cases h
        · cases h
          rw [handleUnknown_eq]
          simp only [hfull]
          exact skim_progress _ _ _ _ _ _ (by omega)

theorem dataLoop_terminates (cfg : Cfg) (bs : Bytes) (ru fuel : Nat) (s : RS)
    (hf : bs.length < s.pos + fuel) (hf0 : 0 < fuel) :
    dataLoop cfg bs ru fuel s ≠ .outOfFuel := by
  induction fuel generalizing s with
  | zero => omega
  | succ fuel ih =>
    simp only [dataLoop]
    split
    · rename_i s' heq
      have := dataStep_progress cfg bs ru s s' heq
      exact ih s' (by omega) (by omega)
    · simp
    · simp

/-! ### factorisation -/

/-- `dataLoop` = framing, then processing -/
theorem dataLoop_eq_replay (cfg : Cfg) (bs : Bytes) (ru fuel : Nat) (s : RS)
    (hf : bs.length < s.pos + fuel) (hf0 : 0 < fuel) :
    (∃ s', dataLoop cfg bs ru fuel s = .done s' ∧
      replay cfg (scan bs ru fuel s.pos s.cur s.u.hasSync) s.u = .done s'.u) ∨
    (∃ e, dataLoop cfg bs ru fuel s = .raised e ∧
      replay cfg (scan bs ru fuel s.pos s.cur s.u.hasSync) s.u = .raised e) := by
  induction fuel generalizing s with
  | zero => omega
  | succ fuel ih =>
    have hprog := dataStep_progress cfg bs ru s
    simp only [dataLoop, scan]
    unfold dataStep at hprog
    unfold dataStep
    simp only at hprog ⊢
    by_cases hh : (readAt bs s.pos 3).length = 3
    · simp only [hh, not_true_eq_false, if_false, ne_eq] at hprog ⊢
      generalize hsize : leNat ((readAt bs s.pos 3).take 2) = size at hprog ⊢
      generalize hty : leNat ((readAt bs s.pos 3).drop 2) = ty at hprog ⊢
      by_cases hd : (readAt bs (s.pos + 3) size).length < size
      · simp only [hd, if_true]
        exact Or.inl ⟨_, rfl, rfl⟩
      · simp only [hd, if_false] at hprog ⊢
        by_cases hr : s.cur + 3 + (readAt bs (s.pos + 3) size).length > ru
        · simp only [hr, if_true]
          exact Or.inl ⟨_, rfl, rfl⟩
        · simp only [hr, if_false] at hprog ⊢
          by_cases hk : knownData ty = true
          · simp only [hk, if_true, replay, applyEv]
            obtain ⟨o, ho⟩ := handleData_some cfg s.u ty (readAt bs (s.pos + 3) size) hk
            have hpres := handleData_pres _ _ _ _ _ ho
            rw [ho] at hprog
            rw [ho]
            cases o with
            | ok u' =>
              simp only at hprog ⊢
              have h1 := hprog _ rfl
              have h2 := ih ⟨s.pos + 3 + (readAt bs (s.pos + 3) size).length,
                s.cur + 3 + (readAt bs (s.pos + 3) size).length, u'⟩ (by simp at h1 ⊢; omega)
                (by simp at h1; omega)
              have h3 : u'.hasSync = s.u.hasSync := hpres.hasSync
              simp only [h3] at h2
              exact h2
            | err e u' =>
              have h3 : u'.hasSync = s.u.hasSync := hpres.hasSync
              cases e
              case indexError =>
                simp only at hprog ⊢
                have h1 := hprog _ rfl
                have h2 := ih ⟨s.pos + 3 + (readAt bs (s.pos + 3) size).length,
                  s.cur + 3 + (readAt bs (s.pos + 3) size).length,
                  { u' with fileCorrupt := true }⟩ (by simp at h1 ⊢; omega) (by simp at h1; omega)
                rw [← h3]
                exact h2
              case structError => exact Or.inl ⟨_, rfl, rfl⟩
              all_goals exact Or.inr ⟨_, rfl, rfl⟩
          · have hk' : knownData ty = false := by simpa using hk
            have ho := handleData_none cfg s.u ty (readAt bs (s.pos + 3) size) hk'
            rw [ho] at hprog
            rw [ho]
            simp only [hk', Bool.false_eq_true, if_false, replay, applyEv] at hprog ⊢
            have h1 := hprog _ rfl
            have h2 := ih _ (by omega : bs.length < (handleUnknown bs ty size
              ⟨s.pos + 3 + (readAt bs (s.pos + 3) size).length,
                s.cur + 3 + (readAt bs (s.pos + 3) size).length, s.u⟩).pos + fuel) (by omega)
            rw [handleUnknown_eq] at h2 ⊢
            simpa using h2
    · simp only [ne_eq, hh, not_false_eq_true, if_true]
      exact Or.inl ⟨_, rfl, rfl⟩

/-- `_read_file_data` = framing, processing, conversion into datasets -/
theorem readData_eq (cfg : Cfg) (bs : Bytes) (ru pos : Nat) (u : ULog) :
    readData cfg bs ru pos u =
      match replay cfg (scan bs ru (bs.length + 1) pos pos u.hasSync) u with
      | .done u => .ofExcept (finalize u)
      | .raised e => .raised e := by
  unfold readData
  have := dataLoop_eq_replay cfg bs ru (bs.length + 1) ⟨pos, pos, u⟩ (by simp; omega) (by omega)
  rcases this with ⟨s', h1, h2⟩ | ⟨e, h1, h2⟩
  · simp only at h2; simp only [h1, h2]
  · simp only at h2; simp only [h1, h2]

end PyULog
