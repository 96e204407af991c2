import Verif.Lemmas.Scan
/-
Which exceptions the parsers can raise.
-/
namespace PyULog

theorem except_bind_error {x : Except PyErr α} {f : α → Except PyErr β} {e : PyErr} :
    (x >>= f) = .error e ↔ x = .error e ∨ ∃ a, x = .ok a ∧ f a = .error e := by
  cases x <;> simp [bind, Except.bind]

theorem except_bind_ok {x : Except PyErr α} {f : α → Except PyErr β} {b : β} :
    (x >>= f) = .ok b ↔ ∃ a, x = .ok a ∧ f a = .ok b := by
  cases x <;> simp [bind, Except.bind]

theorem except_map_error {x : Except PyErr α} {f : α → β} {e : PyErr} :
    x.map f = .error e ↔ x = .error e := by
  cases x <;> simp [Except.map]

theorem except_map_ok {x : Except PyErr α} {f : α → β} {b : β} :
    x.map f = .ok b ↔ ∃ a, x = .ok a ∧ f a = b := by
  cases x <;> simp [Except.map]

/-- exceptions that parsing a single message can raise -/
def ParseErr (e : PyErr) : Prop :=
  e = .indexError ∨ e = .structError ∨ e = .keyError ∨ e = .valueError ∨ e = .unicodeError ∨
  e = .recursionError

theorem pe_struct : ParseErr .structError := by simp [ParseErr]

theorem decStrictF_err (n : Nat) (b : Bytes) (e : PyErr) (h : decStrictF n b = .error e) :
    e = .unicodeError := by
  induction n generalizing b with
  | zero => simp [decStrictF] at h
  | succ n ih =>
    cases b with
    | nil => simp [decStrictF] at h
    | cons x xs =>
      simp only [decStrictF] at h
      split at h
      · exact ih _ (except_map_error.mp h)
      · cases h; rfl

theorem parseString_err {ign : Bool} {b : Bytes} {e : PyErr} (h : parseString ign b = .error e) :
    e = .unicodeError ∧ ign = false := by
  unfold parseString at h
  cases ign
  · simp at h; exact ⟨decStrictF_err _ _ _ h, rfl⟩
  · simp at h

theorem pyIndex_err {l : List α} {i : Nat} {e : PyErr} (h : pyIndex l i = .error e) :
    e = .indexError := by
  unfold pyIndex at h
  split at h
  · cases h
  · cases h; rfl

theorem unpackScalar_err {t : BT} {b : Bytes} {e : PyErr} (h : unpackScalar t b = .error e) :
    e = .structError ∧ b.length ≠ t.size := by
  unfold unpackScalar at h
  split at h
  · cases h; exact ⟨rfl, ‹_›⟩
  · cases t <;> cases h

theorem parseInfoValue_err {ign : Bool} {t : Str} {b : Bytes} {e : PyErr}
    (h : parseInfoValue ign t b = .error e) : (e = .unicodeError ∧ ign = false) ∨ e = .structError := by
  unfold parseInfoValue at h
  split at h
  · exact Or.inl <| parseString_err (except_map_error.mp h)
  · split at h
    · exact Or.inr (unpackScalar_err h).1
    · cases h

theorem parseInfo_err {ign : Bool} {b : Bytes} {e : PyErr} (h : parseInfo ign b = .error e) :
    e = .indexError ∨ e = .structError ∨ (e = .unicodeError ∧ ign = false) := by
  unfold parseInfo at h
  rcases except_bind_error.mp h with h | ⟨_, _, h⟩
  · exact Or.inr (Or.inl (unpackU_eq_error h).2)
  rcases except_bind_error.mp h with h | ⟨_, _, h⟩
  · exact Or.inr (Or.inr (parseString_err h))
  rcases except_bind_error.mp h with h | ⟨_, _, h⟩
  · exact Or.inl (pyIndex_err h)
  rcases except_bind_error.mp h with h | ⟨_, _, h⟩
  · exact Or.inl (pyIndex_err h)
  rcases except_bind_error.mp h with h | ⟨_, _, h⟩
  · rcases parseInfoValue_err h with h | h
    · exact Or.inr (Or.inr h)
    · exact Or.inr (Or.inl h)
  · cases h

theorem parseInfoMulti_err {ign : Bool} {b : Bytes} {e : PyErr}
    (h : parseInfoMulti ign b = .error e) :
    e = .indexError ∨ e = .structError ∨ (e = .unicodeError ∧ ign = false) := by
  unfold parseInfoMulti at h
  rcases except_bind_error.mp h with h | ⟨_, _, h⟩
  · exact Or.inr (Or.inl (unpackU_eq_error h).2)
  rcases except_bind_error.mp h with h | ⟨_, _, h⟩
  · exact parseInfo_err h
  · cases h

theorem parseParamDefault_err {ign : Bool} {b : Bytes} {e : PyErr}
    (h : parseParamDefault ign b = .error e) :
    e = .indexError ∨ e = .structError ∨ (e = .unicodeError ∧ ign = false) := by
  unfold parseParamDefault at h
  rcases except_bind_error.mp h with h | ⟨_, _, h⟩
  · exact Or.inr (Or.inl (unpackU_eq_error h).2)
  rcases except_bind_error.mp h with h | ⟨_, _, h⟩
  · exact parseInfo_err h
  · cases h

theorem parseLogging_err {ign : Bool} {b : Bytes} {e : PyErr}
    (h : parseLogging ign b = .error e) : e = .structError ∨ (e = .unicodeError ∧ ign = false) := by
  unfold parseLogging at h
  rcases except_bind_error.mp h with h | ⟨_, _, h⟩
  · exact Or.inl (unpackU_eq_error h).2
  rcases except_bind_error.mp h with h | ⟨_, _, h⟩
  · exact Or.inl (unpackU_eq_error h).2
  rcases except_bind_error.mp h with h | ⟨_, _, h⟩
  · exact Or.inr (parseString_err h)
  · cases h

theorem parseLoggingTagged_err {ign : Bool} {b : Bytes} {e : PyErr}
    (h : parseLoggingTagged ign b = .error e) : e = .structError ∨ (e = .unicodeError ∧ ign = false) := by
  unfold parseLoggingTagged at h
  rcases except_bind_error.mp h with h | ⟨_, _, h⟩
  · exact Or.inl (unpackU_eq_error h).2
  rcases except_bind_error.mp h with h | ⟨_, _, h⟩
  · exact Or.inl (unpackU_eq_error h).2
  rcases except_bind_error.mp h with h | ⟨_, _, h⟩
  · exact Or.inl (unpackU_eq_error h).2
  rcases except_bind_error.mp h with h | ⟨_, _, h⟩
  · exact Or.inr (parseString_err h)
  · cases h

theorem parseDropout_err {b : Bytes} {ts : Nat} {e : PyErr}
    (h : parseDropout b ts = .error e) : e = .structError := by
  unfold parseDropout at h
  rcases except_bind_error.mp h with h | ⟨_, _, h⟩
  · exact (unpackU_eq_error h).2
  · cases h

theorem pyInt_err {s : Str} {e : PyErr} (h : pyInt s = .error e) : e = .valueError := by
  unfold pyInt at h
  simp only at h
  split at h <;> split at h <;> cases h <;> rfl

theorem extractType_err {s : Str} {e : PyErr} (h : extractType s = .error e) :
    e = .indexError ∨ e = .valueError := by
  unfold extractType at h
  rcases except_bind_error.mp h with h | ⟨_, _, h⟩
  · exact Or.inl (pyIndex_err h)
  rcases except_bind_error.mp h with h | ⟨_, _, h⟩
  · exact Or.inl (pyIndex_err h)
  split at h
  · cases h
  · rcases except_bind_error.mp h with h | ⟨_, _, h⟩
    · exact Or.inr (pyInt_err h)
    · cases h

theorem mapM_err {f : α → Except PyErr β} {P : PyErr → Prop} (hf : ∀ a e, f a = .error e → P e)
    (l : List α) (e : PyErr) (h : l.mapM f = .error e) : P e := by
  induction l with
  | nil => simp [List.mapM_nil, pure, Except.pure] at h
  | cons x xs ih =>
    rw [List.mapM_cons] at h
    rcases except_bind_error.mp h with h | ⟨_, _, h⟩
    · exact hf _ _ h
    rcases except_bind_error.mp h with h | ⟨_, _, h⟩
    · exact ih h
    · cases h

theorem foldlM_err {f : β → α → Except PyErr β} {P : PyErr → Prop}
    (hf : ∀ b a e, f b a = .error e → P e)
    (l : List α) (b : β) (e : PyErr) (h : l.foldlM f b = .error e) : P e := by
  induction l generalizing b with
  | nil => simp [pure, Except.pure] at h
  | cons x xs ih =>
    rw [List.foldlM_cons] at h
    rcases except_bind_error.mp h with h | ⟨_, _, h⟩
    · exact hf _ _ _ h
    · exact ih _ h

theorem parseFormat_err {ign : Bool} {b : Bytes} {e : PyErr}
    (h : parseFormat ign b = .error e) :
    e = .indexError ∨ e = .valueError ∨ (e = .unicodeError ∧ ign = false) := by
  unfold parseFormat at h
  rcases except_bind_error.mp h with h | ⟨_, _, h⟩
  · exact Or.inr (Or.inr (parseString_err h))
  rcases except_bind_error.mp h with h | ⟨_, _, h⟩
  · exact Or.inl (pyIndex_err h)
  rcases except_bind_error.mp h with h | ⟨_, _, h⟩
  · exact Or.inl (pyIndex_err h)
  rcases except_bind_error.mp h with h | ⟨_, _, h⟩
  · exact mapM_err (P := fun e => e = .indexError ∨ e = .valueError ∨ (e = .unicodeError ∧ ign = false))
      (fun a e h => (extractType_err h).imp id Or.inl) _ _ h
  · cases h

theorem nest_err {formats : Dict Str MsgFormat} {depth : Nat} {p t : Str} {acc : NestAcc}
    {e : PyErr} (h : nest formats depth p t acc = .error e) :
    e = .recursionError ∨ e = .keyError := by
  induction depth generalizing p t acc e with
  | zero => simp [nest] at h; exact Or.inl h.symm
  | succ depth ih =>
    simp only [nest] at h
    split at h
    · cases h; exact Or.inr rfl
    · refine foldlM_err (P := fun e => e = .recursionError ∨ e = .keyError) ?_ _ _ _ h
      intro acc f e h
      split at h
      · cases h
      · split at h
        · refine foldlM_err (P := fun e => e = .recursionError ∨ e = .keyError) ?_ _ _ _ h
          intro acc i e h
          exact ih h
        · exact ih h

theorem parseAddLogged_err {ign : Bool} {fm : Dict Str MsgFormat} {depth : Nat} {b : Bytes}
    {e : PyErr} (h : parseAddLogged ign fm depth b = .error e) :
    e = .structError ∨ (e = .unicodeError ∧ ign = false) ∨ e = .recursionError ∨ e = .keyError ∨
      e = .valueError := by
  unfold parseAddLogged at h
  rcases except_bind_error.mp h with h | ⟨_, _, h⟩
  · exact Or.inl (unpackU_eq_error h).2
  rcases except_bind_error.mp h with h | ⟨_, _, h⟩
  · exact Or.inl (unpackU_eq_error h).2
  rcases except_bind_error.mp h with h | ⟨_, _, h⟩
  · exact Or.inr (Or.inl (parseString_err h))
  rcases except_bind_error.mp h with h | ⟨⟨fs, ti⟩, _, h⟩
  · unfold parseFields at h
    rcases except_bind_error.mp h with h | ⟨_, _, h⟩
    · rcases nest_err h with h | h <;> simp [h]
    · cases h
  · simp only at h
    split at h
    · cases h; simp
    · cases h

theorem addData_err {u u' : ULog} {d : Bytes} {e : PyErr} (h : addData u d = .err e u') :
    e = .structError := by
  unfold addData at h
  cases h1 : unpackU 2 (d.take 2) with
  | error e' => rw [h1] at h; cases h; exact (unpackU_eq_error h1).2
  | ok id =>
    rw [h1] at h
    simp only at h
    cases h2 : u.subs.get? id with
    | none => rw [h2] at h; simp only at h; split at h <;> cases h
    | some s =>
      rw [h2] at h
      simp only at h
      split at h
      · cases h
      · cases h3 : unpackU 8 (slice (s.tsOff + 2) (s.tsOff + 10)
            (if d.length - 2 > s.itemSize then d.take (2 + s.itemSize) else d)) with
        | error e' => rw [h3] at h; cases h; exact (unpackU_eq_error h3).2
        | ok ts => rw [h3] at h; cases h

theorem handleData_err {cfg : Cfg} {u u' : ULog} {ty : Nat} {d : Bytes} {e : PyErr}
    (h : handleData cfg u ty d = some (.err e u')) :
    e = .indexError ∨ e = .structError ∨ (e = .unicodeError ∧ cfg.ign = false) ∨ e = .recursionError ∨
      e = .keyError ∨ e = .valueError := by
  by_cases hk : knownData ty = true
  · rcases known_cases hk with hk | hk | hk | hk | hk | hk | hk | hk | hk | hk <;> subst hk
    · rw [handleData_I] at h; injection h with h
      rcases parseInfo_err (Out.bind_eq_err.mp h).1 with h | h | h <;> simp [h]
    · rw [handleData_M] at h; injection h with h
      rcases parseInfoMulti_err (Out.bind_eq_err.mp h).1 with h | h | h <;> simp [h]
    · rw [handleData_P] at h; injection h with h
      rcases parseInfo_err (Out.bind_eq_err.mp h).1 with h | h | h <;> simp [h]
    · rw [handleData_Q] at h; injection h with h
      rcases parseParamDefault_err (Out.bind_eq_err.mp h).1 with h | h | h <;> simp [h]
    · rw [handleData_A] at h; injection h with h
      rcases parseAddLogged_err (Out.bind_eq_err.mp h).1 with h | h | h | h | h | h <;> simp [h]
    · rw [handleData_L] at h; injection h with h
      rcases parseLogging_err (Out.bind_eq_err.mp h).1 with h | h <;> simp [h]
    · rw [handleData_C] at h; injection h with h
      rcases parseLoggingTagged_err (Out.bind_eq_err.mp h).1 with h | h <;> simp [h]
    · rw [handleData_D] at h; injection h with h
      simp [addData_err h]
    · rw [handleData_O] at h; injection h with h
      simp [parseDropout_err (Out.bind_eq_err.mp h).1]
    · rw [handleData_S] at h; injection h with h; cases h
  · rw [handleData_none _ _ _ _ (by simpa using hk)] at h; cases h

end PyULog
