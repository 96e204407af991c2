import Verif.Lemmas.LoadedFits
import Verif.Lemmas.RoundAll
import Verif.Props.FormatText
import Verif.Props.Names
/-
A loaded log meets most conditions of the round trip (`Writable`): texts were split at the separators,
columns belong to the formats, the flags were accepted.
-/
namespace PyULog
open Spec

/-! ### texts -/

theorem mem_intercalate {c x : Char} {p : Str} {parts : List Str} (hp : p ∈ parts) (hx : x ∈ p) :
    x ∈ List.intercalate [c] parts := by
  induction parts with
  | nil => cases hp
  | cons q qs ih =>
    cases qs with
    | nil => rw [List.mem_singleton] at hp; subst hp; simpa using hx
    | cons r rs =>
      rw [intercalate_cons_cons]
      rcases List.mem_cons.mp hp with rfl | hp
      · simp [hx]
      · simp [ih hp]

/-- `FieldOk` without the condition on the size -/
def FieldShape (f : FieldDef) : Prop :=
  (∀ c ∈ [' ', '[', ';', ':'], c ∉ f.type) ∧ (∀ c ∈ [' ', ';', ':'], c ∉ f.name) ∧ (0 < f.arr → ']' ∉ f.type)

theorem fieldText_shape {s : Str} {f : FieldDef} (h : FieldText s f) (hs : ∀ c ∈ [';', ':'], c ∉ s) : FieldShape f := by
  obtain ⟨parts, t, ⟨_, h1, h2⟩, h3, h4, h5⟩ := h
  have hin : ∀ p ∈ parts, ∀ c ∈ p, c ∈ s := by
    intro p hp c hc
    rw [h1]
    exact mem_intercalate hp hc
  have ht := List.mem_of_getElem? h3
  have hn := List.mem_of_getElem? h4
  have hty : ∀ c ∈ f.type, c ∈ t := by
    intro c hc
    rcases h5 with ⟨_, h6, _⟩ | ⟨size, rest, h6, _⟩
    · rw [← h6]; exact hc
    · rw [h6]; simp [hc]
  refine ⟨?_, ?_, ?_⟩
  · intro c hc hm
    have hm' := hty c hm
    simp only [List.mem_cons, List.not_mem_nil, or_false] at hc
    rcases hc with rfl | rfl | rfl | rfl
    · exact h2 t ht hm'
    · rcases h5 with ⟨h6, h7, _⟩ | ⟨_, _, _, h6, _⟩
      · exact h6 hm'
      · exact h6 hm
    · exact hs ';' (by simp) (hin t ht _ hm')
    · exact hs ':' (by simp) (hin t ht _ hm')
  · intro c hc hm
    simp only [List.mem_cons, List.not_mem_nil, or_false] at hc
    rcases hc with rfl | rfl | rfl
    · exact h2 _ hn hm
    · exact hs ';' (by simp) (hin _ hn _ hm)
    · exact hs ':' (by simp) (hin _ hn _ hm)
  · intro hpos hm
    rcases h5 with ⟨_, _, h7⟩ | ⟨_, _, h6, _, _, h7 | h7⟩
    · omega
    · exact h7.1 hm
    · exact h7.1 (hty _ hm)

theorem formatText_shape {s : Str} {m : MsgFormat} (h : FormatText s m) :
    ':' ∉ m.name ∧ ∀ f ∈ m.fields, FieldShape f := by
  obtain ⟨parts, body, fs, ⟨_, _, h2⟩, h3, h4, ⟨_, h5, h6⟩, h7, h8⟩ := h
  refine ⟨h2 _ (List.mem_of_getElem? h3), fun f hf => ?_⟩
  obtain ⟨i, hi, rfl⟩ := List.mem_iff_getElem.mp hf
  have hi' : i < (fs.filter (· ≠ [])).length := by omega
  have hz : ((fs.filter (· ≠ []))[i], m.fields[i]) ∈ (fs.filter (· ≠ [])).zip m.fields := by
    have hl : i < ((fs.filter (· ≠ [])).zip m.fields).length := by rw [List.length_zip]; omega
    have := List.getElem_mem hl
    rwa [List.getElem_zip] at this
  refine fieldText_shape (h8 _ hz) ?_
  have hmem : (fs.filter (· ≠ []))[i] ∈ fs := (List.mem_filter.mp (List.getElem_mem hi')).1
  intro c hc hm
  simp only [List.mem_cons, List.not_mem_nil, or_false] at hc
  rcases hc with rfl | rfl
  · exact h6 _ hmem hm
  · refine h2 body (List.mem_of_getElem? h4) ?_
    rw [h5]
    exact mem_intercalate hmem hm

theorem parseInfo_plain {ign : Bool} {d : Bytes} {m : InfoMsg} (h : parseInfo ign d = .ok m) :
    Plain m.type ∧ Plain m.key ∧ (WritableType m.type → ValueFits m.type m.value) := by
  unfold parseInfo at h
  obtain ⟨keyLen, _, h⟩ := except_bind_ok.mp h
  obtain ⟨tk, _, h⟩ := except_bind_ok.mp h
  dsimp only at h
  obtain ⟨type, h3, h⟩ := except_bind_ok.mp h
  obtain ⟨key, h4, h⟩ := except_bind_ok.mp h
  obtain ⟨value, h5, h⟩ := except_bind_ok.mp h
  injection h with h
  subst h
  refine ⟨pySplit_parts tk _ (List.mem_of_getElem? (pyIndex_some.mp h3)),
    pySplit_parts tk _ (List.mem_of_getElem? (pyIndex_some.mp h4)), fun hw => ?_⟩
  show ValueFits type value
  have hpc : (py! "char[" <+: type) ↔ startsWith (py! "char[") type = true := List.isPrefixOf_iff_prefix.symm
  unfold parseInfoValue at h5
  by_cases hc : startsWith (py! "char[") type = true
  · rw [if_pos hc] at h5
    obtain ⟨s, _, rfl⟩ := except_map_ok.mp h5
    exact Or.inl ⟨hpc.mpr hc, s, rfl⟩
  · rw [if_neg hc] at h5
    cases ht : BT.ofName type with
    | some t =>
      rw [ht] at h5
      exact Or.inr (Or.inr ⟨t, _, by rw [basicType_eq]; exact ht, h5⟩)
    | none =>
      rw [ht] at h5
      injection h5 with h5
      rcases hw with hw | hw | ⟨t, hw⟩
      · exact absurd (hpc.mp hw) hc
      · exact Or.inr (Or.inl ⟨fun e => hc (hpc.mp e), hw, _, h5.symm⟩)
      · rw [basicType_eq, ht] at hw; cases hw

/-! ### the invariant -/

/-- keys, types and formats as the parsers make them -/
structure ReadPlain (u : ULog) : Prop where
  formats : ∀ p ∈ u.formats, ':' ∉ p.2.name ∧ ∀ f ∈ p.2.fields, FieldShape f
  types : ∀ p ∈ u.infoTypes, Plain p.1 ∧ Plain p.2
  info : ∀ k v, u.info.get? k = some v → ∃ ty, u.infoTypes.get? k = some ty ∧ (WritableType ty → ValueFits ty v)
  multiTypes : ∀ p ∈ u.infoMultiTypes, Plain p.1 ∧ Plain p.2
  multi : ∀ p ∈ u.infoMulti, p.2 ≠ [] ∧ ∀ s ∈ p.2, s ≠ []
  initial : ∀ p ∈ u.initialParams, Plain p.1
  defaults : ∀ p ∈ u.defaultParams, ∀ q ∈ p.2, Plain q.1
  changed : ∀ p ∈ u.changedParams, Plain p.2.1

/-- the attributes of `ReadPlain` -/
def plainOf (u : ULog) :=
  (u.formats, u.infoTypes, u.info, u.infoMultiTypes, u.infoMulti, u.initialParams, u.defaultParams, u.changedParams)

theorem ReadPlain.of_eq {u v : ULog} (h : ReadPlain u) (he : plainOf v = plainOf u) : ReadPlain v := by
  unfold plainOf at he
  injection he with h1 he
  injection he with h2 he
  injection he with h3 he
  injection he with h4 he
  injection he with h5 he
  injection he with h6 he
  injection he with h7 h8
  exact ⟨h1 ▸ h.formats, h2 ▸ h.types, h2 ▸ h3 ▸ h.info, h4 ▸ h.multiTypes, h5 ▸ h.multi, h6 ▸ h.initial,
    h7 ▸ h.defaults, h8 ▸ h.changed⟩

theorem bind_plain {α : Type} {u : ULog} (h : ReadPlain u) {r : Except PyErr α} {f : α → ULog}
    (hf : ∀ a, r = .ok a → ReadPlain (f a)) : ReadPlain (Out.bind r u f).state := by
  cases r with
  | error e => exact h
  | ok a => exact hf a rfl

theorem set_entries {κ α : Type} [DecidableEq κ] {d : Dict κ α} {k : κ} {v : α} {Q : κ × α → Prop} (h : ∀ p ∈ d, Q p)
    (hv : Q (k, v)) : ∀ p ∈ d.set k v, Q p := by
  intro p hp
  rcases mem_set_entry hp with hp | rfl
  · exact h p hp
  · exact hv

theorem addInfo_plain {u : ULog} (h : ReadPlain u) {ign : Bool} {d : Bytes} {m : InfoMsg}
    (hm : parseInfo ign d = .ok m) : ReadPlain (addInfo u m) := by
  obtain ⟨h1, h2, h3⟩ := parseInfo_plain hm
  refine { h with
    types := set_entries (Q := fun p => Plain p.1 ∧ Plain p.2) h.types ⟨h2, h1⟩
    info := ?_ }
  intro k v hk
  have hk : (u.info.set m.key m.value).get? k = some v := hk
  show ∃ ty, (u.infoTypes.set m.key m.type).get? k = some ty ∧ _
  by_cases he : m.key = k
  · subst he
    rw [Dict.get?_set_self] at hk ⊢
    injection hk with hk
    subst hk
    exact ⟨m.type, rfl, h3⟩
  · rw [Dict.get?_set_ne _ _ he] at hk ⊢
    exact h.info k v hk

theorem parseInfoMulti_plain {ign : Bool} {d : Bytes} {m : InfoMsg} (h : parseInfoMulti ign d = .ok m) :
    Plain m.type ∧ Plain m.key := by
  unfold parseInfoMulti at h
  obtain ⟨cont, _, h⟩ := except_bind_ok.mp h
  obtain ⟨m', h1, h⟩ := except_bind_ok.mp h
  injection h with h
  subst h
  exact ⟨(parseInfo_plain h1).1, (parseInfo_plain h1).2.1⟩

theorem parseParamDefault_plain {ign : Bool} {d : Bytes} {m : Nat × InfoMsg} (h : parseParamDefault ign d = .ok m) :
    Plain m.2.key := by
  unfold parseParamDefault at h
  obtain ⟨cont, _, h⟩ := except_bind_ok.mp h
  obtain ⟨m', h1, h⟩ := except_bind_ok.mp h
  injection h with h
  subst h
  exact (parseInfo_plain h1).2.1

theorem addInfoMulti_plain {u : ULog} (h : ReadPlain u) {ign : Bool} {d : Bytes} {m : InfoMsg}
    (hm : parseInfoMulti ign d = .ok m) : ReadPlain (addInfoMulti u m) := by
  obtain ⟨h1, h2⟩ := parseInfoMulti_plain hm
  have hone : [m.value] ≠ [] := List.cons_ne_nil _ _
  unfold addInfoMulti
  split
  · rename_i lists hl
    have hlists := h.multi _ (Dict.mem_of_get? _ _ _ hl)
    split
    · refine { h with multi := set_all (Q := fun l : List (List Value) => l ≠ [] ∧ ∀ s ∈ l, s ≠ []) h.multi ?_ }
      refine ⟨by simp, fun s hs => ?_⟩
      rcases List.mem_append.mp hs with hs | hs
      · exact hlists.2 s (List.dropLast_subset _ hs)
      · rw [List.mem_singleton] at hs
        subst hs
        simp
    · refine { h with multi := set_all (Q := fun l : List (List Value) => l ≠ [] ∧ ∀ s ∈ l, s ≠ []) h.multi ?_ }
      refine ⟨by simp, fun s hs => ?_⟩
      rcases List.mem_append.mp hs with hs | hs
      · exact hlists.2 s hs
      · rw [List.mem_singleton] at hs
        subst hs
        exact hone
  · refine { h with
      multi := set_all (Q := fun l : List (List Value) => l ≠ [] ∧ ∀ s ∈ l, s ≠ []) h.multi ?_
      multiTypes := set_entries (Q := fun p => Plain p.1 ∧ Plain p.2) h.multiTypes ⟨h2, h1⟩ }
    refine ⟨by simp, fun s hs => ?_⟩
    rw [List.mem_singleton] at hs
    subst hs
    exact hone

theorem addDefaultLoop_plain {key : Str} (hk : Plain key) (value : Value) : ∀ (fuel : Nat) (types : BitVec 8)
    (d : Dict Nat (Dict Str Value)), (∀ p ∈ d, ∀ q ∈ p.2, Plain q.1) →
    ∀ p ∈ addDefaultLoop key value fuel types d, ∀ q ∈ p.2, Plain q.1
  | 0, _, d, h => h
  | fuel + 1, types, d, h => by
    rw [addDefaultLoop]
    split
    · exact h
    · generalize (types &&& (~~~types + 1)) = low
      dsimp only
      have hb : ∀ p ∈ (if d.has (low.toNat - 1) then d else d.set (low.toNat - 1) []), ∀ q ∈ p.2, Plain q.1 := by
        split
        · exact h
        · exact set_all (Q := fun (l : Dict Str Value) => ∀ q ∈ l, Plain q.1) h (fun q hq => (List.not_mem_nil hq).elim)
      generalize (if d.has (low.toNat - 1) then d else d.set (low.toNat - 1) []) = d' at hb
      refine addDefaultLoop_plain hk value fuel _ _ ?_
      exact set_all (Q := fun (l : Dict Str Value) => ∀ q ∈ l, Plain q.1) hb
        (set_entries (Q := fun q : Str × Value => Plain q.1)
          (getD_all (Q := fun (l : Dict Str Value) => ∀ q ∈ l, Plain q.1) hb (fun q hq => (List.not_mem_nil hq).elim)) hk)

theorem handleData_plain {cfg : Cfg} {u : ULog} {ty : Nat} {d : Bytes} {o : Out}
    (hu : ReadPlain u) (h : handleData cfg u ty d = some o) : ReadPlain o.state := by
  by_cases hI : ty = tyI
  · subst hI
    rw [show tyI = MSG_TYPE_INFO from rfl, handleData_I] at h
    cases h
    exact bind_plain hu fun m hm => addInfo_plain hu hm
  by_cases hM : ty = tyM
  · subst hM
    rw [show tyM = MSG_TYPE_INFO_MULTIPLE from rfl, handleData_M] at h
    cases h
    exact bind_plain hu fun m hm => addInfoMulti_plain hu hm
  by_cases hQ : ty = tyQ
  · subst hQ
    rw [show tyQ = MSG_TYPE_PARAMETER_DEFAULT from rfl, handleData_Q] at h
    cases h
    exact bind_plain hu fun m hm => { hu with
      defaults := addDefaultLoop_plain (parseParamDefault_plain hm) _ _ _ _ hu.defaults }
  by_cases hp : ty = tyP
  · subst hp
    rw [show tyP = MSG_TYPE_PARAMETER from rfl, handleData_P] at h
    cases h
    refine bind_plain hu fun m hm => { hu with changed := ?_ }
    intro c hc
    rcases List.mem_append.mp hc with hc | hc
    · exact hu.changed c hc
    · rw [List.mem_singleton] at hc
      subst hc
      exact (parseInfo_plain hm).2.1
  exact hu.of_eq (handleData_frame plainOf h (hI := fun e => absurd e hI) (hM := fun e => absurd e hM)
    (hQ := fun e => absurd e hQ) (hP := fun e => absurd e hp))

theorem handleDef_plain {cfg : Cfg} {u : ULog} {ty : Nat} {d : Bytes} {o : Out}
    (hu : ReadPlain u) (h : handleDef cfg u ty d = some o) : ReadPlain o.state := by
  by_cases hI : ty = tyI
  · subst hI
    rw [show tyI = MSG_TYPE_INFO from rfl, handleDef_I] at h
    cases h
    exact bind_plain hu fun m hm => addInfo_plain hu hm
  by_cases hM : ty = tyM
  · subst hM
    rw [show tyM = MSG_TYPE_INFO_MULTIPLE from rfl, handleDef_M] at h
    cases h
    exact bind_plain hu fun m hm => addInfoMulti_plain hu hm
  by_cases hQ : ty = tyQ
  · subst hQ
    rw [show tyQ = MSG_TYPE_PARAMETER_DEFAULT from rfl, handleDef_Q] at h
    cases h
    exact bind_plain hu fun m hm => { hu with
      defaults := addDefaultLoop_plain (parseParamDefault_plain hm) _ _ _ _ hu.defaults }
  by_cases hF : ty = tyF
  · subst hF
    rw [show tyF = MSG_TYPE_FORMAT from rfl, handleDef_F] at h
    cases h
    refine bind_plain hu fun m hm => { hu with formats := ?_ }
    refine set_all (Q := fun m : MsgFormat => ':' ∉ m.name ∧ ∀ f ∈ m.fields, FieldShape f) hu.formats ?_
    obtain ⟨s, _, hs⟩ := (C61_format_text _ _ _).mp hm
    exact formatText_shape hs
  by_cases hp : ty = tyP
  · subst hp
    rw [show tyP = MSG_TYPE_PARAMETER from rfl, handleDef_P] at h
    cases h
    exact bind_plain hu fun m hm => { hu with
      initial := set_entries (Q := fun p : Str × Value => Plain p.1) hu.initial (parseInfo_plain hm).2.1 }
  exact hu.of_eq (handleDef_frame plainOf h (hI := fun e => absurd e hI) (hM := fun e => absurd e hM)
    (hQ := fun e => absurd e hQ) (hP := fun e => absurd e hp) (hF := fun e => absurd e hF))

theorem load_plain {fuel : Nat} {cfg : Cfg} {bs : Bytes} {u : ULog} (h : load fuel cfg bs = .ok u) : ReadPlain u := by
  refine load_inv_all (P := fun _ v => ReadPlain v) (fun t v c hh hp => hp.of_eq rfl) (fun t v d hp => hp.of_eq rfl)
    (fun t v ty d o hp hd => handleDef_plain hp hd) (fun t v ty d o hp hd => handleData_plain hp hd) ?_ h
  intro v hv
  rw [readHeader_init hv]
  exact ⟨fun p hp => (List.not_mem_nil hp).elim, fun p hp => (List.not_mem_nil hp).elim, fun k v hk => (by cases hk),
    fun p hp => (List.not_mem_nil hp).elim, fun p hp => (List.not_mem_nil hp).elim,
    fun p hp => (List.not_mem_nil hp).elim, fun p hp => (List.not_mem_nil hp).elim,
    fun p hp => (List.not_mem_nil hp).elim⟩

/-! ### flags -/

/-- the incompatible flags that the reader accepts -/
def FlagsOk (u : ULog) : Prop := u.incompat.getD 0 0 < 2 ∧ ∀ x ∈ u.incompat.drop 1, x = 0

theorem handleDef_flags {cfg : Cfg} {u v : ULog} {ty : Nat} {d : Bytes} (hu : FlagsOk u)
    (h : handleDef cfg u ty d = some (.ok v)) : FlagsOk v := by
  by_cases hB : ty = tyB
  · subst hB
    rw [show tyB = MSG_TYPE_FLAG_BITS from rfl, handleDef_B] at h
    injection h with h
    cases hp : parseFlagBits d with
    | error e => rw [hp] at h; cases h
    | ok f =>
      rw [hp] at h
      have h : applyFlagBits u f = .ok v := h
      unfold applyFlagBits at h
      dsimp only at h
      split at h
      · cases h
      · split at h
        · cases h
        · rename_i h1 h2
          injection h with h
          subst h
          have h1 : f.2.1.getD 0 0 / 2 = 0 := Decidable.not_not.mp h1
          refine ⟨by show f.2.1.getD 0 0 < 2; omega, fun x hx => ?_⟩
          rw [List.any_eq_true] at h2
          exact Decidable.byContradiction fun hne => h2 ⟨x, hx, decide_eq_true hne⟩
  · have := handleDef_frame (fun u => u.incompat) h (hB := fun e => absurd e hB)
    have e : v.incompat = u.incompat := this
    unfold FlagsOk
    rw [e]
    exact hu

theorem handleDef_flags_err {cfg : Cfg} {u v : ULog} {ty : Nat} {d : Bytes} (hu : FlagsOk u)
    (h : handleDef cfg u ty d = some (.err .indexError v)) : FlagsOk v := by
  by_cases hB : ty = tyB
  · subst hB
    rw [show tyB = MSG_TYPE_FLAG_BITS from rfl, handleDef_B] at h
    injection h with h
    cases hp : parseFlagBits d with
    | error e => rw [hp] at h; injection h with h1 h2; rw [← h2]; exact hu
    | ok f =>
      rw [hp] at h
      have h : applyFlagBits u f = .err .indexError v := h
      unfold applyFlagBits at h
      dsimp only at h
      split at h
      · injection h with h1; cases h1
      · split at h
        · injection h with h1; cases h1
        · cases h
  · have := handleDef_frame (fun u => u.incompat) h (hB := fun e => absurd e hB)
    have e : v.incompat = u.incompat := this
    unfold FlagsOk
    rw [e]
    exact hu

theorem defLoop_flags {cfg : Cfg} {bs : Bytes} : ∀ (n : Nat) (s s' : RS), FlagsOk s.u →
    defLoop cfg bs n s = .done s' → FlagsOk s'.u
  | 0, _, _, _, h => by cases h
  | n + 1, s, s', hs, h => by
    rw [defLoop] at h
    have hstep : ∀ t, defStep cfg bs s = .cont t ∨ defStep cfg bs s = .stop t → FlagsOk t.u := by
      intro t ht
      unfold defStep at ht
      dsimp only at ht
      split at ht
      · rcases ht with ht | ht <;> cases ht; exact hs
      · split at ht
        · rcases ht with ht | ht <;> cases ht
        · split at ht
          · rename_i v hv
            rcases ht with ht | ht <;> cases ht
            exact handleDef_flags hs hv
          · rename_i v hv
            rcases ht with ht | ht <;> cases ht
            exact (handleDef_flags_err hs hv : FlagsOk v)
          · rcases ht with ht | ht <;> cases ht
          · split at ht
            · split at ht <;> rcases ht with ht | ht <;> cases ht
              exact hs
            · split at ht
              · split at ht <;> rcases ht with ht | ht <;> cases ht
                exact hs
              · rcases ht with ht | ht <;> cases ht
                exact hs
    split at h
    · rename_i t ht
      exact defLoop_flags n t s' (hstep t (Or.inl ht)) h
    · rename_i t ht
      cases h
      exact hstep _ (Or.inr ht)
    · cases h

theorem load_flags {fuel : Nat} {cfg : Cfg} {bs : Bytes} {u : ULog} (h : load fuel cfg bs = .ok u) : FlagsOk u := by
  refine load_inv (P := fun _ v => FlagsOk v) (fun t v c hh hp => hp) (fun t v d hp => hp) ?_ ?_ h
  · intro t v ty d o hp hd
    unfold FlagsOk
    rw [(handleData_pres _ _ _ _ _ hd).incompat]
    exact hp
  · intro s hs
    unfold afterDefs at hs
    split at hs
    · cases hs
    · rename_i u0 hh
      split at hs
      · rename_i s' hl
        injection hs with hs
        subst hs
        refine defLoop_flags _ _ _ ?_ hl
        show FlagsOk u0
        rw [readHeader_init hh]
        exact ⟨by show 0 < 2; decide, by show ∀ x ∈ List.replicate 7 0, x = 0; decide⟩
      · cases hs

/-! ### the columns belong to the formats -/

theorem load_states {fuel : Nat} {cfg : Cfg} {bs : Bytes} {u : ULog} (h : load fuel cfg bs = .ok u) :
    ∀ x ∈ (fileTrace fuel cfg bs).flatten, x.1.formats = u.formats := by
  obtain ⟨s, hs⟩ := load_afterDefs h
  have key := load_inv (P := fun t v => v.formats = s.u.formats ∧ ∀ x ∈ t, x.1.formats = s.u.formats)
    (fun t v c hh hp => hp) (fun t v d hp => hp)
    (fun t v ty d o hp hd => ⟨(handleData_pres _ _ _ _ _ hd).formats.trans hp.1, fun x hx => by
      rcases List.mem_append.mp hx with hx | hx
      · exact hp.2 x hx
      · rw [List.mem_singleton.mp hx]; exact hp.1⟩)
    (fun s' hs' => by
      rw [hs] at hs'; cases hs'
      exact ⟨rfl, fun x hx => (List.not_mem_nil hx).elim⟩) h
  intro x hx
  rw [key.1]; exact key.2 x hx

theorem loaded_datasetOk {fuel : Nat} {cfg : Cfg} {bs : Bytes} {u : ULog} (h : load fuel cfg bs = .ok u) {d : Dataset}
    (hd : d ∈ u.dataList) (hnm : ∀ f ∈ d.fields, f.name ≠ []) (ht : ⟨py! "timestamp", .u64⟩ ∈ d.fields) :
    DatasetOk u.formats cfg.depth d := by
  obtain ⟨hfo, -, hnd, n, hn, hrows⟩ := loaded_dataset h hd
  obtain ⟨t, htr, tp, post, hl, hpos, hne, he⟩ := (C06_datasets h d).mp hd
  obtain ⟨k1, ⟨x, hx, k2⟩, k3⟩ := mem_lastSub hl
  have hform := load_states h x (List.mem_flatten.mpr ⟨t, htr, hx⟩)
  unfold subscribed at k2
  split at k2
  · split at k2
    · cases k2
    · split at k2
      · split at k2
        · cases k2
        · rename_i fs idx hp
          split at k2
          · rename_i hok
            injection k2 with k2
            have hrc : rowCount d = n := by
              unfold rowCount
              cases hf : d.fields with
              | nil => rw [hf] at ht; cases ht
              | cons f fs =>
                obtain ⟨m, _, _, hm⟩ := (loaded_data h hd).rows
                have hfm : f ∈ d.fields := by rw [hf]; exact List.mem_cons_self
                obtain ⟨col, h1, _⟩ := hm f hfm (hnm f hfm)
                show ((d.data.get? f.name).getD []).length = n
                rw [h1]
                exact hrows _ (Dict.mem_of_get? _ _ _ h1)
            rw [hform] at hp
            have hcn := columnNames_named hnm
            refine ⟨?_, hnm, hcn ▸ hnd, hfo.trans hcn, by omega, fun c hc => by rw [hrows c hc, hrc], loaded_typed h hd, ht⟩
            · rw [he, ← k2]; exact hp
          · cases k2
      · cases k2
  · cases k2

theorem loaded_writable {fuel : Nat} {cfg : Cfg} {bs : Bytes} {u : ULog} (h : load fuel cfg bs = .ok u)
    (hw : ∀ p ∈ u.infoTypes, WritableType p.2) (hnm : ∀ d ∈ u.dataList, ∀ f ∈ d.fields, f.name ≠ []) (hc : ComesBack u) :
    Writable cfg.depth u := by
  have hp := load_plain h
  have ha := load_aligned h
  have hd := load_dicts h
  exact {
    flags := load_flags h
    formats := fun p hm => ⟨(ha.formats p hm).symm, (hp.formats p hm).1, fun f hf =>
      have k := (hp.formats p hm).2 f hf
      ⟨k.1, k.2.1, hc.arrays p hm f hf, k.2.2⟩⟩
    formats_nodup := hd.formats
    info := ha.infoTypes
    info_nodup := hd.info
    info_ok := by
      intro p hm ty hty
      obtain ⟨ty', h1, h2⟩ := hp.info p.1 p.2 (Dict.get?_of_mem _ _ _ hd.info hm)
      have h3 := Dict.get?_of_mem _ _ _ hd.infoTypes hty
      rw [h1] at h3
      injection h3 with h3
      subst h3
      exact ⟨(hp.types _ hty).1, (hp.types _ hty).2, h2 (hw _ hty)⟩
    multi := ha.multiTypes
    multi_nodup := hd.infoMulti
    multi_ok := by
      intro p hm ty hty
      have h1 := Dict.get?_of_mem _ _ _ hd.infoMulti hm
      exact ⟨(hp.multiTypes _ hty).1, (hp.multiTypes _ hty).2, (hp.multi p hm).1, fun s hs =>
        ⟨(hp.multi p hm).2 s hs, hc.multi _ hty _ h1 s hs⟩⟩
    initial_nodup := hd.initial
    initial := fun p hm => ⟨hp.initial p hm, hc.initial p hm⟩
    defaults_nodup := hd.defaults
    defaults := fun p hm => ⟨(hc.defaults p hm).1, ha.default p hm, hd.default p hm, fun q hq =>
      ⟨hp.defaults p hm q hq, (hc.defaults p hm).2 q hq⟩⟩
    changed := fun p hm => ⟨hp.changed p hm, hc.changed p hm⟩
    ids := hc.ids
    data := fun d hm => loaded_datasetOk h hm (hnm d hm) (hc.times d hm)
    order := by
      have h1 := (C07_data_list h).2
      have h2 : u.dataList.Pairwise fun a b => ¬ (a.name = b.name ∧ a.multiId = b.multiId) := by
        have := hc.instances
        rw [List.Nodup, List.pairwise_map] at this
        exact this.imp fun hne e => hne (by rw [e.1, e.2])
      exact h1.and h2
    starts := hc.starts }

theorem loaded_integerTimes {fuel : Nat} {cfg : Cfg} {bs : Bytes} {u : ULog} (h : load fuel cfg bs = .ok u)
    (ht : ∀ d ∈ u.dataList, ⟨py! "timestamp", .u64⟩ ∈ d.fields) : IntegerTimes u := by
  intro d hd col hcol v hv
  have := loaded_typed h hd _ (ht d hd) col hcol v hv
  obtain ⟨b, _, rfl⟩ := this
  exact ⟨_, rfl⟩

end PyULog
