import Verif.Lemmas.LoadError
import Verif.Props.Header
/-
The exception of a failing load names the reason (C91).
-/
namespace PyULog
open Spec

theorem info_nil {ign : Bool} {e : PyErr} (h : KeyObstacle ign [] e) : e = .structError := by
  have h := info_iff.mpr h
  cases h
  rfl

theorem bind_err_iff {r : Except PyErr α} {u : ULog} {f : α → ULog} {e : PyErr} :
    (∃ v', some (Out.bind r u f) = some (.err e v')) ↔ r = .error e := by
  constructor
  · rintro ⟨v', h⟩
    injection h with h
    exact (Out.bind_eq_err.mp h).1
  · rintro rfl
    exact ⟨u, rfl⟩

/-- **C91** (definitions): a definition message raises `e` exactly when it has the obstacle that is
named by `e`. -/
theorem C91_definition (cfg : Cfg) (v : ULog) (ty : Nat) (d : Bytes) (e : PyErr) :
    (∃ v', handleDef cfg v ty d = some (.err e v')) ↔ DefObstacle cfg d ty e := by
  by_cases hk : knownDef ty = true
  · rcases knownDef_cases hk with hk | hk | hk | hk | hk | hk <;> subst hk
    · rw [handleDef_I, bind_err_iff, info_iff]
      exact ⟨.info, fun h => by generalize hT : MSG_TYPE_INFO = T at h; cases h <;> first | assumption | cases hT⟩
    · rw [handleDef_M, bind_err_iff, multi_iff]
      constructor
      · rintro (⟨h, rfl⟩ | ⟨_, h⟩)
        · exact .multiEmpty h
        · exact .multi h
      · intro h
        generalize hT : MSG_TYPE_INFO_MULTIPLE = T at h
        cases h with
        | multiEmpty h => exact Or.inl ⟨h, rfl⟩
        | multi h =>
          by_cases hd : d = []
          · subst hd; exact Or.inl ⟨rfl, info_nil h⟩
          · exact Or.inr ⟨hd, h⟩
        | _ => cases hT
    · rw [handleDef_F, bind_err_iff, format_iff]
      exact ⟨.format, fun h => by generalize hT : MSG_TYPE_FORMAT = T at h; cases h <;> first | assumption | cases hT⟩
    · rw [handleDef_P, bind_err_iff, info_iff]
      exact ⟨.param, fun h => by generalize hT : MSG_TYPE_PARAMETER = T at h; cases h <;> first | assumption | cases hT⟩
    · rw [handleDef_Q, bind_err_iff, default_iff]
      constructor
      · rintro (⟨h, rfl⟩ | ⟨_, h⟩)
        · exact .defaultEmpty h
        · exact .default h
      · intro h
        generalize hT : MSG_TYPE_PARAMETER_DEFAULT = T at h
        cases h with
        | defaultEmpty h => exact Or.inl ⟨h, rfl⟩
        | default h =>
          by_cases hd : d = []
          · subst hd; exact Or.inl ⟨rfl, info_nil h⟩
          · exact Or.inr ⟨hd, h⟩
        | _ => cases hT
    · rw [handleDef_B]
      cases hp : parseFlagBits d with
      | error e' =>
        obtain ⟨rfl, hl⟩ := flagBits_err hp
        constructor
        · rintro ⟨v', h⟩
          cases h
          exact .flags hl
        · intro h
          generalize hT : MSG_TYPE_FLAG_BITS = T at h
          cases h with
          | flags => exact ⟨v, rfl⟩
          | incompatible h => omega
          | unknownFlag h => omega
          | _ => cases hT
      | ok f =>
        obtain ⟨hl, hf⟩ := flagBits_ok hp
        simp only
        unfold applyFlagBits
        simp only [hf, flags_first hl]
        constructor
        · rintro ⟨v', h⟩
          injection h with h
          split at h
          · cases h
            exact .incompatible hl (by omega)
          · split at h
            · rename_i h1 h2
              cases h
              obtain ⟨i, h3, h4, h5⟩ := (flags_any hl).mp h2
              exact .unknownFlag hl (by omega) h3 h4 h5
            · cases h
        · intro h
          generalize hT : MSG_TYPE_FLAG_BITS = T at h
          cases h with
          | flags h => omega
          | incompatible _ h => exact ⟨_, by rw [if_pos (by omega)]⟩
          | unknownFlag _ h h1 h2 h3 =>
            exact ⟨_, by rw [if_neg (by omega), if_pos ((flags_any hl).mpr ⟨_, h1, h2, h3⟩)]⟩
          | _ => cases hT
  · rw [handleDef_none _ _ _ _ (by simpa using hk)]
    refine ⟨fun ⟨_, h⟩ => (by cases h), fun h => ?_⟩
    exfalso
    cases h <;> exact hk rfl

/-- **C91** (data): a message of the data section that raises `e` has the obstacle that is named by `e`. -/
theorem C91_message {cfg : Cfg} {v v' : ULog} {ty : Nat} {d : Bytes} {e : PyErr}
    (h : handleData cfg v ty d = some (.err e v')) : DataObstacle cfg v d ty e := by
  by_cases hk : knownData ty = true
  · rcases known_cases hk with hk | hk | hk | hk | hk | hk | hk | hk | hk | hk <;> subst hk
    · rw [handleData_I] at h
      exact .info (info_iff.mp (bind_err_iff.mp ⟨_, h⟩))
    · rw [handleData_M] at h
      rcases multi_iff.mp (bind_err_iff.mp ⟨_, h⟩) with ⟨hd, rfl⟩ | ⟨_, h⟩
      · exact .multiEmpty hd
      · exact .multi h
    · rw [handleData_P] at h
      exact .param (info_iff.mp (bind_err_iff.mp ⟨_, h⟩))
    · rw [handleData_Q] at h
      rcases default_iff.mp (bind_err_iff.mp ⟨_, h⟩) with ⟨hd, rfl⟩ | ⟨_, h⟩
      · exact .defaultEmpty hd
      · exact .default h
    · rw [handleData_A] at h
      exact .sub (sub_obstacle (bind_err_iff.mp ⟨_, h⟩))
    · rw [handleData_L] at h
      rcases logging_err (bind_err_iff.mp ⟨_, h⟩) with ⟨rfl, hl⟩ | ⟨rfl, h1, h2⟩
      · exact .loggedShort hl
      · exact .logged h1 h2
    · rw [handleData_C] at h
      rcases tagged_err (bind_err_iff.mp ⟨_, h⟩) with ⟨rfl, hl⟩ | ⟨rfl, h1, h2⟩
      · exact .taggedShort hl
      · exact .tagged h1 h2
    · rw [handleData_D] at h
      injection h with h
      cases addData_err h
      rcases sample_iff.mp ⟨_, _, h⟩ with h | ⟨s, h1, h2, h3, h4⟩
      · exact .sampleShort h
      · exact .sample h1 h2 h3 h4
    · rw [handleData_O] at h
      obtain ⟨rfl, hl⟩ := dropout_err (bind_err_iff.mp ⟨_, h⟩)
      exact .dropout hl
    · rw [handleData_S] at h
      cases h
  · rw [handleData_none _ _ _ _ (by simpa using hk)] at h
    cases h

/-- **C91** (data): every obstacle makes the message raise the exception that it names, except that one of `KeyError` and
`RecursionError` is raised when a topic has a type that is not defined and a nesting that is too deep. -/
theorem C91_message_exact {cfg : Cfg} {v : ULog} {ty : Nat} {d : Bytes} {e : PyErr} (h : DataObstacle cfg v d ty e) :
    ∃ e' v', handleData cfg v ty d = some (.err e' v') ∧
      (e' = e ∨ (e ∈ [.keyError, .recursionError] ∧ e' ∈ [.keyError, .recursionError])) := by
  have one : ∀ e, (∃ v', handleData cfg v ty d = some (.err e v')) → ∃ e' v', handleData cfg v ty d = some (.err e' v') ∧
      (e' = e ∨ (e ∈ [.keyError, .recursionError] ∧ e' ∈ [.keyError, .recursionError])) :=
    fun e ⟨v', h⟩ => ⟨e, v', h, Or.inl rfl⟩
  have drop1 : ∀ {e}, KeyObstacle cfg.ign (d.drop 1) e → (d = [] ∧ e = .structError) ∨ (d ≠ [] ∧ KeyObstacle cfg.ign (d.drop 1) e) := by
    intro e h
    by_cases hd : d = []
    · subst hd; exact Or.inl ⟨rfl, info_nil h⟩
    · exact Or.inr ⟨hd, h⟩
  cases h with
  | info h => exact one _ (bind_err_iff.mpr (info_iff.mpr h))
  | param h => exact one _ (bind_err_iff.mpr (info_iff.mpr h))
  | multiEmpty h => exact one _ (bind_err_iff.mpr (multi_iff.mpr (Or.inl ⟨h, rfl⟩)))
  | multi h => exact one _ (bind_err_iff.mpr (multi_iff.mpr (drop1 h)))
  | defaultEmpty h => exact one _ (bind_err_iff.mpr (default_iff.mpr (Or.inl ⟨h, rfl⟩)))
  | default h => exact one _ (bind_err_iff.mpr (default_iff.mpr (drop1 h)))
  | sub h =>
    obtain ⟨e', h1, h2⟩ := sub_raises h
    obtain ⟨v', hv⟩ := (bind_err_iff (u := v) (f := addSub cfg.filter v)).mpr h1
    exact ⟨e', v', hv, h2⟩
  | loggedShort h =>
    refine one _ (bind_err_iff.mpr ?_)
    cases hp : parseLogging cfg.ign d with
    | ok m => have := (logging_free hp).1; omega
    | error e' =>
      rcases logging_err hp with ⟨rfl, _⟩ | ⟨_, _, hn⟩
      · rfl
      · exact absurd (List.drop_eq_nil_iff.mpr (by omega)) (noText_ne hn)
  | logged hi hn =>
    refine one _ (bind_err_iff.mpr ?_)
    cases hp : parseLogging cfg.ign d with
    | ok m => exact absurd ⟨hi, hn⟩ (logging_free hp).2
    | error e' =>
      rcases logging_err hp with ⟨_, hl⟩ | ⟨rfl, _, _⟩
      · exact absurd (List.drop_eq_nil_iff.mpr (by omega)) (noText_ne hn)
      · rfl
  | taggedShort h =>
    refine one _ (bind_err_iff.mpr ?_)
    cases hp : parseLoggingTagged cfg.ign d with
    | ok m => have := (tagged_free hp).1; omega
    | error e' =>
      rcases tagged_err hp with ⟨rfl, _⟩ | ⟨_, _, hn⟩
      · rfl
      · exact absurd (List.drop_eq_nil_iff.mpr (by omega)) (noText_ne hn)
  | tagged hi hn =>
    refine one _ (bind_err_iff.mpr ?_)
    cases hp : parseLoggingTagged cfg.ign d with
    | ok m => exact absurd ⟨hi, hn⟩ (tagged_free hp).2
    | error e' =>
      rcases tagged_err hp with ⟨_, hl⟩ | ⟨rfl, _, _⟩
      · exact absurd (List.drop_eq_nil_iff.mpr (by omega)) (noText_ne hn)
      · rfl
  | dropout h =>
    refine one _ (bind_err_iff.mpr ?_)
    cases hp : parseDropout d v.lastTs with
    | ok m => exact absurd (dropout_free hp) h
    | error e' => rw [(dropout_err hp).1]
  | sampleShort h =>
    obtain ⟨e', v', hv⟩ := sample_iff.mpr (Or.inl h)
    cases addData_err hv
    exact one _ ⟨v', by rw [← hv]; rfl⟩
  | sample h1 h2 h3 h4 =>
    obtain ⟨e', v', hv⟩ := sample_iff.mpr (Or.inr ⟨_, h1, h2, h3, h4⟩)
    cases addData_err hv
    exact one _ ⟨v', by rw [← hv]; rfl⟩

/-- the last message of a section of a load raised nothing but `IndexError` and `struct.error`, when `e` is none of both -/
theorem data_only {cfg : Cfg} {v : ULog} {ty : Nat} {d : Bytes} {e : PyErr} (ho : DataObstacle cfg v d ty e)
    (h1 : e ≠ .indexError) (h2 : e ≠ .structError) :
    ∃ e' v', handleData cfg v ty d = some (.err e' v') ∧ e' ≠ .indexError ∧ e' ≠ .structError := by
  obtain ⟨e', v', h, h3⟩ := C91_message_exact ho
  refine ⟨e', v', h, ?_, ?_⟩ <;> rintro rfl <;> rcases h3 with h3 | ⟨_, h3⟩
  · exact h1 h3.symm
  · simp at h3
  · exact h2 h3.symm
  · simp at h3

theorem appended_if {u : ULog} {off : Nat} (h : off ∈ (if hasDataAppended u then u.appendedOffsets else [])) :
    (u.incompat.getD 0 0) % 2 = 1 ∧ off ∈ u.appendedOffsets := by
  split at h
  · rename_i hb
    exact ⟨by simpa [hasDataAppended] using hb, h⟩
  · cases h

/-- **C91.** A load that raises `e` has the obstacle that is named by `e`: the header, the last definition message that
was processed, the end of the file within the header of a definition message, a position before the start of the file,
the last message of the data section that was processed, or the position of an appended section. -/
theorem C91_load {fuel : Nat} {cfg : Cfg} {bs : Bytes} {e : PyErr} (h : load fuel cfg bs = .raised e) :
    LoadObstacle fuel cfg bs e := by
  rw [load_eq] at h
  split at h
  · rename_i e' hh
    cases h
    obtain ⟨h1, rfl⟩ := (readHeader_err_iff bs e).mp hh
    exact .header h1
  · rename_i u0 hh
    have htr : defTrace fuel cfg bs = defsTrace cfg bs fuel { pos := 16, cur := 16, u := u0 } := by
      unfold defTrace
      rw [hh]
    split at h
    · rename_i e' hl
      cases h
      rcases defLoop_raised (.start hh) hl with ⟨pre, v, ty, d, v', h1, h2, h3⟩ | ⟨s', h1, ⟨rfl, h2, h3⟩ | ⟨rfl, h2⟩⟩
      · exact .definition (htr.trans h1) ((C91_definition cfg v ty d e).mp ⟨v', h2⟩) h3
      · exact .tail h1 h2 h3
      · exact .seek h1 h2
    · cases h
    · rename_i s hl
      have haf : afterDefs fuel cfg bs = some s := by
        unfold afterDefs
        rw [hh]
        simp only [hl]
      split at h
      · cases h
      · rename_i ho
        have hsub : s.u.subs = [] := by
          rw [(defLoop_presD hl).subs, readHeader_init hh]
        have hft : fileTrace fuel cfg bs = sectionsTrace cfg bs
            (if hasDataAppended s.u then s.u.appendedOffsets else []) s.pos s.u := by
          unfold fileTrace
          rw [haf]
          simp only
          rw [if_neg ho]
        rcases readSections_raised hsub h with ⟨secs, pre, v, ty, d, v', h1, h2, h3, h4⟩ | ⟨rfl, off, h1, h2⟩
        · exact .data (hft.trans h1) (C91_message h2) h3 h4
        · obtain ⟨h3, h4⟩ := appended_if h1
          exact .offset haf (by simpa using ho) h3 h4 h2

/-- **C91** (exactness): a load that succeeds has none of these obstacles. -/
theorem C91_load_exact {fuel : Nat} {cfg : Cfg} {bs : Bytes} {u : ULog} (h : load fuel cfg bs = .ok u) (e : PyErr) :
    ¬ LoadObstacle fuel cfg bs e := by
  rw [load_eq] at h
  split at h
  · cases h
  · rename_i u0 hh
    split at h
    · cases h
    · cases h
    · rename_i s hl
      have htr : defTrace fuel cfg bs = defsTrace cfg bs fuel { pos := 16, cur := 16, u := u0 } := by
        unfold defTrace
        rw [hh]
      have haf : afterDefs fuel cfg bs = some s := by
        unfold afterDefs
        rw [hh]
        simp only [hl]
      have hstep : ∀ {s1 : RS} {e : PyErr}, DefReach cfg bs s1 → defStep cfg bs s1 ≠ .raise e := by
        intro s1 e hr he
        obtain ⟨n, hn⟩ := defReach_done hh hl hr
        cases n with
        | zero => cases hn
        | succ n => simp only [defLoop, he] at hn; cases hn
      have hsec : ∀ sec ∈ fileTrace fuel cfg bs, ∀ x ∈ sec, ∀ e v',
          handleData cfg x.1 x.2.1 x.2.2 = some (.err e v') → e = .indexError ∨ e = .structError := by
        unfold fileTrace
        rw [haf]
        simp only
        split at h
        · rename_i ho
          rw [if_pos ho]
          intro sec hs
          cases hs
        · rename_i ho
          rw [if_neg ho]
          exact (readSections_ok h).1
      intro ho
      cases ho with
      | header hn => exact hn ((readHeader_ok_iff bs u0).mp hh).1
      | @definition pre v ty d e ht hd hne =>
        obtain ⟨v', hv⟩ := (C91_definition cfg v ty d e).mpr hd
        rw [htr] at ht
        exact hne (defLoop_done hl (v, ty, d) (by rw [ht]; simp) _ _ hv)
      | @tail s1 hr h1 h2 =>
        rcases defStep_msg cfg bs s1 with ⟨_, h3⟩ | ⟨⟨h3, _⟩, _⟩
        · exact hstep hr ((h3 .structError).mpr (Or.inl ⟨rfl, h1, h2⟩))
        · omega
      | @seek s1 hr h1 =>
        rcases defStep_msg cfg bs s1 with ⟨_, h3⟩ | ⟨⟨_, h3⟩, _⟩
        · exact hstep hr ((h3 .osError).mpr (Or.inr ⟨rfl, h1⟩))
        · exact h3 h1
      | @data secs pre v ty d e ht hd hne1 hne2 =>
        obtain ⟨e', v', hv, h1, h2⟩ := data_only hd hne1 hne2
        rcases hsec (pre ++ [(v, ty, d)]) (by rw [ht]; simp) (v, ty, d) (by simp) e' v' hv with h3 | h3
        · exact h1 h3
        · exact h2 h3
      | @offset s' off ha hho hb hoff hge =>
        rw [haf] at ha
        cases ha
        split at h
        · rename_i hc
          rw [hho] at hc
          cases hc
        · have := (readSections_ok h).2 off (by
            rw [if_pos (by simpa [hasDataAppended] using hb)]
            exact hoff)
          omega

/-- **C91**: with the default options, a load that fails behind the definitions fails in a subscription, for a type that
is not defined, a nesting that is too deep or two columns of one name, or at an impossible position of an appended
section. -/
theorem C91_default {fuel : Nat} {cfg : Cfg} {bs : Bytes} {e : PyErr} {s : RS} (hi : cfg.ign = true)
    (hs : afterDefs fuel cfg bs = some s) (h : load fuel cfg bs = .raised e) :
    (e = .valueError ∧ ∃ off ∈ s.u.appendedOffsets, 2 ^ 63 ≤ off) ∨
    ∃ d, SubObstacle true s.u.formats cfg.depth d e ∧
      e ∈ [.keyError, .recursionError, .valueError] := by
  rw [load_eq] at h
  unfold afterDefs at hs
  split at h
  · rename_i heq; rw [heq] at hs; cases hs
  · rename_i u0 hh
    rw [hh] at hs
    simp only at hs
    split at h
    · rename_i hl; rw [hl] at hs; cases hs
    · cases h
    · rename_i s' hl
      rw [hl] at hs
      cases hs
      split at h
      · cases h
      · have hsub : s.u.subs = [] := by
          rw [(defLoop_presD hl).subs, readHeader_init hh]
        rcases readSections_raised hsub h with ⟨secs, pre, v, ty, d, v', h1, h2, h3, h4⟩ | ⟨rfl, off, h1, h2⟩
        · right
          have hform : v.formats = s.u.formats :=
            sectionsTrace_formats (pre ++ [(v, ty, d)]) (by rw [h1]; simp) (v, ty, d) (by simp)
          have ho := C91_message h2
          refine ⟨d, ?_⟩
          have hinfo : ∀ {b e}, KeyObstacle cfg.ign b e → e = .indexError ∨ e = .structError := by
            intro b e h
            rcases parseInfo_err (info_iff.mpr h) with h | h | ⟨_, h⟩
            · exact Or.inl h
            · exact Or.inr h
            · rw [hi] at h; cases h
          have bad : ∀ {P : Prop}, (e = .indexError ∨ e = .structError) → P := by
            rintro P (h | h)
            · exact absurd h h3
            · exact absurd h h4
          cases ho with
          | info h => exact bad (hinfo h)
          | param h => exact bad (hinfo h)
          | multiEmpty h => exact bad (Or.inr rfl)
          | multi h => exact bad (hinfo h)
          | defaultEmpty h => exact bad (Or.inr rfl)
          | default h => exact bad (hinfo h)
          | sub h =>
            rw [hi, hform] at h
            refine ⟨h, ?_⟩
            cases h with
            | short => exact bad (Or.inr rfl)
            | text hc => cases hc
            | _ => simp
          | loggedShort h => exact bad (Or.inr rfl)
          | logged hc => rw [hi] at hc; cases hc
          | taggedShort h => exact bad (Or.inr rfl)
          | tagged hc => rw [hi] at hc; cases hc
          | dropout h => exact bad (Or.inr rfl)
          | sampleShort h => exact bad (Or.inr rfl)
          | sample h => exact bad (Or.inr rfl)
        · exact Or.inl ⟨rfl, off, (appended_if h1).2, h2⟩

/-! ### examples -/

namespace LoadErrorSample

/-- a file with these messages -/
def logOf (l : List (Nat × Bytes)) : Bytes := Sample.header ++ encMsgs l

/-- a format whose field has a nested type -/
def outer : Nat × Bytes := (tyF, Sample.asc (py! "a:uint64_t timestamp;b x;"))

/-- a subscription to `a` -/
def sub : Nat × Bytes := (tyA, [0, 3, 0] ++ Sample.asc (py! "a"))

/-- flag bits with appended data at `off` -/
def flags (off : Nat) : Nat × Bytes := (tyB, List.replicate 8 0 ++ [1] ++ List.replicate 7 0 ++ leEnc 8 off ++ List.replicate 16 0)

end LoadErrorSample

open LoadErrorSample

/-- the nested type is not defined -/
example : load 20 {} (logOf [outer, sub]) = .raised .keyError := by decide +kernel

/-- the type contains itself -/
example : load 20 { depth := 5 } (logOf [(tyF, Sample.asc (py! "a:a x;")), sub]) = .raised .recursionError := by
  decide +kernel

/-- two columns of one name -/
example : load 20 {} (logOf [(tyF, Sample.asc (py! "a:uint8_t x;uint8_t x;")), sub]) = .raised .valueError := by
  decide +kernel

/-- a column without a name is called by its position: such a log is loaded unless another column has this name -/
example : (match load 20 {} (logOf [(tyF, Sample.asc (py! "a:uint64_t timestamp;uint8_t ;")), sub,
      (tyD, leEnc 2 3 ++ leEnc 8 110 ++ [7])]) with
    | .ok u => u.dataList.map fun d => (d.fields.map (·.name), d.data)
    | _ => []) = [([py! "timestamp", []], [(py! "timestamp", [.int 110]), (py! "f1", [.int 7])])] ∧
    load 20 {} (logOf [(tyF, Sample.asc (py! "a:uint8_t f1;uint8_t ;")), sub]) = .raised .valueError ∧
    load 20 {} (logOf [(tyF, Sample.asc (py! "a:uint8_t f0;uint8_t ;")), sub]) ≠ .raised .valueError := by
  decide +kernel

/-- an array size that is no number; a field without a name before it is only marked as corrupt -/
example : load 20 {} (logOf [(tyF, Sample.asc (py! "a:uint8_t[n] x;"))]) = .raised .valueError ∧
    load 20 {} (logOf [(tyF, Sample.asc (py! "a:uint8_t;uint8_t[n] x;"))]) ≠ .raised .valueError := by
  decide +kernel

/-- the file ends within the header of a message; a message that ends the definitions announces more bytes than the
file has; an appended section starts at no file position -/
example : load 20 {} (Sample.header ++ [1, 0]) = .raised .structError ∧
    load 20 {} (Sample.header ++ [0xFF, 0xFF, 65]) = .raised .osError ∧
    load 20 {} (logOf [flags (2 ^ 63)]) = .raised .valueError ∧
    load 20 {} (logOf [flags (2 ^ 63 - 1)]) ≠ .raised .valueError := by decide +kernel

/-- the obstacle of the last but one of them -/
example : LoadObstacle 20 {} (logOf [flags (2 ^ 63)]) .valueError := C91_load (by decide +kernel)

/-- a log without obstacles -/
example (e : PyErr) : ¬ LoadObstacle 20 {} Sample.file e := C91_load_exact Sample.load_file e

/-- messages with obstacles: an info message whose value is too short, flags that are not known -/
example (cfg : Cfg) : DefObstacle cfg (Sample.kv (py! "uint32_t a") [1, 2]) tyI .structError :=
  (C91_definition cfg {} _ _ _).mp ⟨{}, by cases cfg with | mk f i h d => cases i <;> rfl⟩

example (cfg : Cfg) : DefObstacle cfg (List.replicate 8 0 ++ [0, 0, 4] ++ List.replicate 29 0) tyB .notImplemented :=
  .unknownFlag (i := 10) (by decide) (by decide) (by decide) (by decide) (by decide)

example (cfg : Cfg) : ∃ e' v', handleData cfg {} tyO [1] = some (.err e' v') ∧
    (e' = .structError ∨ (.structError ∈ [PyErr.keyError, .recursionError] ∧ e' ∈ [PyErr.keyError, .recursionError])) :=
  C91_message_exact (.dropout (by decide))

end PyULog
