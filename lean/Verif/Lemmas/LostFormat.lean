import Verif.Spec.LostFormat
import Verif.Lemmas.LostKey
/-
Lemmas for C117: two runs of the reader with different formats.
-/
namespace PyULog
open Spec

/-! ### flattening with one format less -/

theorem foldlM_orErr {α β : Type} {e : PyErr} {f g : β → α → Except PyErr β} (l : List α)
    (h : ∀ a, ∀ x ∈ l, g a x = f a x ∨ g a x = .error e) (a : β) :
    l.foldlM g a = l.foldlM f a ∨ l.foldlM g a = .error e := by
  induction l generalizing a with
  | nil => exact .inl rfl
  | cons x l ih =>
    rw [List.foldlM_cons, List.foldlM_cons]
    rcases h a x List.mem_cons_self with h1 | h1
    · rw [h1]
      cases f a x with
      | error e' => exact .inl rfl
      | ok b => exact ih (fun a x hx => h a x (List.mem_cons_of_mem _ hx)) b
    · rw [h1]; exact .inr rfl

theorem foldlM_same {α β : Type} {f g : β → α → Except PyErr β} (l : List α)
    (h : ∀ a, ∀ x ∈ l, g a x = f a x) (a : β) : l.foldlM g a = l.foldlM f a := by
  induction l generalizing a with
  | nil => rfl
  | cons x l ih =>
    rw [List.foldlM_cons, List.foldlM_cons, h a x List.mem_cons_self]
    cases f a x with
    | error e' => rfl
    | ok b => exact ih (fun a x hx => h a x (List.mem_cons_of_mem _ hx)) b

theorem others_none {α : Type} (k : Str) (d : Dict Str α) : Dict.get? (others k d) k = none := by
  induction d with
  | nil => rfl
  | cons e d ih =>
    unfold others at ih ⊢
    by_cases h : e.1 = k
    · rw [List.filter_cons_of_neg (by simp [h])]; exact ih
    · rw [List.filter_cons_of_pos (by simp [h])]
      obtain ⟨y, w⟩ := e
      simp only at h
      simp only [Dict.get?, h, if_false]
      exact ih

theorem nest_lost (fm : Dict Str MsgFormat) (n : Str) (depth : Nat) (pre t : Str) (acc : NestAcc) :
    nest (others n fm) depth pre t acc = nest fm depth pre t acc ∨ nest (others n fm) depth pre t acc = .error .keyError := by
  induction depth generalizing pre t acc with
  | zero => exact .inl rfl
  | succ depth ih =>
    unfold nest
    by_cases ht : t = n
    · subst ht
      rw [others_none]
      exact .inr rfl
    · rw [others_get ht]
      cases fm.get? t with
      | none => exact .inl rfl
      | some f =>
        refine foldlM_orErr _ (fun a g _ => ?_) acc
        cases BT.ofName g.type with
        | some b => exact .inl rfl
        | none =>
          dsimp only
          split
          · exact foldlM_orErr _ (fun a i _ => ih _ _ _) a
          · exact ih _ _ _

theorem nest_unused (fm : Dict Str MsgFormat) (n : Str) (depth : Nat) (pre t : Str) (acc : NestAcc)
    (h : ¬ Contains fm n t) : nest (others n fm) depth pre t acc = nest fm depth pre t acc := by
  induction depth generalizing pre t acc with
  | zero => rfl
  | succ depth ih =>
    unfold nest
    have ht : t ≠ n := fun e => h (e ▸ .self)
    rw [others_get ht]
    cases hf : fm.get? t with
    | none => rfl
    | some f =>
      refine foldlM_same _ (fun a g hg => ?_) acc
      have hc : ¬ Contains fm n g.type := fun hc => h (.field hf hg hc)
      cases BT.ofName g.type with
      | some b => rfl
      | none =>
        dsimp only
        split
        · exact foldlM_same _ (fun a i _ => ih _ _ _ hc) a
        · exact ih _ _ _ hc

theorem parseAddLogged_lost (ign : Bool) (fm : Dict Str MsgFormat) (n : Str) (depth : Nat) (d : Bytes) :
    parseAddLogged ign (others n fm) depth d = parseAddLogged ign fm depth d ∨
    parseAddLogged ign (others n fm) depth d = .error .keyError := by
  unfold parseAddLogged
  cases unpackU 1 (slice 0 1 d) with
  | error e => exact .inl rfl
  | ok a =>
    cases unpackU 2 (slice 1 3 d) with
    | error e => exact .inl rfl
    | ok b =>
      cases parseString ign (d.drop 3) with
      | error e => exact .inl rfl
      | ok t =>
        rcases nest_lost fm n depth [] t ([], -1) with h | h
        · left
          dsimp only [bind, Except.bind, parseFields]
          rw [h]
        · right
          dsimp only [bind, Except.bind, parseFields]
          rw [h]

theorem parseAddLogged_unused (ign : Bool) (fm : Dict Str MsgFormat) (n : Str) (depth : Nat) (d : Bytes)
    (hc : ∀ t, parseString ign (d.drop 3) = .ok t → ¬ Contains fm n t) :
    parseAddLogged ign (others n fm) depth d = parseAddLogged ign fm depth d := by
  unfold parseAddLogged
  cases unpackU 1 (slice 0 1 d) with
  | error e => rfl
  | ok a =>
    cases unpackU 2 (slice 1 3 d) with
    | error e => rfl
    | ok b =>
      cases ht : parseString ign (d.drop 3) with
      | error e => rfl
      | ok t =>
        dsimp only [bind, Except.bind, parseFields]
        rw [nest_unused fm n depth [] t ([], -1) (hc t ht)]

/-! ### the reader with other formats -/

/-- the object with other formats -/
def withFormats (F : Dict Str MsgFormat) (u : ULog) : ULog := { u with formats := F }

def Spec.Run.on (f : ULog → ULog) : Run → Run
  | .done u => .done (f u)
  | .stopped u => .stopped (f u)
  | .raised e => .raised e

theorem bind_withFormats {α : Type} (F : Dict Str MsgFormat) (u : ULog) (r : Except PyErr α) (f : ULog → α → ULog)
    (h : ∀ a, f (withFormats F u) a = withFormats F (f u a)) :
    some (Out.bind r (withFormats F u) (f (withFormats F u))) = (some (Out.bind r u (f u))).map (Out.on (withFormats F)) := by
  cases r with
  | error e => rfl
  | ok a => simp only [Out.bind, h, Option.map_some, Out.on]

theorem addData_withFormats (F : Dict Str MsgFormat) (u : ULog) (data : Bytes) :
    addData (withFormats F u) data = (addData u data).on (withFormats F) := by
  unfold addData withFormats
  dsimp only
  cases unpackU 2 (data.take 2) with
  | error e => rfl
  | ok id =>
    dsimp only
    cases u.subs.get? id with
    | none =>
      dsimp only
      split
      · rfl
      · rfl
    | some s =>
      dsimp only
      split
      · rfl
      · generalize unpackU 8 _ = r
        cases r with
        | error e => rfl
        | ok ts =>
          dsimp only
          by_cases h : ts > u.lastTs
          · rw [if_pos h, if_pos h]; rfl
          · rw [if_neg h, if_neg h]; rfl

theorem addInfoMulti_withFormats (F : Dict Str MsgFormat) (u : ULog) (m : InfoMsg) :
    addInfoMulti (withFormats F u) m = withFormats F (addInfoMulti u m) := by
  unfold addInfoMulti withFormats
  dsimp only
  split
  · split <;> rfl
  · rfl

theorem handleData_withFormats (cfg : Cfg) (F : Dict Str MsgFormat) (u : ULog) (ty : Nat) (d : Bytes)
    (h : ty = tyA → parseAddLogged cfg.ign F cfg.depth d = parseAddLogged cfg.ign u.formats cfg.depth d) :
    handleData cfg (withFormats F u) ty d = (handleData cfg u ty d).map (Out.on (withFormats F)) := by
  unfold handleData
  by_cases h0 : ty = MSG_TYPE_INFO
  · rw [if_pos h0, if_pos h0]
    exact bind_withFormats F u _ addInfo fun _ => rfl
  rw [if_neg h0, if_neg h0]
  by_cases h1 : ty = MSG_TYPE_INFO_MULTIPLE
  · rw [if_pos h1, if_pos h1]
    exact bind_withFormats F u _ addInfoMulti fun _ => addInfoMulti_withFormats F u _
  rw [if_neg h1, if_neg h1]
  by_cases h2 : ty = MSG_TYPE_PARAMETER
  · rw [if_pos h2, if_pos h2]
    exact bind_withFormats F u _ (fun u (m : InfoMsg) =>
      { u with changedParams := u.changedParams ++ [(u.lastTs, m.key, m.value)] }) fun _ => rfl
  rw [if_neg h2, if_neg h2]
  by_cases h3 : ty = MSG_TYPE_PARAMETER_DEFAULT
  · rw [if_pos h3, if_pos h3]
    exact bind_withFormats F u _ addParamDefault fun _ => rfl
  rw [if_neg h3, if_neg h3]
  by_cases h4 : ty = MSG_TYPE_ADD_LOGGED_MSG
  · rw [if_pos h4, if_pos h4]
    have ht := h4
    show some (Out.bind (parseAddLogged cfg.ign F cfg.depth d) (withFormats F u) (addSub cfg.filter (withFormats F u))) = _
    rw [h ht]
    refine bind_withFormats F u _ (addSub cfg.filter) fun s => ?_
    unfold addSub withFormats
    split <;> rfl
  rw [if_neg h4, if_neg h4]
  by_cases h5 : ty = MSG_TYPE_LOGGING
  · rw [if_pos h5, if_pos h5]
    exact bind_withFormats F u _ (fun u m => { u with logged := u.logged ++ [m] }) fun _ => rfl
  rw [if_neg h5, if_neg h5]
  by_cases h6 : ty = MSG_TYPE_LOGGING_TAGGED
  · rw [if_pos h6, if_pos h6]
    exact bind_withFormats F u _ addTagged fun _ => rfl
  rw [if_neg h6, if_neg h6]
  by_cases h7 : ty = MSG_TYPE_DATA
  · rw [if_pos h7, if_pos h7]
    rw [addData_withFormats]; rfl
  rw [if_neg h7, if_neg h7]
  by_cases h8 : ty = MSG_TYPE_DROPOUT
  · rw [if_pos h8, if_pos h8]
    exact bind_withFormats F u _ (fun u d => { u with dropouts := u.dropouts ++ [d] }) fun _ => rfl
  rw [if_neg h8, if_neg h8]
  by_cases h9 : ty = MSG_TYPE_SYNC
  · rw [if_pos h9, if_pos h9]
    rfl
  · rw [if_neg h9, if_neg h9]
    rfl

/-- the run with other formats is the same, or raises KeyError -/
theorem runData_withFormats (cfg : Cfg) (bad : Prop) (F F' : Dict Str MsgFormat) (l : List (Nat × Bytes)) (u : ULog)
    (hu : u.formats = F)
    (h : ∀ m ∈ l, m.1 = tyA → parseAddLogged cfg.ign F' cfg.depth m.2 = parseAddLogged cfg.ign F cfg.depth m.2 ∨
      (bad ∧ parseAddLogged cfg.ign F' cfg.depth m.2 = .error .keyError)) :
    runData cfg l (withFormats F' u) = (runData cfg l u).on (withFormats F') ∨
      (bad ∧ runData cfg l (withFormats F' u) = .raised .keyError) := by
  induction l generalizing u with
  | nil => exact .inl rfl
  | cons m l ih =>
    have ih' := fun u hu => ih u hu fun x hx => h x (List.mem_cons_of_mem _ hx)
    have same : (m.1 = tyA → parseAddLogged cfg.ign F' cfg.depth m.2 = parseAddLogged cfg.ign u.formats cfg.depth m.2) →
        runData cfg (m :: l) (withFormats F' u) = (runData cfg (m :: l) u).on (withFormats F') ∨
          (bad ∧ runData cfg (m :: l) (withFormats F' u) = .raised .keyError) := by
      intro hp
      rw [runData, runData, handleData_withFormats cfg F' u m.1 m.2 hp]
      cases ho : handleData cfg u m.1 m.2 with
      | none => exact ih' u hu
      | some o =>
        have hpres := (handleData_pres cfg u m.1 m.2 o ho).formats
        cases o with
        | ok v => exact ih' v (hpres.trans hu)
        | err e v =>
          cases e
          case indexError => exact ih' { v with fileCorrupt := true } (hpres.trans hu)
          all_goals exact .inl rfl
    by_cases ha : m.1 = tyA
    · rcases h m List.mem_cons_self ha with h1 | ⟨hb, h1⟩
      · exact same fun _ => by rw [h1, hu]
      · refine .inr ⟨hb, ?_⟩
        rw [runData, ha]
        show (match some (Out.bind (parseAddLogged cfg.ign F' cfg.depth m.2) (withFormats F' u)
          (addSub cfg.filter (withFormats F' u))) with
          | none => _ | some (.ok u) => _ | some (.err .indexError u) => _ | some (.err .structError u) => _
          | some (.err e _) => _) = _
        rw [h1]
        rfl
    · exact same fun hc => absurd hc ha

theorem handleDef_withFormats (cfg : Cfg) (F : Dict Str MsgFormat) (u : ULog) {ty : Nat} (d : Bytes) (h : ty ≠ tyF) :
    handleDef cfg (withFormats F u) ty d = (handleDef cfg u ty d).map (Out.on (withFormats F)) := by
  unfold handleDef
  by_cases h0 : ty = MSG_TYPE_INFO
  · rw [if_pos h0, if_pos h0]
    exact bind_withFormats F u _ addInfo fun _ => rfl
  rw [if_neg h0, if_neg h0]
  by_cases h1 : ty = MSG_TYPE_INFO_MULTIPLE
  · rw [if_pos h1, if_pos h1]
    exact bind_withFormats F u _ addInfoMulti fun _ => addInfoMulti_withFormats F u _
  rw [if_neg h1, if_neg h1]
  by_cases h2 : ty = MSG_TYPE_FORMAT
  · rw [if_pos h2, if_pos h2]
    exact absurd h2 h
  rw [if_neg h2, if_neg h2]
  by_cases h3 : ty = MSG_TYPE_PARAMETER
  · rw [if_pos h3, if_pos h3]
    exact bind_withFormats F u _ (fun u (m : InfoMsg) =>
      { u with initialParams := u.initialParams.set m.key m.value }) fun _ => rfl
  rw [if_neg h3, if_neg h3]
  by_cases h4 : ty = MSG_TYPE_PARAMETER_DEFAULT
  · rw [if_pos h4, if_pos h4]
    exact bind_withFormats F u _ addParamDefault fun _ => rfl
  rw [if_neg h4, if_neg h4]
  by_cases h5 : ty = MSG_TYPE_FLAG_BITS
  · rw [if_pos h5, if_pos h5]
    cases parseFlagBits d with
    | error e => rfl
    | ok f =>
      dsimp only
      unfold applyFlagBits withFormats
      dsimp only
      split
      · rfl
      · split <;> rfl
  · rw [if_neg h5, if_neg h5]
    rfl

theorem handleDef_formats (cfg : Cfg) (u : ULog) {ty : Nat} (d : Bytes) (h : ty ≠ tyF) (o : Out)
    (ho : handleDef cfg u ty d = some o) : o.state.formats = u.formats := by
  have e := handleDef_withFormats cfg u.formats u d h
  rw [show withFormats u.formats u = u from rfl, ho] at e
  injection e with e
  cases o with
  | ok v =>
    injection e with e
    exact (congrArg (fun x : ULog => x.formats) e :)
  | err x v =>
    injection e with _ e
    exact (congrArg (fun x : ULog => x.formats) e :)

/-- the object without the format `n` -/
def dropFormat (n : Str) (u : ULog) : ULog := withFormats (others n u.formats) u

/-- one definition, read into the object without the format -/
theorem runDefs_drop (cfg : Cfg) (n : Str) (l : List (Nat × Bytes)) (u : ULog) (h : NoFormat cfg.ign n l) :
    runDefs cfg l (dropFormat n u) = (runDefs cfg l u).on (dropFormat n) := by
  induction l generalizing u with
  | nil => rfl
  | cons m l ih =>
    have ih' := fun u => ih u fun x hx => h x (List.mem_cons_of_mem _ hx)
    rw [runDefs, runDefs]
    by_cases hf : m.1 = tyF
    · have hd : ∀ w : ULog, handleDef cfg w m.1 m.2 = some (Out.bind (parseFormat cfg.ign m.2) w fun f =>
          { w with formats := w.formats.set f.name f }) := fun w => by rw [hf]; rfl
      rw [hd, hd]
      cases hp : parseFormat cfg.ign m.2 with
      | error e =>
        simp only [Out.bind]
        cases e
        case indexError => exact ih' { u with fileCorrupt := true }
        all_goals rfl
      | ok f =>
        simp only [Out.bind]
        have hn := h m List.mem_cons_self hf f hp
        have e : ({ dropFormat n u with formats := (dropFormat n u).formats.set f.name f } : ULog)
            = dropFormat n { u with formats := u.formats.set f.name f } := by
          unfold dropFormat withFormats
          dsimp only
          rw [others_set, if_neg hn]
        rw [e]
        exact ih' _
    · rw [dropFormat, handleDef_withFormats cfg _ u m.2 hf]
      cases ho : handleDef cfg u m.1 m.2 with
      | none => exact ih' u
      | some o =>
        have hs := handleDef_formats cfg u m.2 hf o ho
        cases o with
        | ok v =>
          have e : withFormats (others n u.formats) v = dropFormat n v := by
            unfold dropFormat; rw [show v.formats = u.formats from hs]
          simp only [Option.map_some, Out.on, e]
          exact ih' v
        | err e v =>
          cases e
          case indexError =>
            have e : ({ withFormats (others n u.formats) v with fileCorrupt := true } : ULog)
                = dropFormat n { v with fileCorrupt := true } := by
              unfold dropFormat withFormats; dsimp only; rw [show v.formats = u.formats from hs]
            simp only [Option.map_some, Out.on, e]
            exact ih' _
          all_goals rfl

theorem runDefs_app (cfg : Cfg) (a b : List (Nat × Bytes)) (u : ULog) :
    runDefs cfg (a ++ b) u = match runDefs cfg a u with
      | .done u => runDefs cfg b u
      | .stopped u => .stopped u
      | .raised e => .raised e := by
  induction a generalizing u with
  | nil => rfl
  | cons m l ih =>
    rw [List.cons_append, runDefs, runDefs]
    cases handleDef cfg u m.1 m.2 with
    | none => exact ih u
    | some o =>
      cases o with
      | ok v => exact ih v
      | err e v =>
        cases e
        case indexError => exact ih _
        all_goals rfl

/-- the definitions without the one of the format -/
theorem runDefs_lostFormat (cfg : Cfg) {p : Bytes} {f : MsgFormat} (hp : parseFormat cfg.ign p = .ok f)
    (pre post : List (Nat × Bytes)) (u : ULog) (h : NoFormat cfg.ign f.name (pre ++ post)) :
    runDefs cfg (pre ++ post) (dropFormat f.name u)
      = (runDefs cfg (pre ++ (tyF, p) :: post) u).on (dropFormat f.name) := by
  rw [runDefs_app, runDefs_app, runDefs_drop cfg f.name pre u fun x hx => h x (List.mem_append_left _ hx)]
  cases runDefs cfg pre u with
  | raised e => rfl
  | stopped u => rfl
  | done u =>
    have hd : handleDef cfg u tyF p = some (.ok { u with formats := u.formats.set f.name f }) := by
      show some (Out.bind (parseFormat cfg.ign p) u _) = _
      rw [hp]; rfl
    simp only [Run.on]
    rw [runDefs.eq_def cfg (_ :: _)]
    dsimp only
    rw [hd]
    dsimp only
    have hr := runDefs_drop cfg f.name post { u with formats := u.formats.set f.name f }
      fun x hx => h x (List.mem_append_right _ hx)
    have e : dropFormat f.name { u with formats := u.formats.set f.name f } = dropFormat f.name u := by
      unfold dropFormat withFormats
      dsimp only
      rw [others_set, if_pos rfl]
    rw [e] at hr
    exact hr

end PyULog
