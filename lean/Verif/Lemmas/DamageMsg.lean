import Verif.Spec.DamageMsg
import Verif.Lemmas.Interleave
import Verif.Lemmas.RoundDefs
import Verif.Lemmas.LoadError
import Verif.Lemmas.Filter
/-
Lemmas for C108: two runs of the reader over messages of which one is damaged.
-/
namespace PyULog
open Spec

/-- the object with other lists of messages, dropouts and parameter changes -/
def reseat (a : List LogMsg) (b : Dict Nat (List TagMsg)) (c : List Dropout) (d : List (Nat × Str × Value)) (u : ULog) :
    ULog := { u with logged := a, tagged := b, dropouts := c, changedParams := d }

/-- the outcome with another object -/
def Out.on (f : ULog → ULog) : Out → Out
  | .ok u => .ok (f u)
  | .err e u => .err e (f u)

theorem addData_reseat (u : ULog) (a : List LogMsg) (b : Dict Nat (List TagMsg)) (c : List Dropout)
    (d : List (Nat × Str × Value)) (data : Bytes) :
    addData (reseat a b c d u) data = (addData u data).on (reseat a b c d) := by
  unfold addData reseat
  dsimp only
  cases unpackU 2 (data.take 2) with
  | error e => rfl
  | ok id =>
    dsimp only
    cases u.subs.get? id with
    | none =>
      dsimp only
      split
      · rfl
      · rfl
    | some s =>
      dsimp only
      split
      · rfl
      · generalize unpackU 8 _ = r
        cases r with
        | error e => rfl
        | ok ts =>
          dsimp only
          by_cases h : ts > u.lastTs
          · rw [if_pos h, if_pos h]; rfl
          · rw [if_neg h, if_neg h]; rfl

/-- relations between the lists of two objects -/
structure Rels where
  L : List LogMsg → List LogMsg → Prop
  T : Dict Nat (List TagMsg) → Dict Nat (List TagMsg) → Prop
  O : List Dropout → List Dropout → Prop
  P : List (Nat × Str × Value) → List (Nat × Str × Value) → Prop

/-- the relations are kept when both lists are extended -/
structure Rels.Ok (R : Rels) : Prop where
  L : ∀ l l' x, R.L l l' → R.L (l ++ [x]) (l' ++ [x])
  T : ∀ t t' (m : TagMsg), R.T t t' →
    R.T (t.set m.tag ((t.get? m.tag).getD [] ++ [m])) (t'.set m.tag ((t'.get? m.tag).getD [] ++ [m]))
  O : ∀ l l' x, R.O l l' → R.O (l ++ [x]) (l' ++ [x])
  P : ∀ l l' x, R.P l l' → R.P (l ++ [x]) (l' ++ [x])

/-- the objects are equal but for related lists -/
def MSim (R : Rels) (u v : ULog) : Prop :=
  ∃ a b c d, v = reseat a b c d u ∧ R.L u.logged a ∧ R.T u.tagged b ∧ R.O u.dropouts c ∧ R.P u.changedParams d

/-- both logs process a message with the same outcome -/
inductive MOut (R : Rels) : Option Out → Option Out → Prop where
  | none : MOut R none none
  | ok {u v} : MSim R u v → MOut R (some (.ok u)) (some (.ok v))
  | err {e u v} : MSim R u v → MOut R (some (.err e u)) (some (.err e v))

section
variable {R : Rels} {u v : ULog}

theorem MOut.bind {r : Except PyErr α} {f g : α → ULog} (h : MSim R u v) (hf : ∀ a, r = .ok a → MSim R (f a) (g a)) :
    MOut R (some (Out.bind r u f)) (some (Out.bind r v g)) := by
  cases r with
  | error e => exact .err h
  | ok a => exact .ok (hf a rfl)

theorem addData_lists (u : ULog) (data : Bytes) :
    (addData u data).state.logged = u.logged ∧ (addData u data).state.tagged = u.tagged ∧
    (addData u data).state.dropouts = u.dropouts ∧ (addData u data).state.changedParams = u.changedParams := by
  have h := addData_reseat u u.logged u.tagged u.dropouts u.changedParams data
  have e : reseat u.logged u.tagged u.dropouts u.changedParams u = u := rfl
  rw [e] at h
  rw [h]
  cases addData u data <;> exact ⟨rfl, rfl, rfl, rfl⟩

theorem MSim.corrupt (h : MSim R u v) : MSim R { u with fileCorrupt := true } { v with fileCorrupt := true } := by
  obtain ⟨a, b, c, d, rfl, hL, hT, hO, hP⟩ := h
  exact ⟨a, b, c, d, rfl, hL, hT, hO, hP⟩

theorem msim_handle (hR : R.Ok) (cfg : Cfg) (h : MSim R u v) (ty : Nat) (data : Bytes) :
    MOut R (handleData cfg u ty data) (handleData cfg v ty data) := by
  have h0 := h
  obtain ⟨a, b, c, d, rfl, hL, hT, hO, hP⟩ := h
  by_cases hk : knownData ty = true
  · rcases known_cases hk with hk | hk | hk | hk | hk | hk | hk | hk | hk | hk <;> subst hk
    · rw [handleData_I, handleData_I]
      exact MOut.bind h0 fun m _ => ⟨a, b, c, d, rfl, hL, hT, hO, hP⟩
    · rw [handleData_M, handleData_M]
      refine MOut.bind h0 fun m _ => ?_
      obtain ⟨f, g, hfg⟩ := addInfoMulti_eq m
      rw [hfg u, hfg (reseat a b c d u)]
      exact ⟨a, b, c, d, rfl, hL, hT, hO, hP⟩
    · rw [handleData_P, handleData_P]
      exact MOut.bind h0 fun m _ => ⟨a, b, c, d ++ [(u.lastTs, m.key, m.value)], rfl, hL, hT, hO, hR.P _ _ _ hP⟩
    · rw [handleData_Q, handleData_Q]
      exact MOut.bind h0 fun m _ => ⟨a, b, c, d, rfl, hL, hT, hO, hP⟩
    · rw [handleData_A, handleData_A]
      refine MOut.bind h0 fun s _ => ?_
      unfold addSub
      split
      · exact ⟨a, b, c, d, rfl, hL, hT, hO, hP⟩
      · exact ⟨a, b, c, d, rfl, hL, hT, hO, hP⟩
    · rw [handleData_L, handleData_L]
      exact MOut.bind h0 fun m _ => ⟨a ++ [m], b, c, d, rfl, hR.L _ _ _ hL, hT, hO, hP⟩
    · rw [handleData_C, handleData_C]
      exact MOut.bind h0 fun m _ =>
        ⟨a, b.set m.tag ((b.get? m.tag).getD [] ++ [m]), c, d, rfl, hL, hR.T _ _ m hT, hO, hP⟩
    · rw [handleData_D, handleData_D, addData_reseat]
      obtain ⟨e1, e2, e3, e4⟩ := addData_lists u data
      generalize addData u data = o at e1 e2 e3 e4
      have hs : MSim R o.state (reseat a b c d o.state) :=
        ⟨a, b, c, d, rfl, by rw [e1]; exact hL, by rw [e2]; exact hT, by rw [e3]; exact hO, by rw [e4]; exact hP⟩
      cases o with
      | ok w => exact .ok hs
      | err e w => exact .err hs
    · rw [handleData_O, handleData_O]
      exact MOut.bind h0 fun m _ => ⟨a, b, c ++ [m], d, rfl, hL, hT, hR.O _ _ _ hO, hP⟩
    · rw [handleData_S, handleData_S]
      exact .ok ⟨a, b, c, d, rfl, hL, hT, hO, hP⟩
  · have hk' : knownData ty = false := by simpa using hk
    rw [handleData_none _ _ _ _ hk', handleData_none _ _ _ _ hk']
    exact .none

end

/-- the outcome of a run over the messages -/
inductive MRun (R : Rels) : Run → Run → Prop where
  | done {u v} : MSim R u v → MRun R (.done u) (.done v)
  | stopped {u v} : MSim R u v → MRun R (.stopped u) (.stopped v)
  | raised {e} : MRun R (.raised e) (.raised e)

theorem msim_run {R : Rels} (hR : R.Ok) (cfg : Cfg) (l : List (Nat × Bytes)) {u v : ULog} (h : MSim R u v) :
    MRun R (runData cfg l u) (runData cfg l v) := by
  induction l generalizing u v with
  | nil => exact .done h
  | cons m l ih =>
    have hs := msim_handle hR cfg h m.1 m.2
    unfold runData
    generalize handleData cfg u m.1 m.2 = a at hs
    generalize handleData cfg v m.1 m.2 = b at hs
    cases hs with
    | none => exact ih h
    | ok h' => exact ih h'
    | @err e u' v' h' =>
      cases e
      case indexError => exact ih h'.corrupt
      case structError => exact .stopped h'
      all_goals exact .raised

/-- the relations hold for equal lists -/
structure Rels.Refl (R : Rels) : Prop where
  L : ∀ l, R.L l l
  T : ∀ l, R.T l l
  O : ∀ l, R.O l l
  P : ∀ l, R.P l l

theorem MSim.refl {R : Rels} (hR : R.Refl) (u : ULog) : MSim R u u :=
  ⟨u.logged, u.tagged, u.dropouts, u.changedParams, rfl, hR.L _, hR.T _, hR.O _, hR.P _⟩

theorem msim_damaged {R : Rels} (hR : R.Ok) (hr : R.Refl) (cfg : Cfg) (pre post : List (Nat × Bytes)) {ty : Nat} {p p' : Bytes}
    (hstep : ∀ w, MOut R (handleData cfg w ty p) (handleData cfg w ty p')) (u : ULog) :
    MRun R (runData cfg (pre ++ (ty, p) :: post) u) (runData cfg (pre ++ (ty, p') :: post) u) := by
  induction pre generalizing u with
  | nil =>
    have hs := hstep u
    show MRun R (runData cfg ((ty, p) :: post) u) (runData cfg ((ty, p') :: post) u)
    unfold runData
    show MRun R (match handleData cfg u ty p with
      | none => _ | some (.ok _) => _ | some (.err .indexError _) => _ | some (.err .structError _) => _
      | some (.err _ _) => _) (match handleData cfg u ty p' with
      | none => _ | some (.ok _) => _ | some (.err .indexError _) => _ | some (.err .structError _) => _
      | some (.err _ _) => _)
    generalize handleData cfg u ty p = a at hs
    generalize handleData cfg u ty p' = b at hs
    cases hs with
    | none => exact msim_run hR cfg post (.refl hr u)
    | ok h' => exact msim_run hR cfg post h'
    | @err e u' v' h' =>
      cases e
      case indexError => exact msim_run hR cfg post h'.corrupt
      case structError => exact .stopped h'
      all_goals exact .raised
  | cons m pre ih =>
    rw [List.cons_append, List.cons_append]
    unfold runData
    cases handleData cfg u m.1 m.2 with
    | none => exact ih u
    | some o =>
      cases o with
      | ok w => exact ih w
      | err e w =>
        cases e
        case indexError => exact ih _
        case structError => exact .stopped (.refl hr w)
        all_goals exact .raised

theorem msim_finish {R : Rels} {r s : Run} (h : MRun R r s) :
    (∀ e, finish r = .raised e → finish s = .raised e) ∧
    ∀ v, finish r = .ok v → ∃ v', finish s = .ok v' ∧ MSim R v v' := by
  have key : ∀ u w, MSim R u w → (∀ e, LoadRes.ofExcept (finalize u) = .raised e → LoadRes.ofExcept (finalize w) = .raised e) ∧
      ∀ v, LoadRes.ofExcept (finalize u) = .ok v → ∃ v', LoadRes.ofExcept (finalize w) = .ok v' ∧ MSim R v v' := by
    intro u w hs
    obtain ⟨a, b, c, d, rfl, hL, hT, hO, hP⟩ := hs
    unfold finalize
    show (∀ e, LoadRes.ofExcept (_ >>= _) = _ → LoadRes.ofExcept
        (((u.subs.reverse.filter (fun p => p.2.buffer.length > 0)).mapM fun p => mkData p.2) >>= _) = _) ∧
      ∀ v, LoadRes.ofExcept (_ >>= _) = _ → ∃ v', LoadRes.ofExcept
        (((u.subs.reverse.filter (fun p => p.2.buffer.length > 0)).mapM fun p => mkData p.2) >>= _) = _ ∧ _
    cases ((u.subs.reverse.filter (fun p => p.2.buffer.length > 0)).mapM fun p => mkData p.2) with
    | error e => exact ⟨fun _ h => h, fun v h => by cases h⟩
    | ok new =>
      refine ⟨fun _ h => (by cases h), fun v hv => ?_⟩
      cases hv
      exact ⟨_, rfl, a, b, c, d, rfl, hL, hT, hO, hP⟩
  cases h with
  | raised => exact ⟨fun _ h => h, fun v h => by cases h⟩
  | @done u w hs => exact key u w hs
  | @stopped u w hs => exact key u w hs

/-- both files load, or raise the same exception -/
theorem damaged_file {R : Rels} (hR : R.Ok) (hr : R.Refl) {fuel : Nat} {cfg : Cfg} {hdr : Bytes}
    {defs pre post : List (Nat × Bytes)} {ty : Nat} {p p' : Bytes} {u0 : ULog}
    (hf : PlainFile fuel cfg hdr defs (pre ++ (ty, p) :: post) u0) (hty : isDataType ty) (hl : p'.length = p.length)
    (hstep : ∀ w, MOut R (handleData cfg w ty p) (handleData cfg w ty p')) :
    (∀ e, load fuel cfg (fileWith hdr defs pre (ty, p) post) = .raised e →
      load fuel cfg (fileWith hdr defs pre (ty, p') post) = .raised e) ∧
    ∀ v, load fuel cfg (fileWith hdr defs pre (ty, p) post) = .ok v →
      ∃ v', load fuel cfg (fileWith hdr defs pre (ty, p') post) = .ok v' ∧ MSim R v v' := by
  have hm' : ∀ m ∈ pre ++ (ty, p') :: post, DataFrame m := by
    intro m h
    rw [List.mem_append, List.mem_cons] at h
    rcases h with h | rfl | h
    · exact hf.hmsgs m (List.mem_append.mpr (.inl h))
    · have := (hf.hmsgs (ty, p) (List.mem_append.mpr (.inr (List.mem_cons_self ..)))).1
      refine ⟨?_, .inl hty⟩
      unfold Fits at this ⊢
      simp only [hl] at this ⊢
      exact this
    · exact hf.hmsgs m (List.mem_append.mpr (.inr (List.mem_cons_of_mem _ h)))
  have hends : ∀ m, (pre ++ (ty, p') :: post).head? = some m → m.1 = tyA ∨ m.1 = tyL ∨ m.1 = tyC := by
    intro m h
    cases pre with
    | nil =>
      have := hf.ends (ty, p) rfl
      cases h
      exact this
    | cons x pre => exact hf.ends m h
  have hlen' : (encMsgs (pre ++ (ty, p') :: post)).length = (encMsgs (pre ++ (ty, p) :: post)).length := by
    rw [encMsgs_append, encMsgs_append, List.length_append, List.length_append]
    congr 1
    simp [encMsgs, encMsg, hl]
  unfold fileWith
  rw [C18_file fuel cfg hdr defs _ u0 hf.hhdr hf.header hf.hdefs hf.hmsgs hf.ends hf.notAppended hf.hfuel hf.size,
    C18_file fuel cfg hdr defs _ u0 hf.hhdr hf.header hf.hdefs hm' hends hf.notAppended hf.hfuel (by rw [hlen']; exact hf.size)]
  unfold loadMsgs
  cases runDefs cfg defs u0 with
  | stopped u => exact ⟨fun e h => h, fun v h => ⟨v, h, .refl hr v⟩⟩
  | raised e => exact ⟨fun e h => h, fun v h => ⟨v, h, .refl hr v⟩⟩
  | done u =>
    simp only
    by_cases hho : cfg.headerOnly = true
    · rw [if_pos hho, if_pos hho]
      exact ⟨fun e h => h, fun v h => ⟨v, h, .refl hr v⟩⟩
    · rw [if_neg hho, if_neg hho]
      exact msim_finish (msim_damaged hR hr cfg pre post hstep u)

/-! ### one element differs -/

theorem oneDiffers_append {α : Type} {Q : α → α → Prop} {l l' : List α} (h : OneDiffers Q l l') (x : α) :
    OneDiffers Q (l ++ [x]) (l' ++ [x]) := by
  rcases h with rfl | ⟨i, a, b, ha, hq, rfl⟩
  · exact .inl rfl
  · have hi : i < l.length := (List.getElem?_eq_some_iff.mp ha).1
    refine .inr ⟨i, a, b, ?_, hq, ?_⟩
    · rw [List.getElem?_append_left hi]
      exact ha
    · rw [List.set_append_left _ _ hi]

theorem oneDiffers_last {α : Type} {Q : α → α → Prop} (l : List α) {x y : α} (h : Q x y) :
    OneDiffers Q (l ++ [x]) (l ++ [y]) := by
  refine .inr ⟨l.length, x, y, ?_, h, ?_⟩
  · rw [List.getElem?_append_right (Nat.le_refl _), Nat.sub_self]
    rfl
  · rw [List.set_append_right _ _ (Nat.le_refl _), Nat.sub_self]
    rfl

theorem oneTag_add {t t' : Dict Nat (List TagMsg)} (h : OneTagDiffers t t') (m : TagMsg) :
    OneTagDiffers (t.set m.tag ((t.get? m.tag).getD [] ++ [m])) (t'.set m.tag ((t'.get? m.tag).getD [] ++ [m])) := by
  rcases h with rfl | ⟨tag, l, l', hg, ho, rfl⟩
  · exact .inl rfl
  · by_cases he : m.tag = tag
    · subst he
      refine .inr ⟨m.tag, l ++ [m], l' ++ [m], ?_, oneDiffers_append ho m, ?_⟩
      · rw [Dict.get?_set_self, hg]
        rfl
      · rw [Dict.get?_set_self, set_set, set_set]
        rfl
    · refine .inr ⟨tag, l, l', ?_, ho, ?_⟩
      · rw [Dict.get?_set_ne _ _ he]
        exact hg
      · rw [Dict.get?_set_ne _ _ (fun e => he e.symm), dict_set_comm t _ _ (fun e => he e.symm) (by rw [hg]; rfl)]

end PyULog
