import Verif.Spec.LostKey
import Verif.Lemmas.DamageMsg
import Verif.Props.Params
import Verif.Props.DefsLoop
/-
Lemmas for C112: two runs of the reader over messages of which one definition is missing.
-/
namespace PyULog
open Spec

/-! ### dictionaries -/

theorem others_set {α : Type} (k x : Str) (d : Dict Str α) (v : α) :
    others k (d.set x v) = if x = k then others k d else Dict.set (others k d) x v := by
  induction d with
  | nil =>
    unfold others Dict.set
    by_cases h : x = k
    · rw [if_pos h, List.filter_cons_of_neg (by simp [h])]
    · rw [if_neg h, List.filter_cons_of_pos (by simp [h])]; rfl
  | cons e d ih =>
    obtain ⟨y, w⟩ := e
    unfold others at ih ⊢
    by_cases hy : y = x
    · subst hy
      rw [show Dict.set ((y, w) :: d) y v = (y, v) :: d by simp [Dict.set]]
      by_cases h : y = k
      · rw [if_pos h, List.filter_cons_of_neg (by simp [h]), List.filter_cons_of_neg (by simp [h])]
      · rw [if_neg h, List.filter_cons_of_pos (by simp [h]), List.filter_cons_of_pos (by simp [h])]
        simp [Dict.set]
    · rw [show Dict.set ((y, w) :: d) x v = (y, w) :: Dict.set d x v by simp [Dict.set, hy]]
      by_cases h : x = k
      · rw [if_pos h] at ih ⊢
        rw [List.filter_cons, List.filter_cons, ih]
      · rw [if_neg h] at ih ⊢
        by_cases hk : y = k
        · rw [List.filter_cons_of_neg (by simp [hk]), List.filter_cons_of_neg (by simp [hk]), ih]
        · rw [List.filter_cons_of_pos (by simp [hk]), List.filter_cons_of_pos (by simp [hk]), ih]
          simp [Dict.set, hy]

theorem others_get {α : Type} {k x : Str} (h : x ≠ k) (d : Dict Str α) : Dict.get? (others k d) x = d.get? x := by
  induction d with
  | nil => rfl
  | cons e d ih =>
    obtain ⟨y, w⟩ := e
    unfold others at ih ⊢
    by_cases hk : y = k
    · rw [List.filter_cons_of_neg (by simp [hk]), ih]
      have : ¬ y = x := fun he => h (he.symm.trans hk)
      simp [Dict.get?, this]
    · rw [List.filter_cons_of_pos (by simp [hk])]
      simp only [Dict.get?]
      rw [ih]

section
variable {α : Type} {kind : Prop} {k : Str} {d d' d'' : Dict Str α}

theorem Spec.SameBut.refl (kind : Prop) (k : Str) (d : Dict Str α) : SameBut kind k d d := ⟨rfl, fun _ => rfl⟩

theorem Spec.SameBut.symm (h : SameBut kind k d d') : SameBut kind k d' d := ⟨h.1.symm, fun hk => (h.2 hk).symm⟩

theorem Spec.SameBut.trans (h : SameBut kind k d d') (h' : SameBut kind k d' d'') : SameBut kind k d d'' :=
  ⟨h'.1.trans h.1, fun hk => (h'.2 hk).trans (h.2 hk)⟩

theorem Spec.SameBut.set (h : SameBut kind k d d') (x : Str) (v : α) : SameBut kind k (d.set x v) (d'.set x v) := by
  refine ⟨?_, fun hk => by rw [h.2 hk]⟩
  rw [others_set, others_set, h.1]

/-- an entry with the key -/
theorem Spec.SameBut.at (hk : kind) (h : SameBut kind k d d') (v v' : α) : SameBut kind k (d.set k v) (d'.set k v') := by
  refine ⟨?_, fun hn => absurd hk hn⟩
  rw [others_set, others_set, if_pos rfl, if_pos rfl, h.1]

theorem Spec.SameBut.left (hk : kind) (h : SameBut kind k d d') (v : α) : SameBut kind k (d.set k v) d' := by
  refine ⟨?_, fun hn => absurd hk hn⟩
  rw [others_set, if_pos rfl, h.1]

theorem Spec.SameBut.get (h : SameBut kind k d d') {x : Str} (hx : x ≠ k) : d'.get? x = d.get? x := by
  rw [← others_get hx d', h.1, others_get hx d]

end

/-- the default parameters agree but for the key -/
def DefSame (kind : Prop) (k : Str) (d d' : Dict Nat (Dict Str Value)) : Prop :=
  (∀ i, others k ((d'.get? i).getD []) = others k ((d.get? i).getD [])) ∧ (¬ kind → d' = d)

theorem defaultStep_get (d : Dict Nat (Dict Str Value)) (t : Nat) (key : Str) (value : Value) (i : Nat) :
    (((if d.has t then d else d.set t []).set t
      ((((if d.has t then d else d.set t []).get? t).getD []).set key value)).get? i).getD []
    = if t = i then ((d.get? t).getD []).set key value else (d.get? i).getD [] := by
  rw [Dict.get?_set]
  have h0 : ((if d.has t then d else d.set t []).get? t).getD [] = (d.get? t).getD [] := by
    split
    · rfl
    · rename_i hh
      rw [Dict.get?_set, if_pos rfl]
      unfold Dict.has at hh
      cases h : d.get? t with
      | none => rfl
      | some x => rw [h] at hh; simp at hh
  by_cases h : t = i
  · rw [if_pos h, if_pos h, h0]
    rfl
  · rw [if_neg h, if_neg h]
    split
    · rfl
    · rw [Dict.get?_set, if_neg h]

theorem DefSame.loop {kind : Prop} {k : Str} {d d' : Dict Nat (Dict Str Value)} (h : DefSame kind k d d') (key : Str)
    (value : Value) (n : Nat) (types : BitVec 8) :
    DefSame kind k (addDefaultLoop key value n types d) (addDefaultLoop key value n types d') := by
  refine ⟨?_, fun hk => by rw [h.2 hk]⟩
  replace h := h.1
  induction n generalizing types d d' with
  | zero => exact h
  | succ n ih =>
    unfold addDefaultLoop
    split
    · exact h
    · apply ih
      intro i
      rw [defaultStep_get, defaultStep_get]
      split
      · rw [others_set, others_set, h]
      · exact h i

theorem DefSame.left {kind : Prop} {k : Str} {d d' : Dict Nat (Dict Str Value)} (hk : kind) (h : DefSame kind k d d')
    (value : Value) (n : Nat) (types : BitVec 8) : DefSame kind k (addDefaultLoop k value n types d) d' := by
  refine ⟨?_, fun hn => absurd hk hn⟩
  replace h := h.1
  induction n generalizing types d with
  | zero => exact h
  | succ n ih =>
    unfold addDefaultLoop
    split
    · exact h
    · apply ih
      intro i
      rw [defaultStep_get]
      split
      · rename_i hi
        rw [others_set, if_pos rfl, hi]
        exact h i
      · exact h i

/-! ### the simulation -/

/-- the object with other definitions -/
def redefine (a : Dict Str Value) (b : Dict Str Str) (c : Dict Str (List (List Value))) (d : Dict Str Str)
    (e : Dict Str Value) (f : Dict Nat (Dict Str Value)) (u : ULog) : ULog :=
  { u with info := a, infoTypes := b, infoMulti := c, infoMultiTypes := d, initialParams := e, defaultParams := f }

theorem addData_redefine (u : ULog) (a : Dict Str Value) (b : Dict Str Str) (c : Dict Str (List (List Value)))
    (d : Dict Str Str) (e : Dict Str Value) (f : Dict Nat (Dict Str Value)) (data : Bytes) :
    addData (redefine a b c d e f u) data = (addData u data).on (redefine a b c d e f) := by
  unfold addData redefine
  dsimp only
  cases unpackU 2 (data.take 2) with
  | error e => rfl
  | ok id =>
    dsimp only
    cases u.subs.get? id with
    | none =>
      dsimp only
      split
      · rfl
      · rfl
    | some s =>
      dsimp only
      split
      · rfl
      · generalize unpackU 8 _ = r
        cases r with
        | error e => rfl
        | ok ts =>
          dsimp only
          by_cases h : ts > u.lastTs
          · rw [if_pos h, if_pos h]; rfl
          · rw [if_neg h, if_neg h]; rfl

/-- the objects are equal but for the key -/
def KSim (ty : Nat) (k : Str) (u v : ULog) : Prop :=
  ∃ a b c d e f, v = redefine a b c d e f u ∧ SameBut (ty = tyI) k u.info a ∧ SameBut (ty = tyI) k u.infoTypes b ∧
    SameBut (ty = tyM) k u.infoMulti c ∧ SameBut (ty = tyM) k u.infoMultiTypes d ∧
    SameBut (ty = tyP) k u.initialParams e ∧ DefSame (ty = tyQ) k u.defaultParams f

inductive KOut (ty : Nat) (k : Str) : Option Out → Option Out → Prop where
  | none : KOut ty k none none
  | ok {u v} : KSim ty k u v → KOut ty k (some (.ok u)) (some (.ok v))
  | err {e u v} : KSim ty k u v → KOut ty k (some (.err e u)) (some (.err e v))

section
variable {ty0 : Nat} {k : Str} {u v : ULog}

theorem KSim.refl (ty0 : Nat) (k : Str) (u : ULog) : KSim ty0 k u u :=
  ⟨u.info, u.infoTypes, u.infoMulti, u.infoMultiTypes, u.initialParams, u.defaultParams, rfl, .refl _ _ _, .refl _ _ _,
    .refl _ _ _, .refl _ _ _, .refl _ _ _, fun _ => rfl, fun _ => rfl⟩

theorem KSim.corrupt (h : KSim ty0 k u v) : KSim ty0 k { u with fileCorrupt := true } { v with fileCorrupt := true } := by
  obtain ⟨a, b, c, d, e, f, rfl, h⟩ := h
  exact ⟨a, b, c, d, e, f, rfl, h⟩

theorem KOut.bind {α : Type} {r : Except PyErr α} {f g : α → ULog} (h : KSim ty0 k u v)
    (hf : ∀ a, r = .ok a → KSim ty0 k (f a) (g a)) :
    KOut ty0 k (some (Out.bind r u f)) (some (Out.bind r v g)) := by
  cases r with
  | error e => exact .err h
  | ok a => exact .ok (hf a rfl)

theorem KSim.addInfo (h : KSim ty0 k u v) (m : InfoMsg) : KSim ty0 k (addInfo u m) (addInfo v m) := by
  obtain ⟨a, b, c, d, e, f, rfl, h1, h2, h3⟩ := h
  exact ⟨a.set m.key m.value, b.set m.key m.type, c, d, e, f, rfl, h1.set _ _, h2.set _ _, h3⟩

theorem KSim.addDefault (h : KSim ty0 k u v) (p : Nat × InfoMsg) : KSim ty0 k (addParamDefault u p) (addParamDefault v p) := by
  obtain ⟨a, b, c, d, e, f, rfl, h1, h2, h3, h4, h5, h6⟩ := h
  exact ⟨a, b, c, d, e, _, rfl, h1, h2, h3, h4, h5, h6.loop _ _ _ _⟩

theorem KSim.addMulti (h : KSim ty0 k u v) (m : InfoMsg) : KSim ty0 k (addInfoMulti u m) (addInfoMulti v m) := by
  obtain ⟨a, b, c, d, e, f, rfl, h1, h2, h3, h4, h5, h6⟩ := h
  by_cases hm : ty0 = tyM ∧ m.key = k
  · obtain ⟨ht, hk⟩ := hm
    have step : ∀ w : ULog, ∃ x y, addInfoMulti w m = { w with infoMulti := w.infoMulti.set k x, infoMultiTypes := y } ∧
        (y = w.infoMultiTypes ∨ y = w.infoMultiTypes.set k m.type) := by
      intro w
      unfold addInfoMulti
      rw [hk]
      split
      · split
        · exact ⟨_, _, rfl, .inl rfl⟩
        · exact ⟨_, _, rfl, .inl rfl⟩
      · exact ⟨_, _, rfl, .inr rfl⟩
    obtain ⟨x, y, e1, hy⟩ := step u
    obtain ⟨x', y', e2, hy'⟩ := step (redefine a b c d e f u)
    rw [e1, e2]
    refine ⟨a, b, c.set k x', y', e, f, rfl, h1, h2, h3.at ht _ _, ?_, h5, h6⟩
    show SameBut (ty0 = tyM) k y y'
    have hy' : y' = d ∨ y' = d.set k m.type := hy'
    rcases hy with rfl | rfl <;> rcases hy' with rfl | rfl
    · exact h4
    · exact (h4.symm.left ht _).symm
    · exact h4.left ht _
    · exact h4.at ht _ _
  · have hg : c.get? m.key = u.infoMulti.get? m.key := by
      by_cases hk : m.key = k
      · rw [h3.2 fun ht => hm ⟨ht, hk⟩]
      · exact h3.get hk
    unfold addInfoMulti
    show KSim ty0 k (match u.infoMulti.get? m.key with | some lists => _ | none => _)
      (match c.get? m.key with | some lists => _ | none => _)
    rw [hg]
    cases u.infoMulti.get? m.key with
    | none =>
      exact ⟨a, b, c.set m.key [[m.value]], d.set m.key m.type, e, f, rfl, h1, h2, h3.set _ _, h4.set _ _, h5, h6⟩
    | some lists =>
      dsimp only
      split
      · exact ⟨a, b, c.set m.key _, d, e, f, rfl, h1, h2, h3.set _ _, h4, h5, h6⟩
      · exact ⟨a, b, c.set m.key _, d, e, f, rfl, h1, h2, h3.set _ _, h4, h5, h6⟩

theorem addData_defs (u : ULog) (data : Bytes) :
    (addData u data).state.info = u.info ∧ (addData u data).state.infoTypes = u.infoTypes ∧
    (addData u data).state.infoMulti = u.infoMulti ∧ (addData u data).state.infoMultiTypes = u.infoMultiTypes ∧
    (addData u data).state.initialParams = u.initialParams ∧ (addData u data).state.defaultParams = u.defaultParams := by
  have h := addData_redefine u u.info u.infoTypes u.infoMulti u.infoMultiTypes u.initialParams u.defaultParams data
  have e : redefine u.info u.infoTypes u.infoMulti u.infoMultiTypes u.initialParams u.defaultParams u = u := rfl
  rw [e] at h
  rw [h]
  cases addData u data <;> exact ⟨rfl, rfl, rfl, rfl, rfl, rfl⟩

theorem ksim_data (cfg : Cfg) (h : KSim ty0 k u v) (ty : Nat) (data : Bytes) :
    KOut ty0 k (handleData cfg u ty data) (handleData cfg v ty data) := by
  have h0 := h
  by_cases hk : knownData ty = true
  · rcases known_cases hk with hk | hk | hk | hk | hk | hk | hk | hk | hk | hk <;> subst hk
    · rw [handleData_I, handleData_I]
      exact KOut.bind h0 fun m _ => h.addInfo m
    · rw [handleData_M, handleData_M]
      exact KOut.bind h0 fun m _ => h.addMulti m
    · rw [handleData_P, handleData_P]
      obtain ⟨a, b, c, d, e, f, rfl, h⟩ := h
      exact KOut.bind h0 fun m _ => ⟨a, b, c, d, e, f, rfl, h⟩
    · rw [handleData_Q, handleData_Q]
      exact KOut.bind h0 fun m _ => h.addDefault m
    · rw [handleData_A, handleData_A]
      obtain ⟨a, b, c, d, e, f, rfl, h⟩ := h
      refine KOut.bind h0 fun s _ => ?_
      unfold addSub
      split
      · exact ⟨a, b, c, d, e, f, rfl, h⟩
      · exact ⟨a, b, c, d, e, f, rfl, h⟩
    · rw [handleData_L, handleData_L]
      obtain ⟨a, b, c, d, e, f, rfl, h⟩ := h
      exact KOut.bind h0 fun m _ => ⟨a, b, c, d, e, f, rfl, h⟩
    · rw [handleData_C, handleData_C]
      obtain ⟨a, b, c, d, e, f, rfl, h⟩ := h
      exact KOut.bind h0 fun m _ => ⟨a, b, c, d, e, f, rfl, h⟩
    · rw [handleData_D, handleData_D]
      obtain ⟨a, b, c, d, e, f, rfl, h⟩ := h
      rw [addData_redefine]
      obtain ⟨e1, e2, e3, e4, e5, e6⟩ := addData_defs u data
      generalize addData u data = o at e1 e2 e3 e4 e5 e6
      have hs : KSim ty0 k o.state (redefine a b c d e f o.state) :=
        ⟨a, b, c, d, e, f, rfl, by rw [e1, e2, e3, e4, e5, e6]; exact h⟩
      cases o with
      | ok w => exact .ok hs
      | err e w => exact .err hs
    · rw [handleData_O, handleData_O]
      obtain ⟨a, b, c, d, e, f, rfl, h⟩ := h
      exact KOut.bind h0 fun m _ => ⟨a, b, c, d, e, f, rfl, h⟩
    · rw [handleData_S, handleData_S]
      obtain ⟨a, b, c, d, e, f, rfl, h⟩ := h
      exact .ok ⟨a, b, c, d, e, f, rfl, h⟩
  · have hk' : knownData ty = false := by simpa using hk
    rw [handleData_none _ _ _ _ hk', handleData_none _ _ _ _ hk']
    exact .none

theorem ksim_def (cfg : Cfg) (h : KSim ty0 k u v) (ty : Nat) (data : Bytes) :
    KOut ty0 k (handleDef cfg u ty data) (handleDef cfg v ty data) := by
  have h0 := h
  by_cases hk : knownDef ty = true
  · rcases knownDef_cases hk with hk | hk | hk | hk | hk | hk <;> subst hk
    · rw [handleDef_I, handleDef_I]
      exact KOut.bind h0 fun m _ => h.addInfo m
    · rw [handleDef_M, handleDef_M]
      exact KOut.bind h0 fun m _ => h.addMulti m
    · rw [handleDef_F, handleDef_F]
      obtain ⟨a, b, c, d, e, f, rfl, h⟩ := h
      exact KOut.bind h0 fun m _ => ⟨a, b, c, d, e, f, rfl, h⟩
    · rw [handleDef_P, handleDef_P]
      obtain ⟨a, b, c, d, e, f, rfl, h1, h2, h3, h4, h5, h6⟩ := h
      exact KOut.bind h0 fun m _ => ⟨a, b, c, d, e.set m.key m.value, f, rfl, h1, h2, h3, h4, h5.set _ _, h6⟩
    · rw [handleDef_Q, handleDef_Q]
      exact KOut.bind h0 fun m _ => h.addDefault m
    · rw [handleDef_B, handleDef_B]
      cases parseFlagBits data with
      | error e => exact .err h0
      | ok x =>
        obtain ⟨a, b, c, d, e, f, rfl, h⟩ := h
        unfold applyFlagBits
        dsimp only
        split
        · exact .err ⟨a, b, c, d, e, f, rfl, h⟩
        · split
          · exact .err ⟨a, b, c, d, e, f, rfl, h⟩
          · exact .ok ⟨a, b, c, d, e, f, rfl, h⟩
  · have hk' : knownDef ty = false := by simpa using hk
    rw [handleDef_none _ _ _ _ hk', handleDef_none _ _ _ _ hk']
    exact .none

end

inductive KRun (ty : Nat) (k : Str) : Run → Run → Prop where
  | done {u v} : KSim ty k u v → KRun ty k (.done u) (.done v)
  | stopped {u v} : KSim ty k u v → KRun ty k (.stopped u) (.stopped v)
  | raised {e} : KRun ty k (.raised e) (.raised e)

theorem ksim_run {ty : Nat} {k : Str} (cfg : Cfg) (l : List (Nat × Bytes)) {u v : ULog} (h : KSim ty k u v) :
    KRun ty k (runData cfg l u) (runData cfg l v) := by
  induction l generalizing u v with
  | nil => exact .done h
  | cons m l ih =>
    have hs := ksim_data cfg h m.1 m.2
    unfold runData
    generalize handleData cfg u m.1 m.2 = a at hs
    generalize handleData cfg v m.1 m.2 = b at hs
    cases hs with
    | none => exact ih h
    | ok h' => exact ih h'
    | @err e u' v' h' =>
      cases e
      case indexError => exact ih h'.corrupt
      case structError => exact .stopped h'
      all_goals exact .raised

theorem ksim_defs {ty : Nat} {k : Str} (cfg : Cfg) (l : List (Nat × Bytes)) {u v : ULog} (h : KSim ty k u v) :
    KRun ty k (runDefs cfg l u) (runDefs cfg l v) := by
  induction l generalizing u v with
  | nil => exact .done h
  | cons m l ih =>
    have hs := ksim_def cfg h m.1 m.2
    unfold runDefs
    generalize handleDef cfg u m.1 m.2 = a at hs
    generalize handleDef cfg v m.1 m.2 = b at hs
    cases hs with
    | none => exact ih h
    | ok h' => exact ih h'
    | @err e u' v' h' =>
      cases e
      case indexError => exact ih h'.corrupt
      all_goals exact .raised

/-! ### the missing message -/

theorem keyValue_parse {ign : Bool} {d : Bytes} {t key : Str} {x : Value} (h : keyValue ign d = some (t, key, x)) :
    ∃ m, parseInfo ign d = .ok m ∧ m.key = key := by
  cases hp : parseInfo ign d with
  | error e => rw [keyValue_err hp] at h; cases h
  | ok m =>
    have := keyValue_ok hp
    rw [this] at h
    injection h with h
    injection h with h1 h2
    injection h2 with h2 h3
    exact ⟨m, rfl, h2⟩

theorem key_cases {ign : Bool} {ty : Nat} {p : Bytes} {k : Str} (h : keyOf ign (ty, p) = some k) :
    ((ty = tyI ∨ ty = tyP) ∧ ∃ m, parseInfo ign p = .ok m ∧ m.key = k) ∨
    (ty = tyM ∧ ∃ m, parseInfoMulti ign p = .ok m ∧ m.key = k) ∨
    (ty = tyQ ∧ ∃ m, parseParamDefault ign p = .ok m ∧ m.2.key = k) := by
  unfold keyOf at h
  dsimp only at h
  split at h
  · rename_i ht
    left
    refine ⟨ht, ?_⟩
    cases hv : keyValue ign p with
    | none => rw [hv] at h; cases h
    | some r =>
      rw [hv] at h
      injection h with h
      obtain ⟨m, hm, hk⟩ := keyValue_parse hv
      exact ⟨m, hm, hk.trans h⟩
  · split at h
    · rename_i ht
      right
      cases hv : keyValue ign (p.drop 1) with
      | none => rw [hv] at h; cases h
      | some r =>
        rw [hv] at h
        injection h with h
        obtain ⟨m, hm, hk⟩ := keyValue_parse hv
        obtain ⟨n, hn⟩ : ∃ n, unpackU 1 (slice 0 1 p) = .ok n := by
          unfold unpackU
          rw [if_pos]
          · exact ⟨_, rfl⟩
          · unfold slice
            simp
            omega
        rcases ht.1 with h1 | h1
        · left
          refine ⟨h1, { m with cont := n }, ?_, hk.trans h⟩
          unfold parseInfoMulti
          rw [hn, hm]
          rfl
        · right
          refine ⟨h1, (n, m), ?_, hk.trans h⟩
          unfold parseParamDefault
          rw [hn, hm]
          rfl
    · cases h

theorem addInfo_left {k : Str} (u : ULog) {m : InfoMsg} (hk : m.key = k) : KSim tyI k (addInfo u m) u := by
  subst hk
  exact ⟨u.info, u.infoTypes, u.infoMulti, u.infoMultiTypes, u.initialParams, u.defaultParams, rfl,
    (SameBut.refl _ _ _).left rfl _, (SameBut.refl _ _ _).left rfl _, .refl _ _ _, .refl _ _ _, .refl _ _ _,
    fun _ => rfl, fun _ => rfl⟩

theorem addMulti_left {k : Str} (u : ULog) {m : InfoMsg} (hk : m.key = k) : KSim tyM k (addInfoMulti u m) u := by
  subst hk
  refine ⟨u.info, u.infoTypes, u.infoMulti, u.infoMultiTypes, u.initialParams, u.defaultParams, ?_⟩
  unfold addInfoMulti
  split
  · split
    · exact ⟨rfl, .refl _ _ _, .refl _ _ _, (SameBut.refl _ _ _).left rfl _, .refl _ _ _, .refl _ _ _,
        fun _ => rfl, fun _ => rfl⟩
    · exact ⟨rfl, .refl _ _ _, .refl _ _ _, (SameBut.refl _ _ _).left rfl _, .refl _ _ _, .refl _ _ _,
        fun _ => rfl, fun _ => rfl⟩
  · exact ⟨rfl, .refl _ _ _, .refl _ _ _, (SameBut.refl _ _ _).left rfl _, (SameBut.refl _ _ _).left rfl _, .refl _ _ _,
      fun _ => rfl, fun _ => rfl⟩

theorem addDefault_left {k : Str} (u : ULog) {p : Nat × InfoMsg} (hk : p.2.key = k) :
    KSim tyQ k (addParamDefault u p) u := by
  subst hk
  refine ⟨u.info, u.infoTypes, u.infoMulti, u.infoMultiTypes, u.initialParams, u.defaultParams, rfl, .refl _ _ _,
    .refl _ _ _, .refl _ _ _, .refl _ _ _, .refl _ _ _, ?_⟩
  exact DefSame.left rfl ⟨fun _ => rfl, fun _ => rfl⟩ _ _ _

theorem key_def {cfg : Cfg} {ty : Nat} {p : Bytes} {k : Str} (h : keyOf cfg.ign (ty, p) = some k) (u : ULog) :
    ∃ w, handleDef cfg u ty p = some (.ok w) ∧ KSim ty k w u := by
  rcases key_cases h with ⟨rfl | rfl, m, hm, hk⟩ | ⟨rfl, m, hm, hk⟩ | ⟨rfl, m, hm, hk⟩
  · rw [show tyI = MSG_TYPE_INFO from rfl, handleDef_I, hm]
    exact ⟨_, rfl, addInfo_left u hk⟩
  · rw [show tyP = MSG_TYPE_PARAMETER from rfl, handleDef_P, hm]
    subst hk
    exact ⟨_, rfl, u.info, u.infoTypes, u.infoMulti, u.infoMultiTypes, u.initialParams, u.defaultParams, rfl,
      .refl _ _ _, .refl _ _ _, .refl _ _ _, .refl _ _ _, (SameBut.refl _ _ _).left rfl _, fun _ => rfl, fun _ => rfl⟩
  · rw [show tyM = MSG_TYPE_INFO_MULTIPLE from rfl, handleDef_M, hm]
    exact ⟨_, rfl, addMulti_left u hk⟩
  · rw [show tyQ = MSG_TYPE_PARAMETER_DEFAULT from rfl, handleDef_Q, hm]
    exact ⟨_, rfl, addDefault_left u hk⟩

theorem key_data {cfg : Cfg} {ty : Nat} {p : Bytes} {k : Str} (h : keyOf cfg.ign (ty, p) = some k) (hp : ty ≠ tyP) (u : ULog) :
    ∃ w, handleData cfg u ty p = some (.ok w) ∧ KSim ty k w u := by
  rcases key_cases h with ⟨rfl | rfl, m, hm, hk⟩ | ⟨rfl, m, hm, hk⟩ | ⟨rfl, m, hm, hk⟩
  · rw [show tyI = MSG_TYPE_INFO from rfl, handleData_I, hm]
    exact ⟨_, rfl, addInfo_left u hk⟩
  · exact absurd rfl hp
  · rw [show tyM = MSG_TYPE_INFO_MULTIPLE from rfl, handleData_M, hm]
    exact ⟨_, rfl, addMulti_left u hk⟩
  · rw [show tyQ = MSG_TYPE_PARAMETER_DEFAULT from rfl, handleData_Q, hm]
    exact ⟨_, rfl, addDefault_left u hk⟩

theorem krun_refl (ty : Nat) (k : Str) (r : Run) : KRun ty k r r := by
  cases r
  · exact .done (.refl _ _ _)
  · exact .stopped (.refl _ _ _)
  · exact .raised

theorem ksim_lost_defs {cfg : Cfg} {ty : Nat} {p : Bytes} {k : Str} (h : keyOf cfg.ign (ty, p) = some k)
    (pre post : List (Nat × Bytes)) (u : ULog) :
    KRun ty k (runDefs cfg (pre ++ (ty, p) :: post) u) (runDefs cfg (pre ++ post) u) := by
  induction pre generalizing u with
  | nil =>
    obtain ⟨w, hw, hs⟩ := key_def h u
    show KRun ty k (runDefs cfg ((ty, p) :: post) u) (runDefs cfg post u)
    rw [show runDefs cfg ((ty, p) :: post) u = runDefs cfg post w by
      rw [runDefs]
      simp only [hw]]
    exact ksim_defs cfg post hs
  | cons m pre ih =>
    rw [List.cons_append, List.cons_append]
    unfold runDefs
    cases handleDef cfg u m.1 m.2 with
    | none => exact ih u
    | some o =>
      cases o with
      | ok w => exact ih w
      | err e w =>
        cases e
        case indexError => exact ih _
        all_goals exact .raised

theorem ksim_lost_data {cfg : Cfg} {ty : Nat} {p : Bytes} {k : Str} (h : keyOf cfg.ign (ty, p) = some k) (hp : ty ≠ tyP)
    (pre post : List (Nat × Bytes)) (u : ULog) :
    KRun ty k (runData cfg (pre ++ (ty, p) :: post) u) (runData cfg (pre ++ post) u) := by
  induction pre generalizing u with
  | nil =>
    obtain ⟨w, hw, hs⟩ := key_data h hp u
    show KRun ty k (runData cfg ((ty, p) :: post) u) (runData cfg post u)
    rw [show runData cfg ((ty, p) :: post) u = runData cfg post w by
      rw [runData]
      simp only [hw]]
    exact ksim_run cfg post hs
  | cons m pre ih =>
    rw [List.cons_append, List.cons_append]
    unfold runData
    cases handleData cfg u m.1 m.2 with
    | none => exact ih u
    | some o =>
      cases o with
      | ok w => exact ih w
      | err e w =>
        cases e
        case indexError => exact ih _
        case structError => exact .stopped (.refl _ _ _)
        all_goals exact .raised

theorem ksim_finish {ty : Nat} {k : Str} {r s : Run} (h : KRun ty k r s) : SameLoad (KSim ty k) (finish r) (finish s) := by
  have key : ∀ u w, KSim ty k u w → SameLoad (KSim ty k) (LoadRes.ofExcept (finalize u)) (LoadRes.ofExcept (finalize w)) := by
    intro u w hs
    obtain ⟨a, b, c, d, e, f, rfl, h⟩ := hs
    unfold finalize
    show SameLoad (KSim ty k) (LoadRes.ofExcept (_ >>= _)) (LoadRes.ofExcept
        (((u.subs.reverse.filter (fun p => p.2.buffer.length > 0)).mapM fun p => mkData p.2) >>= _))
    cases ((u.subs.reverse.filter (fun p => p.2.buffer.length > 0)).mapM fun p => mkData p.2) with
    | error e => exact .inl ⟨e, rfl, rfl⟩
    | ok new => exact .inr ⟨_, _, rfl, rfl, a, b, c, d, e, f, rfl, h⟩
  cases h with
  | raised => exact .inl ⟨_, rfl, rfl⟩
  | @done u w hs => exact key u w hs
  | @stopped u w hs => exact key u w hs

theorem ksim_load {ty : Nat} {k : Str} {cfg : Cfg} {defs defs' msgs msgs' : List (Nat × Bytes)} {u0 : ULog}
    (hd : KRun ty k (runDefs cfg defs u0) (runDefs cfg defs' u0))
    (hm : ∀ u v, KSim ty k u v → KRun ty k (runData cfg msgs u) (runData cfg msgs' v)) :
    SameLoad (KSim ty k) (loadMsgs cfg defs msgs u0) (loadMsgs cfg defs' msgs' u0) := by
  unfold loadMsgs
  generalize runDefs cfg defs u0 = r at hd
  generalize runDefs cfg defs' u0 = s at hd
  cases hd with
  | raised => exact .inl ⟨_, rfl, rfl⟩
  | @stopped u w hs => exact .inr ⟨_, _, rfl, rfl, hs⟩
  | @done u w hs =>
    dsimp only
    split
    · exact .inr ⟨_, _, rfl, rfl, hs⟩
    · exact ksim_finish (hm u w hs)

theorem KSim.only {ty : Nat} {k : Str} {u v : ULog} (h : KSim ty k u v) : OnlyKey ty k u v := by
  obtain ⟨a, b, c, d, e, f, rfl, h1, h2, h3, h4, h5, h6⟩ := h
  exact ⟨rfl, h1, h2, h3, h4, h5, h6⟩

end PyULog
