import Verif.Spec.Interleave
import Verif.Lemmas.Attr
import Verif.Props.Framing
/-
Messages of different streams can be exchanged.
-/
namespace PyULog
open Spec

theorem dict_set_comm {κ α : Type} [DecidableEq κ] (d : Dict κ α) {k l : κ} (v w : α) (h : k ≠ l)
    (hk : (d.get? k).isSome) : (d.set k v).set l w = (d.set l w).set k v := by
  induction d with
  | nil => cases hk
  | cons p d ih =>
    obtain ⟨a, b⟩ := p
    by_cases h1 : a = k
    · subst h1
      simp only [Dict.set, if_true, if_neg h]
    · by_cases h2 : a = l
      · subst h2
        simp only [Dict.set, if_true, if_neg h1]
      · simp only [Dict.set, if_neg h1, if_neg h2]
        rw [ih (by simpa only [Dict.get?, if_neg h1] using hk)]

/-- the object after a data message -/
def afterData (u : ULog) (d : Bytes) : ULog :=
  match u.subs.get? (leAt d 0 2) with
  | some s =>
    if d.length = 2 + rowSize s.fields then
      { u with
        subs := u.subs.set (leAt d 0 2) { s with buffer := s.buffer ++ d.drop 2 }
        lastTs := max u.lastTs (leAt d (2 + tsPos s.fields) 8) }
    else { u with fileCorrupt := true }
  | none => u

theorem afterData_spec {cfg : Cfg} {u : ULog} {d : Bytes} (hu : SubsOk u) (ht : Taken cfg u (tyD, d)) :
    addData u d = .ok (afterData u d) := by
  rcases ht with ⟨h, _⟩ | ⟨_, hlen, ht⟩
  · exact absurd (show tyD = tyL from h) (by decide)
  · simp only at hlen ht
    unfold afterData
    rcases addData_cases u d hu with ⟨h2, _⟩ | ⟨_, hn, ⟨_, h⟩ | ⟨hf, _⟩⟩ |
      ⟨_, s, hs, ⟨hl, h⟩ | ⟨hl, ⟨_, h⟩ | ⟨hw, _⟩⟩⟩
    · omega
    · rw [hn]; exact h
    · rcases ht with ⟨s, hs, _⟩ | ⟨_, hin⟩
      · rw [hn] at hs; cases hs
      · exact absurd hin hf
    · rw [hs]; simp only [if_neg hl]; exact h
    · rw [hs]; simp only [if_pos hl]; exact h
    · rcases ht with ⟨s', hs', hts⟩ | ⟨hn, _⟩
      · rw [hs] at hs'; cases hs'; omega
      · rw [hn] at hs; cases hs

theorem afterData_filtered (u : ULog) (d : Bytes) : (afterData u d).filteredIds = u.filteredIds := by
  unfold afterData
  split
  · split <;> rfl
  · rfl

theorem afterData_get (u : ULog) (d : Bytes) (id : Nat) :
    ((afterData u d).subs.get? id).map (·.fields) = (u.subs.get? id).map (·.fields) := by
  unfold afterData
  split
  · rename_i s hs
    split
    · simp only [Dict.get?_set]
      by_cases h : leAt d 0 2 = id
      · rw [if_pos h, ← h, hs]; rfl
      · rw [if_neg h]
    · rfl
  · rfl

theorem afterData_get_ne (u : ULog) (d : Bytes) {id : Nat} (h : leAt d 0 2 ≠ id) :
    (afterData u d).subs.get? id = u.subs.get? id := by
  unfold afterData
  split
  · split
    · exact Dict.get?_set_ne _ _ h
    · rfl
  · rfl

theorem afterData_none {u : ULog} {d : Bytes} (h : u.subs.get? (leAt d 0 2) = none) : afterData u d = u := by
  unfold afterData; rw [h]

theorem afterData_good {u : ULog} {d : Bytes} {s : Sub} (h : u.subs.get? (leAt d 0 2) = some s)
    (hl : d.length = 2 + rowSize s.fields) : afterData u d =
      { u with
        subs := u.subs.set (leAt d 0 2) { s with buffer := s.buffer ++ d.drop 2 }
        lastTs := max u.lastTs (leAt d (2 + tsPos s.fields) 8) } := by
  unfold afterData; rw [h]; simp only [if_pos hl]

theorem afterData_bad {u : ULog} {d : Bytes} {s : Sub} (h : u.subs.get? (leAt d 0 2) = some s)
    (hl : d.length ≠ 2 + rowSize s.fields) : afterData u d = { u with fileCorrupt := true } := by
  unfold afterData; rw [h]; simp only [if_neg hl]

theorem afterData_comm (u : ULog) {a b : Bytes} (h : leAt a 0 2 ≠ leAt b 0 2) :
    afterData (afterData u a) b = afterData (afterData u b) a := by
  have hb := afterData_get_ne u a h
  have ha := afterData_get_ne u b (Ne.symm h)
  cases hsa : u.subs.get? (leAt a 0 2) with
  | none =>
    rw [afterData_none hsa, afterData_none (ha.trans hsa)]
  | some s =>
    cases hsb : u.subs.get? (leAt b 0 2) with
    | none =>
      rw [afterData_none hsb, afterData_none (hb.trans hsb)]
    | some t =>
      by_cases h1 : a.length = 2 + rowSize s.fields <;> by_cases h2 : b.length = 2 + rowSize t.fields
      · rw [afterData_good (hb.trans hsb) h2, afterData_good (ha.trans hsa) h1, afterData_good hsa h1,
          afterData_good hsb h2]
        simp only
        rw [dict_set_comm _ _ _ h (by rw [hsa]; rfl), Nat.max_right_comm]
      · rw [afterData_bad (hb.trans hsb) h2, afterData_good (ha.trans hsa) h1, afterData_good hsa h1,
          afterData_bad hsb h2]
      · rw [afterData_good (hb.trans hsb) h2, afterData_bad (ha.trans hsa) h1, afterData_bad hsa h1,
          afterData_good hsb h2]
      · rw [afterData_bad (hb.trans hsb) h2, afterData_bad (ha.trans hsa) h1, afterData_bad hsa h1,
          afterData_bad hsb h2]

theorem afterData_logged (u : ULog) (l : List LogMsg) (d : Bytes) :
    afterData { u with logged := l } d = { afterData u d with logged := l } := by
  unfold afterData
  cases u.subs.get? (leAt d 0 2) with
  | none => rfl
  | some s =>
    simp only
    split <;> rfl

theorem afterData_texts (u : ULog) (d : Bytes) : (afterData u d).logged = u.logged := by
  unfold afterData
  split
  · split <;> rfl
  · rfl

/-- the object after a message of a stream -/
def afterMsg (cfg : Cfg) (u : ULog) (m : Nat × Bytes) : ULog :=
  if m.1 = tyD then afterData u m.2
  else match parseLogging cfg.ign m.2 with
    | .ok x => { u with logged := u.logged ++ [x] }
    | .error _ => u

theorem afterMsg_spec {cfg : Cfg} {u : ULog} {m : Nat × Bytes} (hu : SubsOk u) (ht : Taken cfg u m) :
    handleData cfg u m.1 m.2 = some (.ok (afterMsg cfg u m)) := by
  obtain ⟨ty, d⟩ := m
  have ht' := ht
  rcases ht with ⟨h, x, hx⟩ | ⟨h, _⟩
  · simp only at h hx
    subst h
    show handleData cfg u MSG_TYPE_LOGGING d = _
    rw [handleData_L]
    unfold afterMsg
    rw [if_neg (show ¬ tyL = tyD by decide)]
    simp only [hx]
    rfl
  · simp only at h
    subst h
    show handleData cfg u MSG_TYPE_DATA d = _
    rw [handleData_D, afterData_spec hu ht']
    unfold afterMsg
    rw [if_pos rfl]

theorem afterMsg_subsOk {cfg : Cfg} {u : ULog} {m : Nat × Bytes} (hu : SubsOk u) (ht : Taken cfg u m) :
    SubsOk (afterMsg cfg u m) := handleData_subsOk hu (afterMsg_spec hu ht)

theorem afterMsg_taken {cfg : Cfg} {u : ULog} (m : Nat × Bytes) {x : Nat × Bytes} (h : Taken cfg u x) :
    Taken cfg (afterMsg cfg u m) x := by
  rcases h with h | ⟨h1, h2, h3⟩
  · exact Or.inl h
  · refine Or.inr ⟨h1, h2, ?_⟩
    have hg : ((afterMsg cfg u m).subs.get? (leAt x.2 0 2)).map (·.fields) =
        (u.subs.get? (leAt x.2 0 2)).map (·.fields) := by
      unfold afterMsg
      split
      · exact afterData_get ..
      · split <;> rfl
    have hf : (afterMsg cfg u m).filteredIds = u.filteredIds := by
      unfold afterMsg
      split
      · exact afterData_filtered ..
      · split <;> rfl
    rw [hf]
    rcases h3 with ⟨s, hs, hts⟩ | ⟨hn, hin⟩
    · rw [hs] at hg
      cases hg' : (afterMsg cfg u m).subs.get? (leAt x.2 0 2) with
      | none => rw [hg'] at hg; cases hg
      | some s' =>
        rw [hg'] at hg
        simp only [Option.map_some, Option.some.injEq] at hg
        exact Or.inl ⟨s', rfl, by rw [hg]; exact hts⟩
    · rw [hn] at hg
      cases hg' : (afterMsg cfg u m).subs.get? (leAt x.2 0 2) with
      | none => exact Or.inr ⟨rfl, hin⟩
      | some s' => rw [hg'] at hg; cases hg

theorem afterMsg_comm (cfg : Cfg) (u : ULog) {a b : Nat × Bytes} (h : stream a ≠ stream b) :
    afterMsg cfg (afterMsg cfg u a) b = afterMsg cfg (afterMsg cfg u b) a := by
  unfold stream at h
  by_cases ha : a.1 = tyD <;> by_cases hb : b.1 = tyD
  · rw [if_pos ha, if_pos hb] at h
    simp only [afterMsg, if_pos ha, if_pos hb]
    exact afterData_comm u (fun e => h (by rw [e]))
  · simp only [afterMsg, if_pos ha, if_neg hb]
    cases parseLogging cfg.ign b.2 with
    | error e => rfl
    | ok x => simp only [afterData_logged, afterData_texts]
  · simp only [afterMsg, if_neg ha, if_pos hb]
    cases parseLogging cfg.ign a.2 with
    | error e => rfl
    | ok x => simp only [afterData_logged, afterData_texts]
  · rw [if_neg ha, if_neg hb] at h
    exact absurd rfl h

theorem runData_taken {cfg : Cfg} {u : ULog} (l : List (Nat × Bytes)) (hu : SubsOk u)
    (hl : ∀ m ∈ l, Taken cfg u m) : runData cfg l u = .done (l.foldl (afterMsg cfg) u) := by
  induction l generalizing u with
  | nil => rfl
  | cons m l ih =>
    have hm := hl m (List.mem_cons_self ..)
    simp only [runData, afterMsg_spec hu hm, List.foldl_cons]
    exact ih (afterMsg_subsOk hu hm) fun x hx => afterMsg_taken m (hl x (List.mem_cons_of_mem _ hx))

theorem foldl_move (cfg : Cfg) (u : ULog) (m : Nat × Bytes) (p : List (Nat × Bytes))
    (h : ∀ x ∈ p, stream x ≠ stream m) :
    afterMsg cfg (p.foldl (afterMsg cfg) u) m = p.foldl (afterMsg cfg) (afterMsg cfg u m) := by
  induction p generalizing u with
  | nil => rfl
  | cons x p ih =>
    rw [List.foldl_cons, List.foldl_cons, ih _ fun y hy => h y (List.mem_cons_of_mem _ hy)]
    rw [afterMsg_comm cfg u (h x (List.mem_cons_self ..))]

theorem first_of_stream {m : Nat × Bytes} {b t : List (Nat × Bytes)}
    (h : (b.filter fun x => decide (stream x = stream m)) = m :: t) :
    ∃ p q, b = p ++ m :: q ∧ ∀ x ∈ p, stream x ≠ stream m := by
  induction b with
  | nil => cases h
  | cons x b ih =>
    by_cases hx : stream x = stream m
    · rw [List.filter_cons_of_pos (by simpa using hx)] at h
      cases h
      exact ⟨[], b, rfl, by simp⟩
    · rw [List.filter_cons_of_neg (by simpa using hx)] at h
      obtain ⟨p, q, he, hp⟩ := ih h
      refine ⟨x :: p, q, by rw [he]; rfl, ?_⟩
      intro y hy
      rcases List.mem_cons.mp hy with rfl | hy
      · exact hx
      · exact hp y hy

theorem streams_tail {m : Nat × Bytes} {a p q : List (Nat × Bytes)} (h : SameStreams (m :: a) (p ++ m :: q))
    (hp : ∀ x ∈ p, stream x ≠ stream m) : SameStreams a (p ++ q) := by
  intro c
  have hc := h c
  by_cases hmc : stream m = c
  · rw [List.filter_cons_of_pos (by simpa using hmc), List.filter_append,
      List.filter_cons_of_pos (by simpa using hmc)] at hc
    have hnil : (p.filter fun x => decide (stream x = c)) = [] := by
      rw [List.filter_eq_nil_iff]
      intro x hx
      rw [← hmc]
      simpa using hp x hx
    rw [hnil, List.nil_append, List.cons_inj_right] at hc
    rw [List.filter_append, hnil, List.nil_append]
    exact hc
  · rw [List.filter_cons_of_neg (by simpa using hmc), List.filter_append,
      List.filter_cons_of_neg (by simpa using hmc)] at hc
    rw [List.filter_append]
    exact hc

/-- induction over two lists with the same streams -/
theorem streams_induction {P : List (Nat × Bytes) → List (Nat × Bytes) → Prop} (hnil : P [] [])
    (hstep : ∀ m a p q, (∀ x ∈ p, stream x ≠ stream m) → P a (p ++ q) → P (m :: a) (p ++ m :: q))
    (a b : List (Nat × Bytes)) (h : SameStreams a b) : P a b := by
  induction a generalizing b with
  | nil =>
    cases b with
    | nil => exact hnil
    | cons m b =>
      have := h (stream m)
      rw [List.filter_cons_of_pos (by simp)] at this
      cases this
  | cons m a ih =>
    have hm := h (stream m)
    rw [List.filter_cons_of_pos (by simp)] at hm
    obtain ⟨p, q, he, hp⟩ := first_of_stream hm.symm
    subst he
    exact hstep m a p q hp (ih _ (streams_tail h hp))

theorem foldl_streams (cfg : Cfg) (a b : List (Nat × Bytes)) (h : SameStreams a b) (u : ULog) :
    a.foldl (afterMsg cfg) u = b.foldl (afterMsg cfg) u := by
  refine streams_induction (P := fun a b => ∀ u, a.foldl (afterMsg cfg) u = b.foldl (afterMsg cfg) u)
    (fun _ => rfl) ?_ a b h u
  intro m a p q hp ih u
  rw [List.foldl_cons, ih, List.foldl_append, List.foldl_append, List.foldl_cons, foldl_move cfg u m p hp]

theorem encMsgs_streams (a b : List (Nat × Bytes)) (h : SameStreams a b) :
    (encMsgs a).length = (encMsgs b).length := by
  refine streams_induction (P := fun a b => (encMsgs a).length = (encMsgs b).length) rfl ?_ a b h
  intro m a p q _ ih
  rw [encMsgs_append, List.length_append] at ih
  rw [encMsgs_append, encMsgs_cons, encMsgs_cons, List.length_append, List.length_append, List.length_append]
  omega

theorem streams_mem {a b : List (Nat × Bytes)} (h : SameStreams a b) {m : Nat × Bytes} (hm : m ∈ b) : m ∈ a := by
  have h1 : m ∈ b.filter fun x => decide (stream x = stream m) := List.mem_filter.mpr ⟨hm, by simp⟩
  rw [← h (stream m)] at h1
  exact (List.mem_filter.mp h1).1

theorem sameStreams_iff (a b : List (Nat × Bytes)) : SameStreams a b ↔
    ∀ m ∈ a ++ b, (a.filter fun x => decide (stream x = stream m)) = b.filter fun x => decide (stream x = stream m) := by
  constructor
  · intro h m _; exact h _
  · intro h c
    by_cases hc : ∃ m ∈ a ++ b, stream m = c
    · obtain ⟨m, hm, rfl⟩ := hc
      exact h m hm
    · have hn : ∀ l : List (Nat × Bytes), (∀ m ∈ l, m ∈ a ++ b) → (l.filter fun x => decide (stream x = c)) = [] := by
        intro l hl
        rw [List.filter_eq_nil_iff]
        intro x hx he
        exact hc ⟨x, hl x hx, by simpa using he⟩
      rw [hn a fun m h => List.mem_append_left _ h, hn b fun m h => List.mem_append_right _ h]

instance (a b : List (Nat × Bytes)) : Decidable (SameStreams a b) := decidable_of_iff' _ (sameStreams_iff a b)

/-- `Taken` as a test -/
def takenTest (cfg : Cfg) (u : ULog) (m : Nat × Bytes) : Bool :=
  (decide (m.1 = tyL) && (parseLogging cfg.ign m.2).toOption.isSome) ||
  (decide (m.1 = tyD ∧ 2 ≤ m.2.length) &&
    match u.subs.get? (leAt m.2 0 2) with
    | some s => decide (tsPos s.fields + 8 ≤ rowSize s.fields)
    | none => decide (leAt m.2 0 2 ∈ u.filteredIds))

theorem taken_of_test {cfg : Cfg} {u : ULog} {m : Nat × Bytes} (h : takenTest cfg u m = true) : Taken cfg u m := by
  unfold takenTest at h
  rw [Bool.or_eq_true, Bool.and_eq_true, Bool.and_eq_true, decide_eq_true_iff, decide_eq_true_iff] at h
  rcases h with ⟨h1, h2⟩ | ⟨⟨h1, h2⟩, h3⟩
  · left
    refine ⟨h1, ?_⟩
    cases hx : parseLogging cfg.ign m.2 with
    | error e => rw [hx] at h2; cases h2
    | ok x => exact ⟨x, rfl⟩
  · right
    refine ⟨h1, h2, ?_⟩
    cases hs : u.subs.get? (leAt m.2 0 2) with
    | some s => rw [hs] at h3; exact Or.inl ⟨s, rfl, by simpa using h3⟩
    | none => rw [hs] at h3; exact Or.inr ⟨rfl, by simpa using h3⟩

theorem runDefs_subs {cfg : Cfg} (l : List (Nat × Bytes)) (u v : ULog) (h : runDefs cfg l u = .done v)
    (hs : u.subs = []) : v.subs = [] := by
  induction l generalizing u with
  | nil => cases h; exact hs
  | cons m l ih =>
    simp only [runDefs] at h
    cases hod : handleDef cfg u m.1 m.2 with
    | none => rw [hod] at h; exact ih u h hs
    | some o =>
      have hf : o.state.subs = u.subs := (handleDef_presD _ _ _ _ _ hod).subs
      rw [hod] at h
      cases o with
      | ok u' => exact ih u' h (hf.trans hs)
      | err e u' =>
        cases e
        case indexError => exact ih { u' with fileCorrupt := true } h (hf.trans hs)
        all_goals cases h

end PyULog
