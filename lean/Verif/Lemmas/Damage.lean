import Verif.Spec.Damage
import Verif.Spec.Frames
import Verif.Lemmas.Filter
import Verif.Lemmas.Attitude
/-
Lemmas for C107: two runs of the reader over messages that differ in the values of one sample.
-/
namespace PyULog
open Spec

/-! ### rows -/

/-- a part of the bytes is replaced -/
def replaced (k : Nat) (x b : Bytes) : Bytes := b.take k ++ x ++ b.drop (k + x.length)

theorem replaced_length {k : Nat} {x b : Bytes} (h : k + x.length ≤ b.length) : (replaced k x b).length = b.length := by
  unfold replaced
  rw [List.length_append, List.length_append, List.length_take, List.length_drop]
  omega

theorem replaced_append {k : Nat} {x b : Bytes} (c : Bytes) (h : k + x.length ≤ b.length) :
    replaced k x (b ++ c) = replaced k x b ++ c := by
  unfold replaced
  rw [List.take_append_of_le_length (by omega), List.drop_append_of_le_length h]
  simp only [List.append_assoc]

theorem replaced_get {k : Nat} {x b : Bytes} (h : k + x.length ≤ b.length) {m : Nat} (hm : m < k ∨ k + x.length ≤ m) :
    (replaced k x b)[m]? = b[m]? := by
  unfold replaced
  rcases hm with hm | hm
  · rw [List.getElem?_append_left (by rw [List.length_append, List.length_take]; omega),
      List.getElem?_append_left (by rw [List.length_take]; omega), List.getElem?_take_of_lt hm]
  · rw [List.getElem?_append_right (by rw [List.length_append, List.length_take]; omega), List.getElem?_drop]
    congr 1
    rw [List.length_append, List.length_take]
    omega

theorem rowsOf_replaced {i n : Nat} {x b : Bytes} (hx : x.length = n) (h : i * n + n ≤ b.length) (j : Nat) (hj : j ≠ i) :
    (rowsOf n (replaced (i * n) x b))[j]? = (rowsOf n b)[j]? := by
  have hl : (replaced (i * n) x b).length = b.length := replaced_length (by omega)
  unfold rowsOf
  rw [List.getElem?_map, List.getElem?_map, hl]
  cases hr : (List.range (b.length / n))[j]? with
  | none => rfl
  | some y =>
    have hy : y = j := by
      rw [List.getElem?_range] at hr
      · injection hr with hr; exact hr.symm
      · by_cases hlt : j < b.length / n
        · exact hlt
        · rw [List.getElem?_eq_none (by rw [List.length_range]; omega)] at hr
          cases hr
    subst hy
    simp only [Option.map_some]
    congr 1
    apply List.ext_getElem?
    intro t
    by_cases ht : t < n
    · rw [List.getElem?_take_of_lt ht, List.getElem?_take_of_lt ht, List.getElem?_drop, List.getElem?_drop]
      apply replaced_get (by omega)
      rcases Nat.lt_or_ge y i with hlt | hge
      · have := Nat.mul_le_mul_right n (show y + 1 ≤ i from hlt)
        rw [Nat.add_mul, Nat.one_mul] at this
        omega
      · have := Nat.mul_le_mul_right n (show i + 1 ≤ y by omega)
        rw [Nat.add_mul, Nat.one_mul] at this
        omega
    · rw [List.getElem?_take_eq_none (by omega), List.getElem?_take_eq_none (by omega)]

theorem columns_lengths {rows rows' : List Bytes} (h : rows'.length = rows.length) (off : Nat) (fs : List FieldData) :
    (columns rows' off fs).map (fun c => (c.1, c.2.length)) = (columns rows off fs).map (fun c => (c.1, c.2.length)) := by
  induction fs generalizing off with
  | nil => rfl
  | cons f fs ih =>
    unfold columns
    rw [List.map_cons, List.map_cons, ih]
    simp only [List.length_map, h]

theorem columns_cells {rows rows' : List Bytes} {j : Nat} (h : rows'[j]? = rows[j]?) (off : Nat) (fs : List FieldData)
    (name : Str) :
    (Dict.get? (columns rows' off fs) name).bind (·[j]?) = (Dict.get? (columns rows off fs) name).bind (·[j]?) := by
  induction fs generalizing off with
  | nil => rfl
  | cons f fs ih =>
    unfold columns Dict.get?
    split
    · simp only [Option.bind_some, List.getElem?_map, h]
    · exact ih _

theorem length_rowsOf (n : Nat) (b : Bytes) : (rowsOf n b).length = b.length / n := by
  unfold rowsOf
  rw [List.length_map, List.length_range]

/-! ### subscriptions -/

/-- the subscription with this id has other bytes in its buffer -/
def patchSub (id k : Nat) (x : Bytes) (i : Nat) (s : Sub) : Sub :=
  if i = id then { s with buffer := replaced k x s.buffer } else s

/-- the subscriptions are the same, or the buffer of one differs in one row -/
def SubsDiff (id : Nat) (us vs : Dict Nat Sub) : Prop :=
  vs = us ∨ ∃ (n : Nat) (x : Bytes) (s : Sub), us.get? id = some s ∧ n * s.itemSize + x.length ≤ s.buffer.length ∧
    x.length = s.itemSize ∧ vs = us.map fun p => (p.1, patchSub id (n * s.itemSize) x p.1 p.2)

theorem map_set_keyed {α : Type} (g : Nat → α → α) (d : Dict Nat α) (i : Nat) (a : α) :
    (Dict.set d i a).map (fun p => (p.1, g p.1 p.2)) = Dict.set (d.map fun p => (p.1, g p.1 p.2)) i (g i a) := by
  induction d with
  | nil => rfl
  | cons p d ih =>
    rw [List.map_cons]
    unfold Dict.set
    split
    · rename_i h
      have h : p.1 = i := h
      simp only [List.map_cons]
      rw [h]
    · rename_i h
      have h : ¬ p.1 = i := h
      simp only [List.map_cons]
      rw [ih]

theorem get?_map_keyed {α : Type} (g : Nat → α → α) (d : Dict Nat α) (i : Nat) :
    Dict.get? (d.map fun p => (p.1, g p.1 p.2)) i = (d.get? i).map (g i) := by
  induction d with
  | nil => rfl
  | cons p d ih =>
    rw [List.map_cons]
    unfold Dict.get?
    split
    · rename_i h
      have h : p.1 = i := h
      rw [h]
      rfl
    · rename_i h
      have h : ¬ p.1 = i := h
      rw [ih]

theorem set_map_at {α : Type} (g : Nat → α → α) (id : Nat) (hg : ∀ i a, i ≠ id → g i a = a) (d : Dict Nat α)
    (hn : d.keys.Nodup) (a : α) (hin : id ∈ d.keys) :
    Dict.set (d.map fun p => (p.1, g p.1 p.2)) id a = Dict.set d id a := by
  induction d with
  | nil => cases hin
  | cons p d ih =>
    unfold Dict.keys at hn hin
    rw [List.map_cons, List.nodup_cons] at hn
    rw [List.map_cons]
    unfold Dict.set
    by_cases h : p.1 = id
    · rw [if_pos h, if_pos h]
      congr 1
      have : d.map (fun p => (p.1, g p.1 p.2)) = d.map fun p => p := by
        apply List.map_congr_left
        intro q hq
        rw [hg]
        intro e
        exact hn.1 (List.mem_map.mpr ⟨q, hq, e.trans h.symm⟩)
      rw [this, List.map_id']
    · rw [if_neg h, if_neg h, hg _ _ h]
      congr 1
      apply ih hn.2
      rw [List.map_cons, List.mem_cons] at hin
      rcases hin with hin | hin
      · exact absurd hin.symm h
      · exact hin

theorem SubsDiff.keys {id : Nat} {us vs : Dict Nat Sub} (h : SubsDiff id us vs) : vs.keys = us.keys := by
  rcases h with rfl | ⟨n, x, s, -, -, -, rfl⟩
  · rfl
  · unfold Dict.keys
    rw [List.map_map]
    rfl

theorem SubsDiff.none {id : Nat} {us vs : Dict Nat Sub} (h : SubsDiff id us vs) {i : Nat} (hi : us.get? i = none) :
    vs.get? i = none := by
  rcases h with rfl | ⟨n, x, s, -, -, -, rfl⟩
  · exact hi
  · rw [get?_map_keyed, hi]
    rfl

theorem SubsDiff.some {id : Nat} {us vs : Dict Nat Sub} (h : SubsDiff id us vs) {i : Nat} {s : Sub}
    (hi : us.get? i = some s) :
    ∃ b : Bytes, b.length = s.buffer.length ∧ vs.get? i = some { s with buffer := b } ∧
      ∀ c, SubsDiff id (us.set i { s with buffer := s.buffer ++ c }) (vs.set i { s with buffer := b ++ c }) := by
  rcases h with rfl | ⟨n, x, t, ht, hle, hx, rfl⟩
  · exact ⟨s.buffer, rfl, hi, fun c => .inl rfl⟩
  · rw [get?_map_keyed, hi]
    by_cases he : i = id
    · subst he
      rw [hi] at ht
      injection ht with ht
      subst ht
      refine ⟨replaced (n * s.itemSize) x s.buffer, replaced_length hle, ?_, ?_⟩
      · simp only [Option.map_some, patchSub, if_true]
      · intro c
        refine .inr ⟨n, x, { s with buffer := s.buffer ++ c }, Dict.get?_set_self .., ?_, hx, ?_⟩
        · show n * s.itemSize + x.length ≤ (s.buffer ++ c).length
          rw [List.length_append]
          omega
        · rw [map_set_keyed (patchSub i (n * s.itemSize) x)]
          congr 1
          simp only [patchSub, if_true]
          rw [replaced_append c hle]
    · refine ⟨s.buffer, rfl, ?_, ?_⟩
      · simp only [Option.map_some, patchSub, if_neg he]
      · intro c
        refine .inr ⟨n, x, t, ?_, hle, hx, ?_⟩
        · rw [Dict.get?_set_ne _ _ he]
          exact ht
        · rw [map_set_keyed (patchSub id (n * t.itemSize) x)]
          congr 1
          simp only [patchSub, if_neg he]

theorem SubsDiff.set {id : Nat} {us vs : Dict Nat Sub} (h : SubsDiff id us vs) (hn : us.keys.Nodup) (i : Nat) (s : Sub) :
    SubsDiff id (us.set i s) (vs.set i s) := by
  rcases h with rfl | ⟨n, x, t, ht, hle, hx, rfl⟩
  · exact .inl rfl
  · by_cases he : i = id
    · subst he
      left
      refine set_map_at _ i ?_ us hn s ?_
      · intro j a hj
        exact if_neg hj
      · exact List.mem_map.mpr ⟨_, Dict.mem_of_get? _ _ _ ht, rfl⟩
    · refine .inr ⟨n, x, t, ?_, hle, hx, ?_⟩
      · rw [Dict.get?_set_ne _ _ he]
        exact ht
      · rw [map_set_keyed (patchSub id (n * t.itemSize) x)]
        congr 1
        exact (if_neg he).symm

/-! ### objects -/

/-- a relation between the subscriptions of two logs that is kept by samples and subscriptions -/
structure SubsRel (S : Dict Nat Sub → Dict Nat Sub → Prop) : Prop where
  keys {us vs} : S us vs → vs.keys = us.keys
  none {us vs i} : S us vs → us.get? i = none → vs.get? i = none
  some {us vs i s} : S us vs → us.get? i = some s → SubOk i s →
    ∃ b : Bytes, (∃ k, b.length = k * s.itemSize) ∧ vs.get? i = some { s with buffer := b } ∧
      ∀ c, S (us.set i { s with buffer := s.buffer ++ c }) (vs.set i { s with buffer := b ++ c })
  set {us vs} : S us vs → us.keys.Nodup → ∀ i s, S (us.set i s) (vs.set i s)

theorem subsDiff_rel (id : Nat) : SubsRel (SubsDiff id) where
  keys h := h.keys
  none h := h.none
  some h hs hk := by
    obtain ⟨b, hb, h1, h2⟩ := h.some hs
    obtain ⟨k, hk⟩ := hk.buffer
    exact ⟨b, ⟨k, hb.trans hk⟩, h1, h2⟩
  set h := h.set


/-- the part of the object that does not depend on the values of samples -/
def calm (u : ULog) : ULog := { u with subs := [], lastTs := 0, changedParams := [], dropouts := [] }

/-- `v` is the object of the damaged log; under the condition `T` the times are the same -/
structure DSim (T : Prop) (S : Dict Nat Sub → Dict Nat Sub → Prop) (u v : ULog) : Prop where
  core : calm v = calm u
  params : v.changedParams.map (·.2) = u.changedParams.map (·.2)
  dropouts : v.dropouts.map (·.duration) = u.dropouts.map (·.duration)
  times : T → v.lastTs = u.lastTs ∧ v.changedParams = u.changedParams ∧ v.dropouts = u.dropouts
  subsOk : SubsOk u
  subs : S u.subs v.subs

/-- both logs process a message with the same outcome -/
inductive DOut (T : Prop) (S : Dict Nat Sub → Dict Nat Sub → Prop) : Option Out → Option Out → Prop where
  | none : DOut T S none none
  | ok {u v} : DSim T S u v → DOut T S (some (.ok u)) (some (.ok v))
  | err {e u v} : DSim T S u v → DOut T S (some (.err e u)) (some (.err e v))

section
variable {T : Prop} {S : Dict Nat Sub → Dict Nat Sub → Prop} {u v : ULog}

theorem DOut.bind {r : Except PyErr α} {f g : α → ULog} (h : DSim T S u v)
    (hf : ∀ a, r = .ok a → DSim T S (f a) (g a)) :
    DOut T S (some (Out.bind r u f)) (some (Out.bind r v g)) := by
  cases r with
  | error e => exact .err h
  | ok a => exact .ok (hf a rfl)

theorem DSim.subsOk' (hS : SubsRel S) (h : DSim T S u v) : SubsOk v := by
  refine ⟨by rw [hS.keys h.subs]; exact h.subsOk.1, ?_⟩
  intro i s hs
  cases hu : u.subs.get? i with
  | none => rw [hS.none h.subs hu] at hs; cases hs
  | some t =>
    obtain ⟨b, hb, hv, -⟩ := hS.some h.subs hu (h.subsOk.2 i t hu)
    rw [hv] at hs
    injection hs with hs
    subst hs
    have ht := h.subsOk.2 i t hu
    exact ⟨ht.msgId, ht.tsOff, ht.maxSize, ht.itemSize, ht.names, hb⟩

theorem DSim.corrupt (h : DSim T S u v) : DSim T S { u with fileCorrupt := true } { v with fileCorrupt := true } :=
  { h with
    core := by
      show { calm v with fileCorrupt := true } = { calm u with fileCorrupt := true }
      rw [h.core]
    subsOk := h.subsOk }

theorem dsim_addData (hS : SubsRel S) (h : DSim T S u v) (d : Bytes) : DOut T S (some (addData u d)) (some (addData v d)) := by
  have hf : v.filteredIds = u.filteredIds := (congrArg (fun x : ULog => x.filteredIds) h.core :)
  have hm : v.missingIds = u.missingIds := (congrArg (fun x : ULog => x.missingIds) h.core :)
  have hsub : ∀ o, addData u d = o → SubsOk o.state := fun o ho =>
    handleData_subsOk (cfg := {}) (ty := MSG_TYPE_DATA) (d := d) h.subsOk (by rw [handleData_D, ho])
  rcases addData_cases u d h.subsOk with ⟨h2, hu'⟩ | ⟨h2, hn, hc⟩ | ⟨h2, s, hs, hc⟩
  · rcases addData_cases v d (h.subsOk' hS) with ⟨_, hv'⟩ | ⟨h2', _⟩ | ⟨h2', _⟩
    · rw [hu', hv']; exact .err h
    · omega
    · omega
  · have hvn := hS.none h.subs hn
    rcases addData_cases v d (h.subsOk' hS) with ⟨h2', _⟩ | ⟨_, _, hc'⟩ | ⟨_, s', hs', _⟩
    · omega
    · rcases hc with ⟨hi, hu'⟩ | ⟨hi, hu'⟩
      · rcases hc' with ⟨_, hv'⟩ | ⟨hi', _⟩
        · rw [hu', hv']; exact .ok h
        · rw [hf] at hi'; exact absurd hi hi'
      · rcases hc' with ⟨hi', _⟩ | ⟨_, hv'⟩
        · rw [hf] at hi'; exact absurd hi' hi
        · rw [hu', hv']
          refine .ok { h with core := ?_, subsOk := h.subsOk }
          show { calm v with missingIds := setAdd (calm v).missingIds (leAt d 0 2), fileCorrupt := true }
            = { calm u with missingIds := setAdd (calm u).missingIds (leAt d 0 2), fileCorrupt := true }
          rw [h.core]
    · rw [hvn] at hs'; cases hs'
  · obtain ⟨b, hb, hvs, hset⟩ := hS.some h.subs hs (h.subsOk.2 _ _ hs)
    rcases addData_cases v d (h.subsOk' hS) with ⟨h2', _⟩ | ⟨_, hvn, _⟩ | ⟨_, s', hs', hc'⟩
    · omega
    · rw [hvs] at hvn; cases hvn
    · rw [hvs] at hs'
      injection hs' with hs'
      subst hs'
      have hss := hset (d.drop 2)
      rcases hc with ⟨hl, hu'⟩ | ⟨hl, ⟨ht, hu'⟩ | ⟨ht, hu'⟩⟩
      · rcases hc' with ⟨_, hv'⟩ | ⟨hl', _⟩
        · rw [hu', hv']; exact .ok h.corrupt
        · exact absurd hl' hl
      · rcases hc' with ⟨hl', _⟩ | ⟨_, ⟨_, hv'⟩ | ⟨ht', _⟩⟩
        · exact absurd hl hl'
        · have hok := hsub _ hu'
          rw [hu', hv']
          refine .ok { h with core := h.core, subsOk := hok, subs := hss, times := ?_ }
          intro hT
          obtain ⟨e1, e2, e3⟩ := h.times hT
          refine ⟨?_, e2, e3⟩
          show max v.lastTs _ = max u.lastTs _
          rw [e1]
        · have ht' : rowSize s.fields < tsPos s.fields + 8 := ht'
          omega
      · rcases hc' with ⟨hl', _⟩ | ⟨_, ⟨ht', _⟩ | ⟨_, hv'⟩⟩
        · exact absurd hl hl'
        · have ht' : tsPos s.fields + 8 ≤ rowSize s.fields := ht'
          omega
        · have hok := hsub _ hu'
          rw [hu', hv']
          exact .err { h with core := h.core, subsOk := hok, subs := hss }

theorem dsim_handle (hS : SubsRel S) (cfg : Cfg) (h : DSim T S u v) (ty : Nat) (d : Bytes) :
    DOut T S (handleData cfg u ty d) (handleData cfg v ty d) := by
  by_cases hk : knownData ty = true
  · rcases known_cases hk with hk | hk | hk | hk | hk | hk | hk | hk | hk | hk <;> subst hk
    · rw [handleData_I, handleData_I]
      refine DOut.bind h fun m _ => { h with core := ?_, subsOk := h.subsOk }
      show addInfo (calm v) m = addInfo (calm u) m
      rw [h.core]
    · rw [handleData_M, handleData_M]
      refine DOut.bind h fun m _ => ?_
      obtain ⟨f, g, hfg⟩ := addInfoMulti_eq m
      rw [hfg u, hfg v]
      refine { h with core := ?_, subsOk := h.subsOk }
      show { calm v with infoMulti := f (calm v).infoMulti, infoMultiTypes := g (calm v).infoMulti (calm v).infoMultiTypes }
        = { calm u with infoMulti := f (calm u).infoMulti, infoMultiTypes := g (calm u).infoMulti (calm u).infoMultiTypes }
      rw [h.core]
    · rw [handleData_P, handleData_P]
      refine DOut.bind h fun m _ => { h with core := h.core, subsOk := h.subsOk, params := ?_, times := ?_ }
      · simp [h.params]
      · intro hT
        obtain ⟨e1, e2, e3⟩ := h.times hT
        refine ⟨e1, ?_, e3⟩
        show v.changedParams ++ _ = u.changedParams ++ _
        rw [e1, e2]
    · rw [handleData_Q, handleData_Q]
      refine DOut.bind h fun m _ => { h with core := ?_, subsOk := h.subsOk }
      show addParamDefault (calm v) m = addParamDefault (calm u) m
      rw [h.core]
    · have hfm : v.formats = u.formats := (congrArg (fun x : ULog => x.formats) h.core :)
      have hsok : ∀ s, parseAddLogged cfg.ign u.formats cfg.depth d = .ok s → SubsOk (addSub cfg.filter u s) := by
        intro s hs
        have := handleData_subsOk (cfg := cfg) (ty := MSG_TYPE_ADD_LOGGED_MSG) (d := d) h.subsOk
          (by rw [handleData_A])
        simpa only [hs, Out.bind, Out.state] using this
      rw [handleData_A, handleData_A, hfm]
      refine DOut.bind h fun s hs => ?_
      have hsk := hsok s hs
      unfold addSub at hsk ⊢
      split
      · rename_i ha
        rw [if_pos ha] at hsk
        exact { h with core := h.core, subsOk := hsk, subs := hS.set h.subs h.subsOk.1 _ _ }
      · refine { h with core := ?_, subsOk := h.subsOk }
        show { calm v with filteredIds := setAdd (calm v).filteredIds s.msgId }
          = { calm u with filteredIds := setAdd (calm u).filteredIds s.msgId }
        rw [h.core]
    · rw [handleData_L, handleData_L]
      refine DOut.bind h fun m _ => { h with core := ?_, subsOk := h.subsOk }
      show { calm v with logged := (calm v).logged ++ [m] } = { calm u with logged := (calm u).logged ++ [m] }
      rw [h.core]
    · rw [handleData_C, handleData_C]
      refine DOut.bind h fun m _ => { h with core := ?_, subsOk := h.subsOk }
      show addTagged (calm v) m = addTagged (calm u) m
      rw [h.core]
    · rw [handleData_D, handleData_D]
      exact dsim_addData hS h d
    · rw [handleData_O, handleData_O]
      unfold parseDropout
      cases unpackU 2 d with
      | error e => exact .err h
      | ok n =>
        refine .ok { h with core := h.core, subsOk := h.subsOk, dropouts := ?_, times := ?_ }
        · simp [h.dropouts]
        · intro hT
          obtain ⟨e1, e2, e3⟩ := h.times hT
          refine ⟨e1, e2, ?_⟩
          show v.dropouts ++ _ = u.dropouts ++ _
          rw [e1, e3]
    · rw [handleData_S, handleData_S]
      refine .ok { h with core := ?_, subsOk := h.subsOk }
      show { calm v with syncCnt := (calm v).syncCnt + 1 } = { calm u with syncCnt := (calm u).syncCnt + 1 }
      rw [h.core]
  · have hk' : knownData ty = false := by simpa using hk
    rw [handleData_none _ _ _ _ hk', handleData_none _ _ _ _ hk']
    exact .none

end

/-- the outcome of a run over the messages -/
inductive DRun (T : Prop) (S : Dict Nat Sub → Dict Nat Sub → Prop) : Run → Run → Prop where
  | done {u v} : DSim T S u v → DRun T S (.done u) (.done v)
  | stopped {u v} : DSim T S u v → DRun T S (.stopped u) (.stopped v)
  | raised {e} : DRun T S (.raised e) (.raised e)

theorem dsim_run {T : Prop} {S : Dict Nat Sub → Dict Nat Sub → Prop} (hS : SubsRel S) (cfg : Cfg) (l : List (Nat × Bytes)) {u v : ULog} (h : DSim T S u v) :
    DRun T S (runData cfg l u) (runData cfg l v) := by
  induction l generalizing u v with
  | nil => exact .done h
  | cons m l ih =>
    have hs := dsim_handle hS cfg h m.1 m.2
    unfold runData
    generalize handleData cfg u m.1 m.2 = a at hs
    generalize handleData cfg v m.1 m.2 = b at hs
    cases hs with
    | none => exact ih h
    | ok h' => exact ih h'
    | @err e u' v' h' =>
      cases e
      case indexError => exact ih h'.corrupt
      case structError => exact .stopped h'
      all_goals exact .raised

/-! ### the damaged sample -/

theorem subsDiff_sample {id : Nat} {us : Dict Nat Sub} {s : Sub} {p p' : Bytes} (hn1 : us.keys.Nodup)
    (hs : us.get? id = some s) (hsk : SubOk id s) (hl : p'.length = p.length) (hlen : p.length = 2 + rowSize s.fields) :
    SubsDiff id (us.set id { s with buffer := s.buffer ++ p.drop 2 })
      (us.set id { s with buffer := s.buffer ++ p'.drop 2 }) := by
  obtain ⟨n, hn⟩ := hsk.buffer
  have hsz : s.itemSize = rowSize s.fields := by rw [hsk.itemSize]; exact (rowSize_eq _).symm
  refine .inr ⟨n, p'.drop 2, { s with buffer := s.buffer ++ p.drop 2 }, Dict.get?_set_self .., ?_, ?_, ?_⟩
  · show n * s.itemSize + (p'.drop 2).length ≤ (s.buffer ++ p.drop 2).length
    rw [List.length_append, List.length_drop, List.length_drop]
    omega
  · show (p'.drop 2).length = s.itemSize
    rw [List.length_drop]
    omega
  · show _ = (us.set (id) { s with buffer := s.buffer ++ p.drop 2 }).map
      fun q => (q.1, patchSub (id) (n * s.itemSize) (p'.drop 2) q.1 q.2)
    rw [map_set_keyed (patchSub (id) (n * s.itemSize) (p'.drop 2)),
      set_map_at (patchSub (id) (n * s.itemSize) (p'.drop 2)) (id) (fun j a hj => if_neg hj) _ hn1 _
        (List.mem_map.mpr ⟨_, Dict.mem_of_get? _ _ _ hs, rfl⟩)]
    congr 1
    unfold patchSub replaced
    rw [if_pos rfl, ← hn]
    congr 1
    show _ = (s.buffer ++ p.drop 2).take s.buffer.length ++ p'.drop 2
      ++ (s.buffer ++ p.drop 2).drop (s.buffer.length + (p'.drop 2).length)
    have hnil : (s.buffer ++ p.drop 2).drop (s.buffer.length + (p'.drop 2).length) = [] := by
      apply List.drop_of_length_le
      rw [List.length_append, List.length_drop, List.length_drop]
      omega
    rw [List.take_left, hnil, List.append_nil]

theorem calm_sample (u : ULog) (a b : Dict Nat Sub) (s t : Nat) :
    calm { u with subs := a, lastTs := s } = calm { u with subs := b, lastTs := t } := by
  have h : ∀ a s, calm { u with subs := a, lastTs := s } = calm u := fun _ _ => rfl
  exact (h a s).trans (h b t).symm

theorem calm_subs (u : ULog) (a b : Dict Nat Sub) : calm { u with subs := a } = calm { u with subs := b } := by
  have h : ∀ a, calm { u with subs := a } = calm u := fun _ => rfl
  exact (h a).trans (h b).symm

theorem damaged_step {T : Prop} {u : ULog} {p p' : Bytes} (hu : SubsOk u) (hl : p'.length = p.length)
    (h2 : p'.take 2 = p.take 2)
    (hT : T → ∀ s, u.subs.get? (leAt p 0 2) = some s →
      leAt p' (2 + tsPos s.fields) 8 = leAt p (2 + tsPos s.fields) 8) :
    DOut T (SubsDiff (leAt p 0 2)) (some (addData u p)) (some (addData u p')) := by
  have refl : DSim T (SubsDiff (leAt p 0 2)) u u := ⟨rfl, rfl, rfl, fun _ => ⟨rfl, rfl, rfl⟩, hu, .inl rfl⟩
  have hid : 2 ≤ p.length → leAt p' 0 2 = leAt p 0 2 := by
    intro h
    rw [leAt_eq _ _ _ (by omega), leAt_eq _ _ _ (by omega), List.drop_zero, List.drop_zero, h2]
  have hsub : ∀ o, addData u p = o → SubsOk o.state := fun o ho =>
    handleData_subsOk (cfg := {}) (ty := MSG_TYPE_DATA) (d := p) hu (by rw [handleData_D, ho])
  rcases addData_cases u p hu with ⟨h, hr⟩ | ⟨h, hn, hc⟩ | ⟨h, s, hs, hc⟩
  · rcases addData_cases u p' hu with ⟨_, hr'⟩ | ⟨h', _⟩ | ⟨h', _⟩
    · rw [hr, hr']; exact .err refl
    · omega
    · omega
  · have hid := hid h
    rcases addData_cases u p' hu with ⟨h', _⟩ | ⟨_, _, hc'⟩ | ⟨_, s', hs', _⟩
    · omega
    · rw [hid] at hc'
      rcases hc with ⟨hi, hr⟩ | ⟨hi, hr⟩
      · rcases hc' with ⟨_, hr'⟩ | ⟨hi', _⟩
        · rw [hr, hr']; exact .ok refl
        · exact absurd hi hi'
      · rcases hc' with ⟨hi', _⟩ | ⟨_, hr'⟩
        · exact absurd hi' hi
        · have hok := hsub _ hr
          rw [hr, hr']
          exact .ok ⟨rfl, rfl, rfl, fun _ => ⟨rfl, rfl, rfl⟩, hok, .inl rfl⟩
    · rw [hid, hn] at hs'; cases hs'
  · have hid := hid h
    have hsk := hu.2 _ _ hs
    have hrep := fun hlen => subsDiff_sample hu.1 hs hsk hl hlen
    rcases addData_cases u p' hu with ⟨h', _⟩ | ⟨_, hn', _⟩ | ⟨_, s', hs', hc'⟩
    · omega
    · rw [hid, hs] at hn'; cases hn'
    · rw [hid, hs] at hs'
      injection hs' with hs'
      subst hs'
      rw [hid] at hc'
      rcases hc with ⟨hne, hr⟩ | ⟨hle, ⟨ht, hr⟩ | ⟨ht, hr⟩⟩
      · rcases hc' with ⟨_, hr'⟩ | ⟨hle', _⟩
        · rw [hr, hr']; exact .ok refl.corrupt
        · omega
      · rcases hc' with ⟨hne', _⟩ | ⟨_, ⟨_, hr'⟩ | ⟨ht', _⟩⟩
        · omega
        · have hok := hsub _ hr
          rw [hr, hr']
          refine .ok ⟨calm_sample .., rfl, rfl, ?_, hok, hrep hle⟩
          intro t
          refine ⟨?_, rfl, rfl⟩
          show max u.lastTs _ = max u.lastTs _
          rw [hT t s hs]
        · omega
      · rcases hc' with ⟨hne', _⟩ | ⟨_, ⟨ht', _⟩ | ⟨_, hr'⟩⟩
        · omega
        · omega
        · have hok := hsub _ hr
          rw [hr, hr']
          exact .err ⟨calm_subs .., rfl, rfl, fun _ => ⟨rfl, rfl, rfl⟩, hok, hrep hle⟩

theorem dsim_damaged {T : Prop} {cfg : Cfg} (pre post : List (Nat × Bytes)) {p p' : Bytes} {u : ULog} (hu : SubsOk u)
    (hl : p'.length = p.length) (h2 : p'.take 2 = p.take 2)
    (hT : T → ∀ w s, runData cfg pre u = .done w → w.subs.get? (leAt p 0 2) = some s →
      leAt p' (2 + tsPos s.fields) 8 = leAt p (2 + tsPos s.fields) 8) :
    DRun T (SubsDiff (leAt p 0 2)) (runData cfg (pre ++ (tyD, p) :: post) u) (runData cfg (pre ++ (tyD, p') :: post) u) := by
  induction pre generalizing u with
  | nil =>
    have hs := damaged_step (T := T) hu hl h2 (fun t s hs => hT t u s rfl hs)
    show DRun T _ (runData cfg ((tyD, p) :: post) u) (runData cfg ((tyD, p') :: post) u)
    unfold runData
    have e1 : handleData cfg u (tyD, p).1 (tyD, p).2 = some (addData u p) := handleData_D ..
    have e2 : handleData cfg u (tyD, p').1 (tyD, p').2 = some (addData u p') := handleData_D ..
    rw [e1, e2]
    generalize addData u p = a at hs
    generalize addData u p' = b at hs
    cases hs with
    | ok h' => exact dsim_run (subsDiff_rel _) cfg post h'
    | @err e u' v' h' =>
      cases e
      case indexError => exact dsim_run (subsDiff_rel _) cfg post h'.corrupt
      case structError => exact .stopped h'
      all_goals exact .raised
  | cons m pre ih =>
    rw [List.cons_append, List.cons_append]
    unfold runData
    unfold runData at hT
    cases hr : handleData cfg u m.1 m.2 with
    | none =>
      rw [hr] at hT
      exact ih hu hT
    | some o =>
      have hok := handleData_subsOk hu hr
      rw [hr] at hT
      cases o with
      | ok w => exact ih hok hT
      | err e w =>
        cases e
        case indexError => exact ih (show SubsOk { w with fileCorrupt := true } from hok) hT
        case structError => exact .stopped ⟨rfl, rfl, rfl, fun _ => ⟨rfl, rfl, rfl⟩, hok, .inl rfl⟩
        all_goals exact .raised

/-- no message builds datasets -/
theorem run_dataList {cfg : Cfg} (l : List (Nat × Bytes)) {u w : ULog}
    (h : runData cfg l u = .done w ∨ runData cfg l u = .stopped w) : w.dataList = u.dataList := by
  induction l generalizing u with
  | nil =>
    rcases h with h | h <;> cases h
    rfl
  | cons m l ih =>
    unfold runData at h
    cases hr : handleData cfg u m.1 m.2 with
    | none =>
      rw [hr] at h
      exact ih h
    | some o =>
      have hp := (handleData_pres _ _ _ _ _ hr).dataList
      rw [hr] at h
      cases o with
      | ok v => exact (ih h).trans hp
      | err e v =>
        cases e
        case indexError => exact (ih h).trans hp
        case structError =>
          rcases h with h | h <;> cases h
          exact hp
        all_goals (rcases h with h | h <;> cases h)

theorem defs_dataList {cfg : Cfg} (l : List (Nat × Bytes)) {u w : ULog} (h : runDefs cfg l u = .done w) :
    w.dataList = u.dataList := by
  induction l generalizing u with
  | nil => cases h; rfl
  | cons m l ih =>
    unfold runDefs at h
    cases hr : handleDef cfg u m.1 m.2 with
    | none =>
      rw [hr] at h
      exact ih h
    | some o =>
      have hp := (handleDef_presD _ _ _ _ _ hr).dataList
      rw [hr] at h
      cases o with
      | ok v => exact (ih h).trans hp
      | err e v =>
        cases e
        case indexError => exact (ih h).trans hp
        all_goals cases h

/-! ### the datasets -/

theorem mapM_both {α β : Type} {g g' : α → Except PyErr β} {f : β → β} {l : List α}
    (h : ∀ a ∈ l, g' a = (g a).map f) : l.mapM g' = (l.mapM g).map (List.map f) := by
  induction l with
  | nil => rfl
  | cons a l ih =>
    rw [List.mapM_cons, List.mapM_cons, h a (List.mem_cons_self ..), ih fun b hb => h b (List.mem_cons_of_mem _ hb)]
    cases g a with
    | error e => rfl
    | ok b =>
      cases l.mapM g with
      | error e => rfl
      | ok bs => rfl

theorem oneRow_refl (d : Dataset) : OneRowDiffers d d := ⟨rfl, rfl, 0, fun _ _ _ => rfl⟩

theorem damaged_finalize {T : Prop} {id : Nat} {u v : ULog} (h : DSim T (SubsDiff id) u v) (hd : u.dataList = []) :
    (∀ e, finalize u = .error e → finalize v = .error e) ∧
    (∀ w, finalize u = .ok w → ∃ w', finalize v = .ok w' ∧ DamagedIn id w w' ∧
      (T → w'.lastTs = w.lastTs ∧ w'.changedParams = w.changedParams ∧ w'.dropouts = w.dropouts)) := by
  have hdv : v.dataList = [] := by
    rw [← hd]
    exact (congrArg (fun x : ULog => x.dataList) h.core :)
  -- the new datasets
  have key : ∃ f : Dataset → Dataset,
      ((v.subs.reverse.filter (fun p => p.2.buffer.length > 0)).mapM fun p => mkData p.2)
        = ((u.subs.reverse.filter (fun p => p.2.buffer.length > 0)).mapM fun p => mkData p.2).map (List.map f) ∧
      (∀ a b, dsLe (f a) (f b) = dsLe a b) ∧
      ∀ new, ((u.subs.reverse.filter (fun p => p.2.buffer.length > 0)).mapM fun p => mkData p.2) = .ok new →
        ∀ d ∈ new, OneRowDiffers d (f d) ∧ (d.msgId ≠ id → f d = d) := by
    rcases h.subs with e | ⟨n, x, s, hs, hle, hx, e⟩
    · refine ⟨fun d => d, ?_, fun _ _ => rfl, fun _ _ d _ => ⟨oneRow_refl d, fun _ => rfl⟩⟩
      rw [e]
      exact mapM_both fun a _ => by cases mkData a.2 <;> rfl
    · have hsk := h.subsOk.2 _ _ hs
      have huniq : ∀ p ∈ u.subs, p.1 = id → p.2 = s := by
        intro p hp he
        have := Dict.get?_of_mem u.subs p.1 p.2 h.subsOk.1 hp
        rw [he, hs] at this
        injection this with this
        exact this.symm
      have hmem : ∀ p ∈ u.subs.reverse.filter (fun p => p.2.buffer.length > 0), p ∈ u.subs := by
        intro p hp
        exact List.mem_reverse.mp (List.mem_filter.mp hp).1
      have hblen : (replaced (n * s.itemSize) x s.buffer).length = s.buffer.length := replaced_length hle
      let nd : Dict Str (List NpVal) :=
        columns (rowsOf s.itemSize (replaced (n * s.itemSize) x s.buffer)) 0 (dtypeFields s.fields)
      refine ⟨fun d => if d.msgId = id then { d with data := nd } else d, ?_, ?_, ?_⟩
      · have hfil : v.subs.reverse.filter (fun p => p.2.buffer.length > 0)
            = (u.subs.reverse.filter (fun p => p.2.buffer.length > 0)).map
                fun p => (p.1, patchSub id (n * s.itemSize) x p.1 p.2) := by
          rw [e, ← List.map_reverse, List.filter_map]
          congr 1
          apply List.filter_congr
          intro p hp
          simp only [Function.comp_apply]
          by_cases he : p.1 = id
          · rw [huniq p (List.mem_reverse.mp hp) he, he]
            unfold patchSub
            rw [if_pos rfl, hblen]
          · unfold patchSub
            rw [if_neg he]
        rw [hfil, List.mapM_map]
        apply mapM_both
        intro p hp
        have hp := hmem p hp
        have hpk := h.subsOk.2 _ _ (Dict.get?_of_mem u.subs p.1 p.2 h.subsOk.1 hp)
        simp only [Function.comp_apply]
        by_cases he : p.1 = id
        · rw [huniq p hp he, he]
          unfold patchSub mkData
          rw [if_pos rfl]
          simp only [hblen]
          split
          · rfl
          · show Except.ok _ = Except.ok (if s.msgId = id then _ else _)
            rw [if_pos hsk.msgId]
        · unfold patchSub
          rw [if_neg he]
          unfold mkData
          split
          · rfl
          · show Except.ok _ = Except.ok (if p.2.msgId = id then _ else _)
            rw [if_neg (by rw [hpk.msgId]; exact he)]
      · have hk : ∀ d : Dataset, (if d.msgId = id then { d with data := nd } else d).name = d.name ∧
            (if d.msgId = id then { d with data := nd } else d).multiId = d.multiId := by
          intro d
          by_cases he : d.msgId = id
          · rw [if_pos he]; exact ⟨rfl, rfl⟩
          · rw [if_neg he]; exact ⟨rfl, rfl⟩
        intro a b
        unfold dsLe
        simp only [(hk a).1, (hk a).2, (hk b).1, (hk b).2]
      · intro new hnew d hdn
        refine ⟨?_, fun hne => if_neg hne⟩
        show OneRowDiffers d (if d.msgId = id then { d with data := nd } else d)
        by_cases he : d.msgId = id
        · rw [if_pos he]
          obtain ⟨p, hp, hmk⟩ := mapM_mem hnew hdn
          have hp := hmem p hp
          have hpk := h.subsOk.2 _ _ (Dict.get?_of_mem u.subs p.1 p.2 h.subsOk.1 hp)
          have hps : p.2 = s := by
            apply huniq p hp
            rw [← hpk.msgId, ← he]
            unfold mkData at hmk
            split at hmk <;> cases hmk
            rfl
          rw [hps] at hmk
          unfold mkData at hmk
          split at hmk <;> cases hmk
          refine ⟨rfl, columns_lengths ?_ _ _, n, ?_⟩
          · rw [length_rowsOf, length_rowsOf, hblen]
          · intro name j hj
            exact columns_cells (rowsOf_replaced hx (by omega) j hj) _ _ _
        · rw [if_neg he]
          exact oneRow_refl d
  obtain ⟨f, hmap, hle, hrel⟩ := key
  unfold finalize
  rw [hmap, hd, hdv]
  cases hnew : ((u.subs.reverse.filter (fun p => p.2.buffer.length > 0)).mapM fun p => mkData p.2) with
  | error e => exact ⟨fun e h => h, fun w h => by cases h⟩
  | ok new =>
    refine ⟨fun e h => (by cases h), ?_⟩
    intro w hw
    cases hw
    refine ⟨_, rfl, ⟨?_, h.params, h.dropouts, f, ?_, ?_⟩, h.times⟩
    · exact (congrArg (fun x : ULog => { x with dataList := [] }) h.core :)
    · show ssort dsLe ([] ++ new.map f) = (ssort dsLe ([] ++ new)).map f
      rw [List.nil_append, List.nil_append]
      exact (ssort_map f hle new).symm
    · intro d hd'
      exact hrel new hnew d (by simpa using (ssort_perm dsLe _).mem_iff.mp hd')

end PyULog
