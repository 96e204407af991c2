import Verif.Props.Ros2
/-
C60 (continued): when a message cannot be filled, and which exception is raised.
-/
namespace PyULog
open Spec

/-- A reason why the column cannot be stored at its place, with the exception. The attributes are those of a new
message. -/
inductive Spec.PlaceObstacle (ty : RosType) (d : Dataset) (i : Nat) (f : FieldData) : Place → PyErr → Prop
  /-- the dataset has no such column -/
  | column {p : Place} : d.data.get? f.name = none → PlaceObstacle ty d i f p .keyError
  /-- the column has no such row -/
  | row {p : Place} {col : List NpVal} : d.data.get? f.name = some col → col.length ≤ i →
      PlaceObstacle ty d i f p .indexError
  /-- the message type has no such attribute -/
  | type {p : Place} : ty.types.get? p.name = none → PlaceObstacle ty d i f p .keyError
  /-- a new message has no such attribute -/
  | missing {n : Str} {k : Nat} : ty.fresh.get? n = none → PlaceObstacle ty d i f (.elem n k) .attributeError
  /-- the attribute is no array -/
  | scalar {n : Str} {k : Nat} {x : RosScalar} : ty.fresh.get? n = some (.plain x) →
      PlaceObstacle ty d i f (.elem n k) .typeError
  /-- the array is too short -/
  | short {n : Str} {k : Nat} {l : List RosScalar} : ty.fresh.get? n = some (.array l) → l.length ≤ k →
      PlaceObstacle ty d i f (.elem n k) .indexError

/-- the attribute of a message is what it is in a new message, but for the elements of an array -/
def SameShape (a b : Option RosVal) : Prop :=
  match a, b with
  | none, none => True
  | some (.plain _), some (.plain _) => True
  | some (.array l), some (.array l') => l.length = l'.length
  | _, _ => False

theorem sameShape_refl (a : Option RosVal) : SameShape a a := by
  cases a with
  | none => trivial
  | some v => cases v <;> first | trivial | rfl

theorem sameShape_trans {a b c : Option RosVal} (h : SameShape a b) (h' : SameShape b c) : SameShape a c := by
  cases a with
  | none =>
    cases b with
    | none => exact h'
    | some y => cases y <;> exact h.elim
  | some x =>
    cases b with
    | none => cases x <;> exact h.elim
    | some y =>
      cases c with
      | none => cases y <;> exact h'.elim
      | some z =>
        cases x <;> cases y <;> cases z <;> first | exact h.elim | exact h'.elim | trivial | exact Eq.trans h h'

theorem setPlace_shape {msg msg' : Dict Str RosVal} {x : RosScalar} {p : Place} (h : setPlace msg x p = .ok msg')
    (n : Str) (hn : p ≠ .attr n) : SameShape (msg'.get? n) (msg.get? n) := by
  cases p with
  | attr m =>
    injection h with h
    subst h
    have hm : m ≠ n := fun e => hn (by rw [e])
    rw [Dict.get?_set, if_neg hm]
    exact sameShape_refl _
  | elem m k =>
    have h : setElem msg m k x = .ok msg' := h
    unfold setElem at h
    cases hg : msg.get? m with
    | none => rw [hg] at h; cases h
    | some y =>
      rw [hg] at h
      cases y with
      | plain _ => cases h
      | array l =>
        have h : (if k < l.length then Except.ok (msg.set m (.array (l.set k x))) else .error PyErr.indexError) = .ok msg' := h
        by_cases hk : k < l.length
        · rw [if_pos hk] at h
          injection h with h
          subst h
          by_cases hm : m = n
          · subst hm
            rw [Dict.get?_set, if_pos rfl, hg]
            exact List.length_set
          · rw [Dict.get?_set, if_neg hm]
            exact sameShape_refl _
        · rw [if_neg hk] at h
          cases h

/-- one field: what `setField` does, with the attributes of a new message -/
theorem setField_error {ty : RosType} {d : Dataset} {i : Nat} {msg : Dict Str RosVal} {f : FieldData} {p : Place}
    (hp : p.plain) (hf : f.name = p.column) (hsh : ∀ n k, p = .elem n k → SameShape (msg.get? n) (ty.fresh.get? n))
    {e : PyErr} (h : setField ty d i msg f = .error e) : PlaceObstacle ty d i f p e := by
  unfold setField at h
  cases hg : d.data.get? f.name with
  | none =>
    have h1 : dictGet d.data f.name = .error .keyError := by unfold dictGet; rw [hg]
    rw [h1] at h
    cases h
    exact .column hg
  | some col =>
    have h1 : dictGet d.data f.name = .ok col := by unfold dictGet; rw [hg]
    rw [h1] at h
    cases hv : col[i]? with
    | none =>
      have h2 : pyIndex col i = .error .indexError := by unfold pyIndex; rw [hv]
      have h : (pyIndex col i >>= fun v => _) = Except.error e := h
      rw [h2] at h
      cases h
      exact .row hg (List.getElem?_eq_none_iff.mp hv)
    | some v =>
      have h2 : pyIndex col i = .ok v := by unfold pyIndex; rw [hv]
      have h : (pyIndex col i >>= fun v => _) = Except.error e := h
      rw [h2] at h
      have hify : ∀ n, ty.types.get? n = none → ros2ify ty n f.type v = .error .keyError := by
        intro n hn
        unfold ros2ify dictGet
        rw [hn]
        rfl
      have hify' : ∀ n t, ty.types.get? n = some t → ∃ x, ros2ify ty n f.type v = .ok x := by
        intro n t hn
        unfold ros2ify dictGet
        rw [hn]
        show ∃ x, (if isInt8 f.type ∧ startsWith (py! "bool") t then Except.ok (RosScalar.bool (npTruth v))
          else .ok (.num v) : Except PyErr RosScalar) = .ok x
        split <;> exact ⟨_, rfl⟩
      cases p with
      | attr n =>
        have hn : f.name = n := hf
        have ha : arrayRef f.name = none := by rw [hn]; exact arrayRef_none hp.1
        have h : (match arrayRef f.name with
          | some (field, k) => (do
            let x ← ros2ify ty field f.type v
            setElem msg field k x)
          | none => (do
            let x ← ros2ify ty f.name f.type v
            .ok (msg.set f.name (.plain x)))) = Except.error e := h
        rw [ha] at h
        cases ht : ty.types.get? f.name with
        | none =>
          rw [hify _ ht] at h
          cases h
          exact .type (by rw [← hn] at *; exact ht)
        | some t =>
          obtain ⟨x, hx⟩ := hify' _ _ ht
          rw [hx] at h
          cases h
      | elem n k =>
        have ha : arrayRef f.name = some (n, k) := by rw [hf]; exact arrayRef_elem hp.1 hp.2 k
        have h : (match arrayRef f.name with
          | some (field, k) => (do
            let x ← ros2ify ty field f.type v
            setElem msg field k x)
          | none => (do
            let x ← ros2ify ty f.name f.type v
            .ok (msg.set f.name (.plain x)))) = Except.error e := h
        rw [ha] at h
        have h : (ros2ify ty n f.type v >>= fun x => setElem msg n k x) = Except.error e := h
        cases ht : ty.types.get? n with
        | none =>
          rw [hify _ ht] at h
          cases h
          exact .type ht
        | some t =>
          obtain ⟨x, hx⟩ := hify' _ _ ht
          rw [hx] at h
          have h : setElem msg n k x = .error e := h
          have hs := hsh n k rfl
          unfold setElem at h
          cases hm : msg.get? n with
          | none =>
            rw [hm] at h hs
            cases h
            cases hfr : ty.fresh.get? n with
            | none => exact .missing hfr
            | some y => rw [hfr] at hs; cases y <;> exact hs.elim
          | some y =>
            rw [hm] at h hs
            cases y with
            | plain x =>
              cases h
              cases hfr : ty.fresh.get? n with
              | none => rw [hfr] at hs; exact hs.elim
              | some y =>
                rw [hfr] at hs
                cases y with
                | plain x => exact .scalar hfr
                | array l => exact hs.elim
            | array l =>
              cases hfr : ty.fresh.get? n with
              | none => rw [hfr] at hs; exact hs.elim
              | some y =>
                rw [hfr] at hs
                cases y with
                | plain x => exact hs.elim
                | array l' =>
                  have hs : l.length = l'.length := hs
                  have h : (if k < l.length then Except.ok (msg.set n (.array (l.set k x))) else .error PyErr.indexError) =
                    .error e := h
                  by_cases hk : k < l.length
                  · rw [if_pos hk] at h; cases h
                  · rw [if_neg hk] at h
                    cases h
                    exact .short hfr (by omega)

theorem setField_obstacle {ty : RosType} {d : Dataset} {i : Nat} {msg msg' : Dict Str RosVal} {f : FieldData} {p : Place}
    (hp : p.plain) (hf : f.name = p.column) (hsh : ∀ n k, p = .elem n k → SameShape (msg.get? n) (ty.fresh.get? n))
    (h : setField ty d i msg f = .ok msg') (e : PyErr) : ¬ PlaceObstacle ty d i f p e := by
  obtain ⟨col, v, t, h1, h2, h3, h4⟩ := setField_place hp hf h
  intro ho
  cases ho with
  | column hc => rw [h1] at hc; cases hc
  | row hc hlen =>
    rw [h1] at hc
    cases hc
    rw [List.getElem?_eq_none hlen] at h2
    cases h2
  | type ht => rw [h3] at ht; cases ht
  | missing hn =>
    have hs := hsh _ _ rfl
    have h4 : setElem msg _ _ _ = .ok msg' := h4
    unfold setElem at h4
    rw [hn] at hs
    cases hm : msg.get? _ with
    | none => rw [hm] at h4; cases h4
    | some y => rw [hm] at hs; cases y <;> exact hs.elim
  | scalar hn =>
    have hs := hsh _ _ rfl
    have h4 : setElem msg _ _ _ = .ok msg' := h4
    unfold setElem at h4
    rw [hn] at hs
    cases hm : msg.get? _ with
    | none => rw [hm] at h4; cases h4
    | some y =>
      rw [hm] at hs h4
      cases y with
      | plain x => cases h4
      | array l => exact hs.elim
  | @short n k l hn hk =>
    have hs := hsh _ _ rfl
    have h4 : setElem msg n k _ = .ok msg' := h4
    unfold setElem at h4
    rw [hn] at hs
    cases hm : msg.get? n with
    | none => rw [hm] at h4; cases h4
    | some y =>
      rw [hm] at hs h4
      cases y with
      | plain x => cases h4
      | array l' =>
        have hs : l'.length = l.length := hs
        have h4 : (if k < l'.length then Except.ok (msg.set n (.array (l'.set k _))) else .error PyErr.indexError) =
          .ok msg' := h4
        rw [if_neg (by omega)] at h4
        cases h4

theorem fold_errors {ty : RosType} {d : Dataset} {i : Nat} {fs : List FieldData} {ps : List Place}
    (hps : Places fs ps) {m0 : Dict Str RosVal}
    (hsh : ∀ n k, Place.elem n k ∈ ps → SameShape (m0.get? n) (ty.fresh.get? n)) :
    (∀ e, fs.foldlM (setField ty d i) m0 = .error e → ∃ fp ∈ fs.zip ps, PlaceObstacle ty d i fp.1 fp.2 e) ∧
    (∀ msg, fs.foldlM (setField ty d i) m0 = .ok msg → ∀ fp ∈ fs.zip ps, ∀ e, ¬ PlaceObstacle ty d i fp.1 fp.2 e) := by
  induction fs generalizing ps m0 with
  | nil =>
    constructor
    · intro e h
      cases h
    · intro msg h fp hfp
      simp at hfp
  | cons f fs ih =>
    cases ps with
    | nil => have := hps.columns; simp at this
    | cons p ps =>
      have hc := hps.columns
      rw [List.map_cons, List.map_cons] at hc
      injection hc with hc1 hc2
      have hnd := List.nodup_cons.mp hps.nodup
      have hps' : Places fs ps := ⟨hc2, fun p hp => hps.plain p (by simp [hp]), hnd.2,
        fun n k ha he => hps.shape n k (by simp [ha]) (by simp [he])⟩
      have hplain := hps.plain p (by simp)
      have hsp : ∀ n k, p = .elem n k → SameShape (m0.get? n) (ty.fresh.get? n) := fun n k e => hsh n k (by simp [e])
      rw [List.foldlM_cons, List.zip_cons_cons]
      cases hs : setField ty d i m0 f with
      | error e' =>
        constructor
        · intro e h
          cases h
          exact ⟨(f, p), by simp, setField_error hplain hc1 hsp hs⟩
        · intro msg h
          cases h
      | ok m1 =>
        obtain ⟨_, v, t, _, _, _, h4⟩ := setField_place hplain hc1 hs
        have hsh1 : ∀ n k, Place.elem n k ∈ ps → SameShape (m1.get? n) (ty.fresh.get? n) := by
          intro n k hm
          refine sameShape_trans (setPlace_shape h4 n ?_) (hsh n k (List.mem_cons_of_mem _ hm))
          intro e
          exact hps.shape n k (by rw [e]; simp) (List.mem_cons_of_mem _ hm)
        obtain ⟨h5, h6⟩ := ih hps' hsh1
        constructor
        · intro e h
          obtain ⟨fp, hfp, ho⟩ := h5 e h
          exact ⟨fp, List.mem_cons_of_mem _ hfp, ho⟩
        · intro msg h fp hfp e
          rcases List.mem_cons.mp hfp with rfl | hfp
          · exact setField_obstacle hplain hc1 hsp hs e
          · exact h6 msg h fp hfp e

/-- **C60**: the exception of a message that cannot be filled has one of the listed reasons. -/
theorem C60_exception {ty : RosType} {d : Dataset} {i : Nat} {ps : List Place} (hps : Places d.fields ps) {e : PyErr}
    (h : rosMessage ty d i = .error e) : ∃ fp ∈ d.fields.zip ps, PlaceObstacle ty d i fp.1 fp.2 e :=
  (fold_errors hps fun _ _ _ => sameShape_refl _).1 e h

/-- **C60**: a message can be filled if and only if there is no such reason. -/
theorem C60_exact {ty : RosType} {d : Dataset} {i : Nat} {ps : List Place} (hps : Places d.fields ps) :
    (∃ msg, rosMessage ty d i = .ok msg) ↔ ∀ fp ∈ d.fields.zip ps, ∀ e, ¬ PlaceObstacle ty d i fp.1 fp.2 e := by
  constructor
  · rintro ⟨msg, h⟩
    exact (fold_errors hps fun _ _ _ => sameShape_refl _).2 msg h
  · intro h
    cases hr : rosMessage ty d i with
    | ok msg => exact ⟨msg, rfl⟩
    | error e =>
      obtain ⟨fp, hfp, ho⟩ := C60_exception hps hr
      exact absurd ho (h fp hfp e)

/-- the sample message type, with a scalar attribute in place of the array, with a shorter array, and without it -/
example :
    rosMessage { Sample.rosType with fresh := Sample.rosType.fresh.set (py! "q") (.plain (.bool false)) } Sample.rosData 1 =
      .error .typeError ∧
    rosMessage { Sample.rosType with fresh := Sample.rosType.fresh.set (py! "q") (.array [.num (.int 0)]) } Sample.rosData 1 =
      .error .indexError ∧
    rosMessage { Sample.rosType with fresh := [] } Sample.rosData 1 = .error .attributeError ∧
    rosMessage { Sample.rosType with types := [] } Sample.rosData 1 = .error .keyError ∧
    rosMessage Sample.rosType Sample.rosData 2 = .error .indexError := ⟨rfl, rfl, rfl, rfl, rfl⟩

end PyULog
