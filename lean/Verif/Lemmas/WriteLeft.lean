import Verif.Model.WriteLeft
import Verif.Spec.WriteLeft
import Verif.Lemmas.Rewrite
/-
The content of a file after a call of `write_ulog` that failed.
-/
namespace PyULog
open Spec

/-! ### writes one after the other -/

theorem concatM_append (a b : List (Except PyErr Bytes)) :
    concatM (a ++ b) = (do let x ← concatM a; let y ← concatM b; return x ++ y) := by
  induction a with
  | nil =>
    show concatM b = _
    cases concatM b <;> rfl
  | cons x a ih =>
    rw [List.cons_append, concatM_cons, concatM_cons, ih]
    cases x with
    | error e => rfl
    | ok x =>
      cases concatM a with
      | error e => rfl
      | ok y =>
        cases concatM b with
        | error e => rfl
        | ok z =>
          show Except.ok (x ++ (y ++ z)) = Except.ok ((x ++ y) ++ z)
          rw [List.append_assoc]

theorem concatM_append_ok {a b : List (Except PyErr Bytes)} {r : Bytes} :
    concatM (a ++ b) = .ok r ↔ ∃ x y, concatM a = .ok x ∧ concatM b = .ok y ∧ r = x ++ y := by
  rw [concatM_append, except_bind_ok]
  constructor
  · rintro ⟨x, h1, h2⟩
    obtain ⟨y, h2, h3⟩ := except_bind_ok.mp h2
    injection h3 with h3
    exact ⟨x, y, h1, h2, h3.symm⟩
  · rintro ⟨x, y, h1, h2, rfl⟩
    exact ⟨x, h1, by rw [h2]; rfl⟩

theorem concatM_flatMap {α : Type} (f : α → List (Except PyErr Bytes)) (l : List α) :
    concatM (l.flatMap f) = concatM (l.map fun x => concatM (f x)) := by
  induction l with
  | nil => rfl
  | cons x l ih => rw [List.flatMap_cons, concatM_append, ih]; rfl

theorem leave_ok {l : List (Except PyErr Bytes)} {b : Bytes} :
    leave l = (b, none) ↔ concatM l = .ok b := by
  induction l generalizing b with
  | nil =>
    show ([], none) = (b, none) ↔ Except.ok [] = Except.ok b
    constructor
    · intro h; rw [(Prod.mk.inj h).1]
    · intro h; injection h with h; rw [h]
  | cons x l ih =>
    cases x with
    | error e =>
      constructor
      · intro h; cases h
      · intro h; cases h
    | ok a =>
      rw [concatM_cons_ok]
      constructor
      · intro h
        obtain ⟨h1, h2⟩ := Prod.mk.inj h
        exact ⟨a, (leave l).1, rfl, ih.mp (Prod.ext rfl h2), h1.symm⟩
      · rintro ⟨a', r, h1, h2, h3⟩
        injection h1 with h1
        subst h1
        show (a ++ (leave l).1, (leave l).2) = _
        rw [ih.mpr h2, h3]

theorem leave_error {l : List (Except PyErr Bytes)} {e : PyErr} :
    (leave l).2 = some e ↔ concatM l = .error e := by
  induction l with
  | nil =>
    constructor
    · intro h; cases h
    · intro h; cases h
  | cons x l ih =>
    cases x with
    | error e' =>
      show some e' = some e ↔ Except.error e' = Except.error e
      constructor
      · intro h; injection h with h; rw [h]
      · intro h; injection h with h; rw [h]
    | ok a =>
      rw [concatM_cons]
      show (leave l).2 = some e ↔ (concatM l >>= fun r => pure (a ++ r)) = .error e
      rw [ih]
      cases concatM l with
      | error e' =>
        show Except.error e' = Except.error e ↔ Except.error e' = Except.error e
        constructor
        · intro h; injection h with h; rw [h]
        · intro h; injection h with h; rw [h]
      | ok r =>
        constructor
        · intro h; cases h
        · intro h; cases h

theorem leave_append (a b : List (Except PyErr Bytes)) :
    (∃ e, (leave a).2 = some e ∧ leave (a ++ b) = leave a) ∨
      ∃ x, concatM a = .ok x ∧ leave (a ++ b) = (x ++ (leave b).1, (leave b).2) := by
  induction a with
  | nil => exact Or.inr ⟨[], rfl, rfl⟩
  | cons x a ih =>
    cases x with
    | error e' => exact Or.inl ⟨e', rfl, rfl⟩
    | ok x =>
      have e : leave (.ok x :: a ++ b) = (x ++ (leave (a ++ b)).1, (leave (a ++ b)).2) := rfl
      rw [e]
      rcases ih with ⟨e, h1, h2⟩ | ⟨y, h1, h2⟩
      · exact Or.inl ⟨e, h1, by rw [h2]; rfl⟩
      · refine Or.inr ⟨x ++ y, concatM_cons_ok.mpr ⟨x, y, rfl, h1, rfl⟩, ?_⟩
        rw [h2, List.append_assoc]

theorem leave_map {α : Type} {f : α → Except PyErr Bytes} {l : List α} :
    ∃ a, a <+: l ∧ concatM (a.map f) = .ok (leave (l.map f)).1 := by
  induction l with
  | nil => exact ⟨[], List.prefix_rfl, rfl⟩
  | cons x l ih =>
    obtain ⟨a, h1, h2⟩ := ih
    cases hx : f x with
    | error e => 
      refine ⟨[], List.nil_prefix, ?_⟩
      rw [List.map_cons, hx]
      rfl
    | ok b =>
      refine ⟨x :: a, List.cons_prefix_cons.mpr ⟨rfl, h1⟩, ?_⟩
      rw [List.map_cons, List.map_cons, hx]
      exact concatM_cons_ok.mpr ⟨b, _, rfl, h2, rfl⟩

theorem leave_flatMap {α : Type} {f : α → List (Except PyErr Bytes)} {part : α → α → Prop} {l : List α}
    (hp : ∀ x ∈ l, (leave (f x)).1 = [] ∨ ∃ y, part y x ∧ concatM (f y) = .ok (leave (f x)).1) :
    ∃ a, CutList part a l ∧ concatM (a.flatMap f) = .ok (leave (l.flatMap f)).1 := by
  induction l with
  | nil => exact ⟨[], Or.inl List.prefix_rfl, rfl⟩
  | cons x l ih =>
    rw [List.flatMap_cons]
    rcases leave_append (f x) (l.flatMap f) with ⟨e, h1, h2⟩ | ⟨b, h1, h3⟩
    · rw [h2]
      rcases hp x (List.mem_cons_self ..) with h0 | ⟨y, hy, h0⟩
      · exact ⟨[], Or.inl List.nil_prefix, by rw [h0]; rfl⟩
      · refine ⟨[y], Or.inr ⟨[], x, y, l, rfl, hy, rfl⟩, ?_⟩
        rw [List.flatMap_cons, List.flatMap_nil, List.append_nil]
        exact h0
    · obtain ⟨a, ha, hb⟩ := ih (fun y hy => hp y (List.mem_cons_of_mem _ hy))
      refine ⟨x :: a, ?_, ?_⟩
      · rcases ha with ha | ⟨pre, z, y, rest, e1, e2, e3⟩
        · exact Or.inl (List.cons_prefix_cons.mpr ⟨rfl, ha⟩)
        · exact Or.inr ⟨x :: pre, z, y, rest, by rw [e1]; rfl, e2, by rw [e3]; rfl⟩
      · rw [List.flatMap_cons, h3]
        exact concatM_append_ok.mpr ⟨b, _, h1, hb, rfl⟩

/-! ### the sections -/

theorem leave_set {key ty : Str} {c : Bool} {vs : List Value} :
    ∃ y, y <+: vs ∧ concatM (setSteps key ty c y) = .ok (leave (setSteps key ty c vs)).1 := by
  induction vs generalizing c with
  | nil => exact ⟨[], List.prefix_rfl, rfl⟩
  | cons v vs ih =>
    obtain ⟨y, h1, h2⟩ := ih (c := true)
    unfold setSteps
    cases hx : (do
      let d ← infoData key v ty (some c)
      frame MSG_TYPE_INFO_MULTIPLE d) with
    | error e => exact ⟨[], List.nil_prefix, rfl⟩
    | ok b =>
      refine ⟨v :: y, List.cons_prefix_cons.mpr ⟨rfl, h1⟩, ?_⟩
      show concatM (_ :: setSteps key ty true y) = _
      rw [hx]
      exact concatM_cons_ok.mpr ⟨b, _, rfl, h2, rfl⟩

theorem writeValueSet_steps (key ty : Str) (c : Bool) (vs : List Value) :
    writeValueSet key ty c vs = concatM (setSteps key ty c vs) := by
  induction vs generalizing c with
  | nil => rfl
  | cons v vs ih =>
    unfold writeValueSet setSteps
    rw [concatM_cons, ih]
    cases infoData key v ty (some c) with
    | error e => rfl
    | ok d => rfl

theorem writeInfoMulti_steps (u : ULog) :
    writeInfoMulti u = concatM (u.infoMulti.flatMap (multiSteps u.infoMultiTypes)) := by
  rw [concatM_flatMap]
  unfold writeInfoMulti
  congr 1
  apply List.map_congr_left
  rintro ⟨k, sets⟩ _
  unfold multiSteps
  simp only
  cases u.infoMultiTypes.get? k with
  | none => rfl
  | some ty =>
    simp only
    rw [concatM_flatMap]
    congr 1
    apply List.map_congr_left
    intro vs _
    exact writeValueSet_steps ..

theorem writeDefaultParams_steps (u : ULog) :
    writeDefaultParams u = concatM (u.defaultParams.flatMap defaultSteps) := by
  rw [concatM_flatMap]
  rfl

theorem writeDataSection_steps (u : ULog) : writeDataSection u = concatM (dataSteps u) := by
  unfold writeDataSection dataSteps
  cases allItems u with
  | error e => rfl
  | ok items =>
    show Except.ok ((sortItems items).flatMap (·.2)) = concatM ((sortItems items).map fun i => .ok i.2)
    symm
    rw [concatM_ok_iff]
    refine ⟨(sortItems items).map (·.2), by rw [List.map_map]; rfl, ?_⟩
    rw [List.flatMap_def]

theorem concatM_one (x : Except PyErr Bytes) : concatM [x] = x := by
  cases x with
  | error e => rfl
  | ok b =>
    show Except.ok (b ++ []) = _
    rw [List.append_nil]

theorem writeUlog_steps (u : ULog) : writeUlog u = concatM (writeSteps u) := by
  have e : writeSteps u = [[writeHeader u], [writeFlags u], u.formats.map formatStep,
      u.info.map (infoStep u.infoTypes), u.infoMulti.flatMap (multiSteps u.infoMultiTypes),
      u.initialParams.map initialStep, u.defaultParams.flatMap defaultSteps,
      (byMsgId u.dataList).map subStep, dataSteps u].flatMap id := by
    simp [writeSteps]
  rw [e, concatM_flatMap]
  unfold writeUlog
  rw [writeInfoMulti_steps, writeDefaultParams_steps, writeDataSection_steps]
  simp only [List.map_cons, List.map_nil, id, concatM_one]
  rfl

/-! ### the cut log -/

/-- a data set without rows -/
def bareSet (d : Dataset) : Dataset :=
  { multiId := d.multiId
    msgId := d.msgId
    name := d.name
    fields := [⟨py! "timestamp", .u64⟩]
    tsIdx := 0
    data := [(py! "timestamp", [])] }

/-- the log with these parts and without samples -/
def cutLog (u : ULog) (fm : Dict Str MsgFormat) (inf : Dict Str Value) (mul : Dict Str (List (List Value)))
    (ini : Dict Str Value) (dfl : Dict Nat (Dict Str Value)) (ds : List Dataset) : ULog :=
  { fileVersion := u.fileVersion
    startTs := u.startTs
    compat := u.compat
    incompat := u.incompat
    formats := fm
    info := inf
    infoTypes := u.infoTypes.filter fun p => decide (p.1 ∈ inf.map (·.1))
    infoMulti := mul
    infoMultiTypes := u.infoMultiTypes.filter fun p => decide (p.1 ∈ mul.map (·.1))
    initialParams := ini
    defaultParams := dfl
    dataList := ds.map bareSet }

theorem get?_filter_key {α : Type} (d : Dict Str α) (l : List Str) {k : Str} (hk : k ∈ l) :
    Dict.get? (d.filter fun p => decide (p.1 ∈ l)) k = d.get? k := by
  induction d with
  | nil => rfl
  | cons q d ih =>
    obtain ⟨k', b⟩ := q
    by_cases e : k' ∈ l
    · rw [List.filter_cons, if_pos (by simpa using e)]
      show (if k' = k then some b else Dict.get? _ k) = if k' = k then some b else Dict.get? d k
      rw [ih]
    · rw [List.filter_cons, if_neg (by simpa using e), ih]
      have : k' ≠ k := fun h => e (h ▸ hk)
      simp [Dict.get?, this]

theorem allItems_cut {u : ULog} {fm : Dict Str MsgFormat} {inf : Dict Str Value}
    {mul : Dict Str (List (List Value))} {ini : Dict Str Value} {dfl : Dict Nat (Dict Str Value)}
    {ds : List Dataset} : allItems (cutLog u fm inf mul ini dfl ds) = .ok [] := by
  have h1 : ∀ l : List Dataset, (∀ d ∈ l, datasetItems d = .ok []) →
      l.mapM datasetItems = .ok (l.map fun _ => []) := by
    intro l hl
    exact mapM_of_ok fun d hd => hl d hd
  have h2 := h1 (byMsgId (ds.map bareSet)) (by
    intro d hd
    obtain ⟨x, _, rfl⟩ := List.mem_map.mp ((mem_ssort _ _ _).mp hd)
    rfl)
  have h3 : dataItems (cutLog u fm inf mul ini dfl ds) = .ok [] := by
    unfold dataItems
    show (do
      let l ← (byMsgId (ds.map bareSet)).mapM datasetItems
      return l.flatten) = _
    rw [h2]
    show Except.ok _ = _
    congr 1
    rw [List.flatten_eq_nil_iff]
    intro l hl
    obtain ⟨_, _, rfl⟩ := List.mem_map.mp hl
    rfl
  unfold allItems
  rw [h3]
  rfl

theorem byMsgId_bare {l ds : List Dataset} (h : ds <+: byMsgId l) :
    byMsgId (ds.map bareSet) = ds.map bareSet := by
  apply ssort_of_sorted
  unfold Sorted
  rw [List.pairwise_map]
  exact (ssort_sorted byMsgId_pre l).sublist h.sublist

/-- the cut log is written with the parts it consists of -/
theorem writeUlog_cut {u : ULog} {fm : Dict Str MsgFormat} {inf : Dict Str Value}
    {mul : Dict Str (List (List Value))} {ini : Dict Str Value} {dfl : Dict Nat (Dict Str Value)}
    {ds : List Dataset} {b0 b1 b2 b3 b4 b5 b6 b7 : Bytes} (h0 : writeHeader u = .ok b0)
    (h1 : writeFlags u = .ok b1) (h2 : concatM (fm.map formatStep) = .ok b2)
    (h3 : concatM (inf.map (infoStep u.infoTypes)) = .ok b3)
    (h4 : concatM (mul.flatMap (multiSteps u.infoMultiTypes)) = .ok b4)
    (h5 : concatM (ini.map initialStep) = .ok b5) (h6 : concatM (dfl.flatMap defaultSteps) = .ok b6)
    (h7 : concatM (ds.map subStep) = .ok b7) (hs : ds <+: byMsgId u.dataList) :
    writeUlog (cutLog u fm inf mul ini dfl ds)
      = .ok (b0 ++ (b1 ++ (b2 ++ (b3 ++ (b4 ++ (b5 ++ (b6 ++ b7))))))) := by
  apply Written.ok (w := ?_)
  refine ⟨b0, b1, b2, b3, b4, b5, b6, b7, [], h0, h1, h2, ?_, ?_, h5, ?_, ?_, ?_, ?_⟩
  · show concatM (inf.map (infoStep _)) = _
    rw [← h3]
    congr 1
    apply List.map_congr_left
    intro p hp
    have e : (cutLog u fm inf mul ini dfl ds).infoTypes.get? p.1 = u.infoTypes.get? p.1 :=
      get?_filter_key _ _ (List.mem_map_of_mem hp)
    unfold infoStep
    rw [e]
  · rw [writeInfoMulti_steps, ← h4, concatM_flatMap, concatM_flatMap]
    show concatM (mul.map fun x => concatM (multiSteps _ x)) = _
    congr 1
    apply List.map_congr_left
    intro p hp
    have e : (cutLog u fm inf mul ini dfl ds).infoMultiTypes.get? p.1 = u.infoMultiTypes.get? p.1 :=
      get?_filter_key _ _ (List.mem_map_of_mem hp)
    unfold multiSteps
    rw [e]
  · rw [writeDefaultParams_steps]
    exact h6
  · show concatM ((byMsgId (ds.map bareSet)).map subStep) = _
    rw [byMsgId_bare hs, List.map_map]
    exact h7
  · unfold writeDataSection
    rw [allItems_cut]
    rfl
  · simp

theorem leave_multi {types : Dict Str Str} {p : Str × List (List Value)} :
    (leave (multiSteps types p)).1 = [] ∨
      ∃ y, MultiPart y p ∧ concatM (multiSteps types y) = .ok (leave (multiSteps types p)).1 := by
  unfold multiSteps
  cases hty : types.get? p.1 with
  | none => exact Or.inl rfl
  | some ty =>
    simp only
    obtain ⟨a, h1, h2⟩ := leave_flatMap (part := SetPart)
      (f := setSteps (ty ++ py! " " ++ p.1) ty false) (l := p.2) (by
        intro x _
        obtain ⟨y, g1, g2⟩ := leave_set (key := ty ++ py! " " ++ p.1) (ty := ty) (c := false) (vs := x)
        cases y with
        | nil =>
          left
          injection g2 with g2
          exact g2.symm
        | cons v y => exact Or.inr ⟨v :: y, ⟨by simp, g1⟩, g2⟩)
    cases a with
    | nil =>
      left
      injection h2 with h2
      exact h2.symm
    | cons x a =>
      refine Or.inr ⟨(p.1, x :: a), ⟨rfl, by simp, h1⟩, ?_⟩
      simp only [hty]
      exact h2

theorem leave_default {p : Nat × Dict Str Value} :
    (leave (defaultSteps p)).1 = [] ∨
      ∃ y, DefaultPart y p ∧ concatM (defaultSteps y) = .ok (leave (defaultSteps p)).1 := by
  obtain ⟨a, h1, h2⟩ := leave_map (f := fun q : Str × Value => do
    let m ← packU 1 (1 <<< p.1)
    let d ← paramData q.1 q.2
    frame MSG_TYPE_PARAMETER_DEFAULT (m ++ d)) (l := p.2)
  cases a with
  | nil =>
    left
    injection h2 with h2
    exact h2.symm
  | cons x a => exact Or.inr ⟨(p.1, x :: a), ⟨rfl, by simp, h1⟩, h2⟩

theorem cutOf_cutLog {u : ULog} {fm : Dict Str MsgFormat} {inf : Dict Str Value}
    {mul : Dict Str (List (List Value))} {ini : Dict Str Value} {dfl : Dict Nat (Dict Str Value)}
    {ds : List Dataset} (h2 : fm <+: u.formats) (h3 : inf <+: u.info) (h3' : inf ≠ [] → fm = u.formats)
    (h4 : CutList MultiPart mul u.infoMulti) (h4' : mul ≠ [] → fm = u.formats ∧ inf = u.info)
    (h5 : ini <+: u.initialParams)
    (h5' : ini ≠ [] → fm = u.formats ∧ inf = u.info ∧ mul = u.infoMulti)
    (h6 : CutList DefaultPart dfl u.defaultParams)
    (h6' : dfl ≠ [] → fm = u.formats ∧ inf = u.info ∧ mul = u.infoMulti ∧ ini = u.initialParams)
    (h7 : ds <+: byMsgId u.dataList)
    (h7' : ds ≠ [] → fm = u.formats ∧ inf = u.info ∧ mul = u.infoMulti ∧ ini = u.initialParams ∧
      dfl = u.defaultParams) : CutOf (cutLog u fm inf mul ini dfl ds) u where
  version := rfl
  start := rfl
  flags := ⟨rfl, rfl⟩
  formats := h2
  info := h3
  info_after := h3'
  infoTypes := rfl
  multi := h4
  multi_after := h4'
  multiTypes := rfl
  initial := h5
  initial_after := h5'
  defaults := h6
  defaults_after := h6'
  subs := by
    refine ⟨byMsgId u.dataList, ssort_perm _ _, ?_, ?_⟩
    · have := ssort_sorted byMsgId_pre u.dataList
      unfold Sorted at this
      simpa [byMsgId] using this
    · show List.map _ (ds.map bareSet) <+: _
      rw [List.map_map]
      exact h7.map _
  subs_after := fun h => h7' (fun e => h (by rw [e]; rfl))
  no_rows := by
    intro d hd
    obtain ⟨x, _, rfl⟩ := List.mem_map.mp hd
    rfl
  no_messages := ⟨rfl, rfl, rfl, rfl⟩

theorem cutList_nil {α : Type} (part : α → α → Prop) (l : List α) : CutList part [] l :=
  Or.inl List.nil_prefix

theorem cutList_self {α : Type} (part : α → α → Prop) (l : List α) : CutList part l l :=
  Or.inl List.prefix_rfl

theorem dataSteps_left {u : ULog} {e : PyErr} (h : (leave (dataSteps u)).2 = some e) :
    (leave (dataSteps u)).1 = [] := by
  unfold dataSteps at h ⊢
  cases hi : allItems u with
  | error e => rfl
  | ok items =>
    exfalso
    rw [hi] at h
    have : ∀ l : List Item, (leave (l.map fun i => .ok i.2)).2 = none := by
      intro l
      induction l with
      | nil => rfl
      | cons x l ih => exact ih
    rw [this] at h
    cases h

/-- how far a failing call came -/
theorem writeLeft_cut {u : ULog} {e : PyErr} (h : (writeLeft u).2 = some e) :
    (writeLeft u).1 = [] ∨ writeHeader u = .ok (writeLeft u).1 ∨
      ∃ c, CutOf c u ∧ writeUlog c = .ok (writeLeft u).1 := by
  unfold writeLeft writeSteps at h ⊢
  simp only [List.append_assoc] at h ⊢
  rw [List.cons_append, List.cons_append, List.nil_append] at h ⊢
  cases h0 : writeHeader u with
  | error e => exact Or.inl rfl
  | ok b0 =>
  cases h1 : writeFlags u with
  | error e =>
    refine Or.inr (Or.inl ?_)
    show Except.ok b0 = Except.ok (b0 ++ [])
    rw [List.append_nil]
  | ok b1 =>
  rw [h0, h1] at h
  refine Or.inr (Or.inr ?_)
  generalize hr : (List.map formatStep u.formats ++ (List.map (infoStep u.infoTypes) u.info ++
    (List.flatMap (multiSteps u.infoMultiTypes) u.infoMulti ++ (List.map initialStep u.initialParams ++
    (List.flatMap defaultSteps u.defaultParams ++ (List.map subStep (byMsgId u.dataList) ++ dataSteps u))))))
    = rest at h ⊢
  have hl : leave (.ok b0 :: .ok b1 :: rest) = (b0 ++ (b1 ++ (leave rest).1), (leave rest).2) := rfl
  rw [hl] at h ⊢
  subst hr
  have nil7 : ([] : List Dataset) <+: byMsgId u.dataList := List.nil_prefix
  have nd : ∀ {α : Type} {P : Prop}, ([] : List α) ≠ [] → P := fun h => absurd rfl h
  rcases leave_append (u.formats.map formatStep) _ with ⟨_, _, e2⟩ | ⟨b2, h2, e2⟩
  · obtain ⟨fm, g1, g2⟩ := leave_map (f := formatStep) (l := u.formats)
    refine ⟨cutLog u fm [] [] [] [] [], cutOf_cutLog g1 List.nil_prefix nd (cutList_nil _ _) nd
      List.nil_prefix nd (cutList_nil _ _) nd nil7 nd, ?_⟩
    rw [writeUlog_cut h0 h1 g2 rfl rfl rfl rfl rfl nil7, e2]
    simp
  rcases leave_append (u.info.map (infoStep u.infoTypes)) _ with ⟨_, _, e3⟩ | ⟨b3, h3, e3⟩
  · obtain ⟨inf, g1, g2⟩ := leave_map (f := infoStep u.infoTypes) (l := u.info)
    refine ⟨cutLog u u.formats inf [] [] [] [], cutOf_cutLog List.prefix_rfl g1 (fun _ => rfl)
      (cutList_nil _ _) nd List.nil_prefix nd (cutList_nil _ _) nd nil7 nd, ?_⟩
    rw [writeUlog_cut h0 h1 h2 g2 rfl rfl rfl rfl nil7, e2, e3]
    simp
  rcases leave_append (u.infoMulti.flatMap (multiSteps u.infoMultiTypes)) _ with ⟨_, _, e4⟩ | ⟨b4, h4, e4⟩
  · obtain ⟨mul, g1, g2⟩ := leave_flatMap (part := MultiPart) (f := multiSteps u.infoMultiTypes)
      (l := u.infoMulti) (fun x _ => leave_multi)
    refine ⟨cutLog u u.formats u.info mul [] [] [], cutOf_cutLog List.prefix_rfl List.prefix_rfl
      (fun _ => rfl) g1 (fun _ => ⟨rfl, rfl⟩) List.nil_prefix nd (cutList_nil _ _) nd nil7 nd, ?_⟩
    rw [writeUlog_cut h0 h1 h2 h3 g2 rfl rfl rfl nil7, e2, e3, e4]
    simp
  rcases leave_append (u.initialParams.map initialStep) _ with ⟨_, _, e5⟩ | ⟨b5, h5, e5⟩
  · obtain ⟨ini, g1, g2⟩ := leave_map (f := initialStep) (l := u.initialParams)
    refine ⟨cutLog u u.formats u.info u.infoMulti ini [] [], cutOf_cutLog List.prefix_rfl List.prefix_rfl
      (fun _ => rfl) (cutList_self _ _) (fun _ => ⟨rfl, rfl⟩) g1 (fun _ => ⟨rfl, rfl, rfl⟩)
      (cutList_nil _ _) nd nil7 nd, ?_⟩
    rw [writeUlog_cut h0 h1 h2 h3 h4 g2 rfl rfl nil7, e2, e3, e4, e5]
    simp
  rcases leave_append (u.defaultParams.flatMap defaultSteps) _ with ⟨_, _, e6⟩ | ⟨b6, h6, e6⟩
  · obtain ⟨dfl, g1, g2⟩ := leave_flatMap (part := DefaultPart) (f := defaultSteps)
      (l := u.defaultParams) (fun x _ => leave_default)
    refine ⟨cutLog u u.formats u.info u.infoMulti u.initialParams dfl [], cutOf_cutLog List.prefix_rfl
      List.prefix_rfl (fun _ => rfl) (cutList_self _ _) (fun _ => ⟨rfl, rfl⟩) List.prefix_rfl
      (fun _ => ⟨rfl, rfl, rfl⟩) g1 (fun _ => ⟨rfl, rfl, rfl, rfl⟩) nil7 nd, ?_⟩
    rw [writeUlog_cut h0 h1 h2 h3 h4 h5 g2 rfl nil7, e2, e3, e4, e5, e6]
    simp
  have last : ∃ ds b7, ds <+: byMsgId u.dataList ∧ concatM (ds.map subStep) = .ok b7 ∧
      (leave ((byMsgId u.dataList).map subStep ++ dataSteps u)).1 = b7 := by
    rcases leave_append ((byMsgId u.dataList).map subStep) (dataSteps u) with ⟨_, _, e7⟩ | ⟨b7, h7, e7⟩
    · obtain ⟨ds, g1, g2⟩ := leave_map (f := subStep) (l := byMsgId u.dataList)
      exact ⟨ds, _, g1, g2, by rw [e7]⟩
    · refine ⟨_, b7, List.prefix_rfl, h7, ?_⟩
      rw [e7]
      have herr : (leave (dataSteps u)).2 = some e := by
        rw [e2] at h
        simp only [e3, e4, e5, e6, e7] at h
        exact h
      rw [dataSteps_left herr]
      exact List.append_nil _
  obtain ⟨ds, b7, g1, g2, g3⟩ := last
  refine ⟨cutLog u u.formats u.info u.infoMulti u.initialParams u.defaultParams ds,
    cutOf_cutLog List.prefix_rfl List.prefix_rfl (fun _ => rfl) (cutList_self _ _) (fun _ => ⟨rfl, rfl⟩)
      List.prefix_rfl (fun _ => ⟨rfl, rfl, rfl⟩) (cutList_self _ _) (fun _ => ⟨rfl, rfl, rfl, rfl⟩) g1
      (fun _ => ⟨rfl, rfl, rfl, rfl, rfl⟩), ?_⟩
  rw [writeUlog_cut h0 h1 h2 h3 h4 h5 h6 g2 g1, e2, e3, e4, e5, e6]
  simp only
  rw [g3]

end PyULog
