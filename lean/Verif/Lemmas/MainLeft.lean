import Verif.Model.Main
import Verif.Lemmas.Errors
import Verif.Lemmas.Decode
/-
Lemmas for C94 and C95: output up to an exception.
-/
namespace PyULog

/-- the output `l` belongs to the result `r`: all of it, or a part and the exception -/
def Agrees {β : Type} (r : Except PyErr (List β)) (l : List β × Option PyErr) : Prop :=
  match r with
  | .ok x => l = (x, none)
  | .error e => ∃ x, l = (x, some e)

theorem mapLeft_append {α β : Type} (f : α → Except PyErr β) (l l' : List α) :
    mapLeft f (l ++ l') = andThen (mapLeft f l) (mapLeft f l') := by
  induction l with
  | nil => rfl
  | cons x l ih =>
    cases hx : f x with
    | error e => simp [mapLeft, hx, andThen]
    | ok y =>
      simp only [List.cons_append, mapLeft, hx, ih, andThen]
      cases (mapLeft f l).2 <;> rfl

theorem mapLeft_ok {α β : Type} {f : α → Except PyErr β} {l : List α} {ys : List β} :
    mapLeft f l = (ys, none) ↔ l.mapM f = .ok ys := by
  induction l generalizing ys with
  | nil =>
    simp only [mapLeft, List.mapM_nil]
    exact ⟨fun h => (by cases h; rfl), fun h => (by cases h; rfl)⟩
  | cons x l ih =>
    rw [List.mapM_cons]
    cases hx : f x with
    | error e => simp only [mapLeft, hx]; exact ⟨fun h => (nomatch h), fun h => (nomatch h)⟩
    | ok y =>
      simp only [mapLeft, hx]
      constructor
      · intro h
        rcases hl : mapLeft f l with ⟨zs, o⟩
        rw [hl] at h
        cases h
        show (l.mapM f >>= fun bs => Except.ok (y :: bs)) = _
        rw [ih.mp hl]
        rfl
      · intro h
        obtain ⟨zs, hz, hq⟩ := (except_bind_ok (x := l.mapM f) (f := fun bs => Except.ok (y :: bs))).mp h
        cases hq
        rw [ih.mpr hz]

/-- the exception: everything before the element that raises is there -/
theorem mapLeft_error {α β : Type} {f : α → Except PyErr β} {l : List α} {ys : List β} {e : PyErr} :
    mapLeft f l = (ys, some e) ↔ ∃ pre x post, l = pre ++ x :: post ∧ pre.mapM f = .ok ys ∧ f x = .error e := by
  constructor
  · intro h
    induction l generalizing ys with
    | nil => cases h
    | cons x l ih =>
      cases hx : f x with
      | error e' =>
        simp only [mapLeft, hx] at h
        cases h
        exact ⟨[], x, l, rfl, rfl, hx⟩
      | ok y =>
        simp only [mapLeft, hx] at h
        rcases hl : mapLeft f l with ⟨zs, o⟩
        rw [hl] at h
        cases h
        obtain ⟨pre, x', post, rfl, hp, hq⟩ := ih hl
        refine ⟨x :: pre, x', post, rfl, ?_, hq⟩
        rw [List.mapM_cons, hx]
        show (pre.mapM f >>= fun bs => Except.ok (y :: bs)) = _
        rw [hp]
        rfl
  · rintro ⟨pre, x, post, rfl, hp, hx⟩
    rw [mapLeft_append, mapLeft_ok.mpr hp]
    simp [andThen, mapLeft, hx]

theorem mapLeft_agrees {α β : Type} (f : α → Except PyErr β) (l : List α) : Agrees (l.mapM f) (mapLeft f l) := by
  rcases h : mapLeft f l with ⟨ys, _ | e⟩
  · rw [mapLeft_ok.mp h]; rfl
  · obtain ⟨pre, x, post, rfl, hp, hx⟩ := mapLeft_error.mp h
    have : (pre ++ x :: post).mapM f = .error e := by
      rw [List.mapM_append, hp, List.mapM_cons, hx]; rfl
    rw [this]
    exact ⟨ys, rfl⟩

theorem allAtOnce_agrees {β : Type} (r : Except PyErr (List β)) : Agrees r (allAtOnce r) := by
  cases r with
  | error e => exact ⟨[], rfl⟩
  | ok x => rfl

theorem andThen_agrees {β : Type} {r s : Except PyErr (List β)} {a b : List β × Option PyErr} (ha : Agrees r a)
    (hb : Agrees s b) : Agrees (r >>= fun x => s >>= fun y => .ok (x ++ y)) (andThen a b) := by
  cases r with
  | error e => obtain ⟨x, rfl⟩ := ha; exact ⟨x, rfl⟩
  | ok x =>
    cases ha
    cases s with
    | error e => obtain ⟨y, rfl⟩ := hb; exact ⟨x ++ y, rfl⟩
    | ok y => cases hb; rfl

/-- what is printed anyway -/
theorem andThen_pure {β : Type} (x : List β) (b : List β × Option PyErr) : andThen (x, none) b = (x ++ b.1, b.2) := rfl

/-! ### `ulog_info` -/

theorem joined_lines {β : Type} (a : List β) (t d : β) (v : List β) (i : β) (is ms h rows : List β) :
    a ++ ([t] ++ ([d] ++ (v ++ ([i] ++ (is ++ (ms ++ (h ++ rows))))))) = a ++ [t, d] ++ v ++ [i] ++ is ++ ms ++ h ++ rows := by
  simp

/-- the result and the output of `show_info` -/
theorem infoLeft_agrees (pr : Char → Bool) (verbose : Bool) (u : ULog) :
    Agrees (showInfoText pr verbose u) (infoLeft pr verbose u) := by
  have h0 : Agrees (timeLine u >>= fun t => Except.ok [t]) (mapLeft timeLine [u]) := by
    cases h : timeLine u with
    | error e => exact ⟨[], by simp [mapLeft, h]⟩
    | ok t => show _ = _; simp [mapLeft, h]
  have h1 : Agrees (multiLines (listsRepr pr) verbose u) (if u.infoMulti.length > 0 then
      if verbose then
        andThen ([py! "Info Multiple Messages:"], none) (mapLeft (fun k => do
          let v ← dictGet u.infoMulti k
          .ok (py! " " ++ k ++ py! ": " ++ listsRepr pr v)) (sortedKeys u.infoMulti))
      else allAtOnce do
        let ls ← (sortedKeys u.infoMulti).mapM fun k => do
          let v ← dictGet u.infoMulti k
          .ok (py! "[" ++ k ++ py! ": " ++ natDec v.length ++ py! "]")
        .ok [py! "Info Multiple Messages: " ++ pyJoin (py! ", ") ls]
    else ([], none)) := by
    unfold multiLines
    split
    · split
      · exact andThen_agrees (r := .ok [py! "Info Multiple Messages:"]) rfl (mapLeft_agrees _ _)
      · exact allAtOnce_agrees _
    · rfl
  have h := andThen_agrees (r := .ok (if u.fileCorrupt then [py! "Warning: file has data corruption(s)"] else [])) rfl <|
    andThen_agrees h0 <|
    andThen_agrees (r := .ok [dropoutLine u]) rfl <|
    andThen_agrees (allAtOnce_agrees (do
      let version ← getVersionInfoStr u
      .ok (match version with
        | some v => [py! "SW Version: " ++ v]
        | none => []))) <|
    andThen_agrees (r := .ok [py! "Info Messages:"]) rfl <|
    andThen_agrees (mapLeft_agrees (fun k => do
      let v ← dictGet u.info k
      .ok (py! " " ++ k ++ py! ": " ++ pyText v))
        ((sortedKeys u.info).filter fun k => !startsWith (py! "perf_") k || verbose)) <|
    andThen_agrees h1 <|
    andThen_agrees (r := .ok [[], tableHead]) rfl (mapLeft_agrees tableLine (tableOrder u.dataList))
  refine Eq.mp (congrArg (Agrees · _) ?_) h
  unfold showInfoText showInfo infoLines
  cases timeLine u with
  | error e => rfl
  | ok t =>
    cases getVersionInfoStr u with
    | error e => rfl
    | ok v =>
      cases ((sortedKeys u.info).filter fun k => !startsWith (py! "perf_") k || verbose).mapM (fun k => do
          let v ← dictGet u.info k
          Except.ok (py! " " ++ k ++ py! ": " ++ pyText v)) with
      | error e => rfl
      | ok is =>
        cases multiLines (listsRepr pr) verbose u with
        | error e => rfl
        | ok ms =>
          cases (tableOrder u.dataList).mapM tableLine with
          | error e => rfl
          | ok rows => exact congrArg Except.ok (joined_lines _ _ _ _ _ is ms _ rows)

theorem andThen_assoc {β : Type} (a b c : List β × Option PyErr) : andThen (andThen a b) c = andThen a (andThen b c) := by
  rcases a with ⟨x, _ | e⟩
  · rcases b with ⟨y, _ | e⟩
    · simp [andThen]
    · rfl
  · rfl

theorem andThen_nil {β : Type} (a : List β × Option PyErr) : andThen a ([], none) = a := by
  rcases a with ⟨x, _ | e⟩
  · simp [andThen]
  · rfl

/-- the rows of the table come last -/
theorem infoLeft_table (pr : Char → Bool) (verbose : Bool) (u : ULog) :
    infoLeft pr verbose u = andThen (infoLeft pr verbose { u with dataList := [] }) (mapLeft tableLine (tableOrder u.dataList)) := by
  unfold infoLeft
  simp only [andThen_assoc]
  rfl

/-- the result and the output for one list -/
theorem dumpLeft_agrees (separator name : Str) (i : Nat) (m : List Value) :
    Agrees (dumpLines separator name i m) (dumpLeft separator name i m) := by
  unfold dumpLines dumpLeft
  split
  · refine Eq.mp (congrArg (Agrees · _) ?_) (andThen_agrees (allAtOnce_agrees _) (allAtOnce_agrees _))
    rename_i b l
    cases (Value.bytes b :: l).mapM itemLen with
    | error e => rfl
    | ok lens => cases (Value.bytes b :: l).mapM hexItem <;> rfl
  · rename_i hm
    split
    · exact absurd rfl (hm _ _)
    · refine Eq.mp (congrArg (Agrees · _) ?_) (andThen_agrees (r := .ok [py! "# " ++ name ++ py! " " ++ natDec i ++ py! ":"]) rfl
        (allAtOnce_agrees _))
      cases m.mapM strItem <;> rfl

theorem dumpsLeft_agrees (separator name : Str) (l : List (List Value × Nat)) :
    Agrees (l.mapM (fun p => dumpLines separator name p.2 p.1) >>= fun parts => .ok parts.flatten)
      (dumpsLeft separator name l) := by
  induction l with
  | nil => rfl
  | cons p l ih =>
    refine Eq.mp (congrArg (Agrees · _) ?_) (andThen_agrees (dumpLeft_agrees separator name p.2 p.1) ih)
    rw [List.mapM_cons]
    cases dumpLines separator name p.2 p.1 with
    | error e => rfl
    | ok x =>
      cases l.mapM (fun p => dumpLines separator name p.2 p.1) with
      | error e => rfl
      | ok xs => rfl

/-- the result and the output for a message -/
theorem messageLeft_agrees (newline : Bool) (u : ULog) (name : Str) :
    Agrees (showMessage newline u name) (messageLeft newline u name) := by
  unfold showMessage messageLeft
  cases u.infoMulti.get? name with
  | none => rfl
  | some lists => exact dumpsLeft_agrees _ _ _

/-! ### `ulog2ros2bag` -/

/-- the result and the bag of one topic -/
theorem topicLeft_agrees (env : RosEnv) (all : List Dataset) (bag : Bag) (d : Dataset) :
    (∀ b, exportTopic env all bag d = .ok b ↔ topicLeft env all bag d = (b, none)) ∧
    ∀ e, exportTopic env all bag d = .error e ↔ ∃ b, topicLeft env all bag d = (b, some e) := by
  unfold exportTopic topicLeft
  cases dictGet d.data (py! "timestamp") with
  | error e' =>
    refine ⟨fun b => ⟨fun h => (nomatch h), fun h => (nomatch h)⟩, fun e => ⟨fun h => ?_, fun ⟨b, h⟩ => ?_⟩⟩ <;> cases h
    · exact ⟨_, rfl⟩
    · rfl
  | ok ts =>
    simp only [ok_bind]
    cases exportType env d with
    | none =>
      refine ⟨fun b => ⟨fun h => ?_, fun h => ?_⟩, fun e => ⟨fun h => (nomatch h), fun ⟨b, h⟩ => (nomatch h)⟩⟩ <;> cases h <;> rfl
    | some p =>
      obtain ⟨name, ty⟩ := p
      have h := mapLeft_agrees (exportRow ty d (rosTopic all d) ts) (List.range ts.length)
      dsimp only
      cases hm : (List.range ts.length).mapM (exportRow ty d (rosTopic all d) ts) with
      | error e' =>
        rw [hm] at h
        obtain ⟨x, hx⟩ := h
        rw [hx]
        simp only
        refine ⟨fun b => ⟨fun h => (nomatch h), fun h => (nomatch h)⟩, fun e => ⟨fun h => ?_, fun ⟨b, h⟩ => ?_⟩⟩ <;> cases h
        · exact ⟨_, rfl⟩
        · rfl
      | ok x =>
        rw [hm] at h
        rw [show mapLeft _ _ = (x, none) from h]
        simp only
        refine ⟨fun b => ⟨fun h => ?_, fun h => ?_⟩, fun e => ⟨fun h => (nomatch h), fun ⟨b, h⟩ => (nomatch h)⟩⟩ <;> cases h <;> rfl

/-- the result and the bag of the topics -/
theorem topicsLeft_agrees (env : RosEnv) (all : List Dataset) (ds : List Dataset) (bag : Bag) :
    (∀ b, ds.foldlM (exportTopic env all) bag = .ok b ↔ topicsLeft env all ds bag = (b, none)) ∧
    ∀ e, ds.foldlM (exportTopic env all) bag = .error e ↔ ∃ b, topicsLeft env all ds bag = (b, some e) := by
  induction ds generalizing bag with
  | nil =>
    refine ⟨fun b => ⟨fun h => ?_, fun h => ?_⟩, fun e => ⟨fun h => (nomatch h), fun ⟨b, h⟩ => (nomatch h)⟩⟩ <;> cases h <;> rfl
  | cons d ds ih =>
    rw [List.foldlM_cons]
    cases h : exportTopic env all bag d with
    | error e' =>
      obtain ⟨x, hx⟩ := ((topicLeft_agrees env all bag d).2 e').mp h
      simp only [topicsLeft, hx]
      refine ⟨fun b => ⟨fun h => (nomatch h), fun h => (nomatch h)⟩, fun e => ⟨fun h => ?_, fun ⟨b, h⟩ => ?_⟩⟩ <;> cases h
      · exact ⟨_, rfl⟩
      · rfl
    | ok b' =>
      simp only [topicsLeft, ((topicLeft_agrees env all bag d).1 b').mp h, ok_bind]
      exact ih b'

end PyULog
