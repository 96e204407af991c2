import Verif.Spec.BagError
import Verif.Props.MainLeft
import Verif.Props.ToolError
/-
Property theorems: C103 (when `ulog2ros2bag` raises).
-/
namespace PyULog
open Spec

/-- a loop stops at the first element with an exception -/
theorem foldlM_first {α β : Type} {f : β → α → Except PyErr β} {P : α → PyErr → Prop} {l : List α}
    (hf : ∀ b a, a ∈ l → ∀ e, f b a = .error e ↔ P a e) (b : β) (e : PyErr) :
    l.foldlM f b = .error e ↔ BagFirst P l e := by
  induction l generalizing b with
  | nil =>
    refine ⟨fun h => (by cases h), ?_⟩
    rintro ⟨pre, x, post, h, _⟩
    cases pre <;> cases h
  | cons a l ih =>
    have ih := fun b => ih (fun b' a' h' => hf b' a' (List.mem_cons_of_mem _ h')) b
    rw [List.foldlM_cons]
    cases hb : f b a with
    | error e' =>
      have hp := (hf b a (List.mem_cons_self ..) e').mp hb
      constructor
      · intro h
        cases h
        exact ⟨[], a, l, rfl, fun y hy => (by cases hy), hp⟩
      · rintro ⟨pre, x, post, h, h1, h2⟩
        cases pre with
        | nil =>
          injection h with h _
          subst h
          have := (hf b a (List.mem_cons_self ..) e).mpr h2
          rw [hb] at this
          injection this with this
          subst this
          rfl
        | cons y pre =>
          injection h with h _
          subst h
          exact absurd hp (h1 a (List.mem_cons_self ..) e')
    | ok b' =>
      have hno : ∀ e', ¬ P a e' := by
        intro e' hp
        have := (hf b a (List.mem_cons_self ..) e').mpr hp
        rw [hb] at this
        cases this
      rw [ok_bind, ih]
      constructor
      · rintro ⟨pre, x, post, rfl, h1, h2⟩
        refine ⟨a :: pre, x, post, rfl, ?_, h2⟩
        intro y hy
        rcases List.mem_cons.mp hy with rfl | hy
        · exact hno
        · exact h1 y hy
      · rintro ⟨pre, x, post, h, h1, h2⟩
        cases pre with
        | nil =>
          injection h with h _
          subst h
          exact absurd h2 (hno e)
        | cons y pre =>
          injection h with _ h
          exact ⟨pre, x, post, h, fun z hz => h1 z (List.mem_cons_of_mem _ hz), h2⟩

/-- the name of a place is the name of its column without the index -/
theorem place_base {p : Place} (hp : p.plain) {b : Str} (h : BaseName p.column b) : b = p.name := by
  cases p with
  | attr n =>
    rcases h with ⟨a, ds, e, _, _, _, h, _⟩ | ⟨_, h⟩
    · exfalso
      refine hp.1 ?_
      show '[' ∈ n
      rw [show n = a ++ '[' :: ds ++ ']' :: e from h]
      simp
    · exact h
  | elem n k =>
    refine BaseName_unique h (.inl ⟨n, natDec k, [], ?_, ?_, .inl rfl, ?_, by rw [List.append_nil]; rfl⟩)
    · intro h
      have := natDec_ne_nil k
      exact this h
    · intro c hc
      have hd := natDec_chars k c hc
      exact ⟨c.toNat - 48, by unfold isDigitC at hd; omega, '0', by decide, by unfold isDigitC at hd; show c.toNat = 48 + _; omega⟩
    · show n ++ py! "[" ++ natDec k ++ py! "]" = _
      simp

/-- one field of a loaded dataset that is exported -/
theorem setField_first {env : RosEnv} {d : Dataset} (hd : LoadedData d) {name : Str} {ty : RosType} (hx : BagExported env d name ty)
    {n i : Nat} (hn : ∀ c ∈ d.data, c.2.length = n) (hi : i < n) {f : FieldData} (hf : f ∈ d.fields) {p : Place}
    (hp : p.plain) (hc : f.name = p.column) {e : PyErr} : PlaceObstacle ty d i f p e ↔ BagFieldObstacle ty (f, p) e := by
  obtain ⟨m, _, hm, hr⟩ := hd.rows
  constructor
  · intro h
    cases h with
    | column h =>
      by_cases h0 : f.name = []
      · exact .unnamed h0
      · obtain ⟨col, h1, _⟩ := hr f hf h0
        rw [h] at h1
        cases h1
    | @row _ col h1 h2 =>
      have := hn _ (Dict.mem_of_get? _ _ _ h1)
      dsimp only at this
      omega
    | type h =>
      obtain ⟨b, hb, hk⟩ := (hx.2.2 f hf).2
      rw [hc] at hb
      rw [place_base hp hb] at hk
      exact absurd hk ((Dict.get?_eq_none_iff _ _).mp h)
    | missing h => exact .missing h
    | scalar h => exact .scalar h
    | short h1 h2 => exact .short h1 h2
  · intro h
    cases h with
    | unnamed h =>
      refine .column ?_
      rw [h]
      cases hg : d.data.get? [] with
      | none => rfl
      | some col =>
        obtain ⟨j, g, _, h2, _⟩ := hd.named [] col hg
        exfalso
        unfold columnName at h2
        cases hgn : g.name with
        | nil => rw [hgn] at h2; cases h2
        | cons c cs => rw [hgn] at h2; cases h2
    | missing h => exact .missing h
    | scalar h => exact .scalar h
    | short h1 h2 => exact .short h1 h2

theorem bagField_unique {ty : RosType} {fp : FieldData × Place} (hc : fp.1.name = fp.2.column) {e e' : PyErr}
    (h : BagFieldObstacle ty fp e) (h' : BagFieldObstacle ty fp e') : e = e' := by
  have hne : ∀ {f : FieldData} {n : Str} {k : Nat}, f.name = (Place.elem n k).column → f.name ≠ [] := by
    intro f n k h h0
    rw [h0] at h
    have h : ([] : Str) = n ++ py! "[" ++ natDec k ++ py! "]" := h
    simp at h
  cases h with
  | unnamed h0 =>
    cases h' with
    | unnamed _ => rfl
    | missing _ => exact absurd h0 (hne hc)
    | scalar _ => exact absurd h0 (hne hc)
    | short _ _ => exact absurd h0 (hne hc)
  | missing h =>
    cases h' with
    | unnamed h0 => exact absurd h0 (hne hc)
    | missing _ => rfl
    | scalar h2 => rw [h] at h2; cases h2
    | short h2 _ => rw [h] at h2; cases h2
  | scalar h =>
    cases h' with
    | unnamed h0 => exact absurd h0 (hne hc)
    | missing h2 => rw [h] at h2; cases h2
    | scalar _ => rfl
    | short h2 _ => rw [h] at h2; cases h2
  | short h _ =>
    cases h' with
    | unnamed h0 => exact absurd h0 (hne hc)
    | missing h2 => rw [h] at h2; cases h2
    | scalar h2 => rw [h] at h2; cases h2
    | short _ _ => rfl

theorem fold_first {env : RosEnv} {d : Dataset} (hd : LoadedData d) {name : Str} {ty : RosType} (hx : BagExported env d name ty)
    {n i : Nat} (hn : ∀ c ∈ d.data, c.2.length = n) (hi : i < n) {fs : List FieldData} {ps : List Place}
    (hfs : ∀ f ∈ fs, f ∈ d.fields) (hps : Places fs ps) {m0 : Dict Str RosVal}
    (hsh : ∀ n k, Place.elem n k ∈ ps → SameShape (m0.get? n) (ty.fresh.get? n)) {e : PyErr} :
    fs.foldlM (setField ty d i) m0 = .error e ↔ BagFirst (BagFieldObstacle ty) (fs.zip ps) e := by
  induction fs generalizing ps m0 with
  | nil =>
    refine ⟨fun h => (by cases h), ?_⟩
    rintro ⟨pre, x, post, h, _⟩
    cases pre <;> cases h
  | cons f fs ih =>
    cases ps with
    | nil => have := hps.columns; simp at this
    | cons p ps =>
      have hc := hps.columns
      rw [List.map_cons, List.map_cons] at hc
      injection hc with hc1 hc2
      have hnd := List.nodup_cons.mp hps.nodup
      have hps' : Places fs ps := ⟨hc2, fun p hp => hps.plain p (by simp [hp]), hnd.2,
        fun n k ha he => hps.shape n k (by simp [ha]) (by simp [he])⟩
      have hplain := hps.plain p (by simp)
      have hsp : ∀ n k, p = .elem n k → SameShape (m0.get? n) (ty.fresh.get? n) := fun n k e => hsh n k (by simp [e])
      have hob : ∀ e, PlaceObstacle ty d i f p e ↔ BagFieldObstacle ty (f, p) e :=
        fun e => setField_first hd hx hn hi (hfs f (by simp)) hplain hc1
      rw [List.foldlM_cons, List.zip_cons_cons]
      cases hs : setField ty d i m0 f with
      | error e' =>
        have ho := (hob e').mp (setField_error hplain hc1 hsp hs)
        constructor
        · intro h
          cases h
          exact ⟨[], (f, p), _, rfl, fun y hy => (by cases hy), ho⟩
        · rintro ⟨pre, x, post, h, h1, h2⟩
          cases pre with
          | nil =>
            injection h with h _
            subst h
            rw [bagField_unique hc1 h2 ho]
            rfl
          | cons y pre =>
            injection h with h _
            subst h
            exact absurd ho (h1 _ (List.mem_cons_self ..) e')
      | ok m1 =>
        have hno : ∀ e', ¬ BagFieldObstacle ty (f, p) e' :=
          fun e' h => setField_obstacle hplain hc1 hsp hs e' ((hob e').mpr h)
        obtain ⟨_, v, t, _, _, _, h4⟩ := setField_place hplain hc1 hs
        have hsh1 : ∀ n k, Place.elem n k ∈ ps → SameShape (m1.get? n) (ty.fresh.get? n) := by
          intro n k hm
          refine sameShape_trans (setPlace_shape h4 n ?_) (hsh n k (List.mem_cons_of_mem _ hm))
          intro e
          exact hps.shape n k (by rw [e]; simp) (List.mem_cons_of_mem _ hm)
        rw [ok_bind, ih (fun f hf => hfs f (by simp [hf])) hps' hsh1]
        constructor
        · rintro ⟨pre, x, post, h, h1, h2⟩
          refine ⟨(f, p) :: pre, x, post, by rw [h]; rfl, ?_, h2⟩
          intro y hy
          rcases List.mem_cons.mp hy with rfl | hy
          · exact hno
          · exact h1 y hy
        · rintro ⟨pre, x, post, h, h1, h2⟩
          cases pre with
          | nil =>
            injection h with h _
            subst h
            exact absurd h2 (hno e)
          | cons y pre =>
            injection h with _ h
            exact ⟨pre, x, post, h, fun z hz => h1 z (List.mem_cons_of_mem _ hz), h2⟩

/-- one dataset -/
theorem exportTopic_error {env : RosEnv} {all : List Dataset} {bag : Bag} {d : Dataset} (hd : LoadedData d)
    {places : Dataset → List Place} (hps : Places d.fields (places d)) (ht : BagTimes d) {e : PyErr} :
    exportTopic env all bag d = .error e ↔ BagTopicObstacle env places d e := by
  have htime := column_field hd (k := py! "timestamp") (by decide) (by decide)
  unfold exportTopic
  cases hts : d.data.get? (py! "timestamp") with
  | none =>
    rw [dictGet_error.mpr ⟨rfl, hts⟩]
    have hu : Untimed d := htime.mp hts
    constructor
    · intro h; cases h
      exact .untimed hu
    · intro h
      cases h with
      | untimed _ => rfl
      | field h _ _ => exact absurd hu h
  | some ts =>
    have hu : ¬ Untimed d := by
      intro hu
      rw [htime.mpr hu] at hts
      cases hts
    rw [dictGet_ok.mpr hts, ok_bind]
    cases hx : exportType env d with
    | none =>
      refine ⟨fun h => (by cases h), ?_⟩
      intro h
      cases h with
      | untimed h => exact absurd h hu
      | field _ h _ =>
        have := (C60_exported env d _ _).mpr h
        rw [hx] at this
        cases this
    | some nt =>
      obtain ⟨name, ty⟩ := nt
      have hex : BagExported env d name ty := (C60_exported env d name ty).mp hx
      obtain ⟨n, hn0, hn, _⟩ := hd.rows
      have htl : ts.length = n := hn _ (Dict.mem_of_get? _ _ _ hts)
      have hmsg : ∀ i < n, ∀ e, rosMessage ty d i = .error e ↔ BagFirst (BagFieldObstacle ty) (d.fields.zip (places d)) e :=
        fun i hi e => fold_first hd hex hn hi (fun f hf => hf) hps (fun _ _ _ => sameShape_refl _)
      obtain ⟨f, hf, hfn, htv⟩ := column_typed hd (k := py! "timestamp") (by decide) hts
      rw [ht f hf hfn] at htv
      have hrow : ∀ i < n, ∀ e, exportRow ty d (rosTopic all d) ts i = .error e ↔
          BagFirst (BagFieldObstacle ty) (d.fields.zip (places d)) e := by
        intro i hi e
        rw [← hmsg i hi e]
        unfold exportRow
        constructor
        · intro h
          rcases except_bind_error.mp h with h | ⟨msg, _, h⟩
          · exact h
          · exfalso
            rw [pyIndex_iff.mpr (List.getElem?_eq_getElem (by omega : i < ts.length)), ok_bind] at h
            obtain ⟨b, _, hv⟩ := htv ts[i] (List.getElem_mem _)
            rw [hv] at h
            have : rosTime (valueAt .u64 b 0) = .ok (leAt b 0 8 * 1000 % 2 ^ 64) := rosTime_spec (leAt_lt b 0 8)
            rw [this] at h
            cases h
        · intro h
          exact except_bind_error.mpr (.inl h)
      have hex' : ∀ e, BagTopicObstacle env places d e ↔ BagFirst (BagFieldObstacle ty) (d.fields.zip (places d)) e := by
        intro e
        constructor
        · intro h
          cases h with
          | untimed h => exact absurd h hu
          | field _ h1 h2 =>
            have := (C60_exported env d _ _).mpr h1
            rw [hx] at this
            injection this with this
            injection this with _ this
            rw [this]
            exact h2
        · exact fun h => .field hu hex h
      rw [hex' e]
      dsimp only
      constructor
      · intro h
        rcases except_bind_error.mp h with h | ⟨_, _, h⟩
        · obtain ⟨b, i, r, h1, h2, _⟩ := mapM_stops.mp h
          have hi : i ∈ List.range ts.length := by rw [h1]; simp
          exact (hrow i (by have := List.mem_range.mp hi; omega) e).mp h2
        · cases h
      · intro h
        refine except_bind_error.mpr (.inl ?_)
        obtain ⟨m, rfl⟩ : ∃ m, n = m + 1 := ⟨n - 1, by omega⟩
        rw [htl, List.range_succ_eq_map, List.mapM_cons, (hrow 0 (by omega) e).mpr h]
        rfl

/-- **C103**: `ulog2ros2bag` of a loaded log raises exactly if, with `--verbose`, the release is no number, or else at the first
dataset with an obstacle: no timestamps, or an exported type whose message has no place for a column; the exception is the one
of the first such column. -/
theorem C103_bag {fuel : Nat} {cfg : Cfg} {bs : Bytes} {u : ULog} (h : load fuel cfg bs = .ok u) {places : Dataset → List Place}
    (hp : ∀ d ∈ u.dataList, Places d.fields (places d)) (ht : ∀ d ∈ u.dataList, BagTimes d) (env : RosEnv) (verbose : Bool)
    (e : PyErr) : (bagLeft env verbose u).2 = some e ↔ BagObstacle env verbose places u e := by
  have htop : (topicsLeft env u.dataList u.dataList {}).2 = some e ↔ BagFirst (BagTopicObstacle env places) u.dataList e := by
    rw [← foldlM_first (f := exportTopic env u.dataList)
      (fun b d hd e => exportTopic_error (loaded_data h hd) (hp d hd) (ht d hd)) {} e,
      (topicsLeft_agrees env u.dataList u.dataList {}).2 e]
    constructor
    · intro h
      exact ⟨(topicsLeft env u.dataList u.dataList {}).1, Prod.ext rfl h⟩
    · rintro ⟨b, h⟩
      rw [h]
  unfold bagLeft
  cases verbose with
  | false =>
    refine htop.trans ⟨fun h => .topic (fun hv => (by cases hv.1)) h, ?_⟩
    intro h
    cases h with
    | version h _ => cases h
    | topic _ h => exact h
  | true =>
    cases hv : getVersionInfoStr u with
    | error e' =>
      obtain ⟨rfl, hn⟩ := version_error.mp hv
      constructor
      · intro h
        cases h
        exact .version rfl hn
      · intro h
        cases h with
        | version _ _ => rfl
        | topic h _ => exact absurd ⟨rfl, hn⟩ h
    | ok v =>
      have hn : ¬ NoVersionNumber u := by
        intro hn
        rw [version_error.mpr ⟨rfl, hn⟩] at hv
        cases hv
      refine htop.trans ⟨fun h => .topic (fun hv => hn hv.2) h, ?_⟩
      intro h
      cases h with
      | version _ h => exact absurd h hn
      | topic _ h => exact h

/-- **C103**, the program: the exceptions of `ulog2ros2bag` for a file that can be loaded. -/
theorem C103_program {w : World} {fuel depth : Nat} {argv : List Str} {f : Str} {bs : Bytes} {l : List (OptDecl × ArgVal)}
    (hl : CmdLine bagCli w.isDir argv [f] l) (hb : w.read f = .ok bs) {u : ULog}
    (h : load fuel ⟨messageFilter (givenText (py! "--messages") l), isGiven (py! "--ignore") l, false, depth⟩ bs = .ok u)
    {places : Dataset → List Place} (hp : ∀ d ∈ u.dataList, Places d.fields (places d))
    (ht : ∀ d ∈ u.dataList, BagTimes d) (env : RosEnv) (e : PyErr) :
    (∃ left, bagMain w true env fuel depth argv = some (left, .raised e)) ↔
      BagObstacle env (isGiven (py! "--verbose") l) places u e := by
  rw [bagMain_run w true env fuel depth hl, ← C103_bag h hp ht]
  unfold bagRun withLog
  rw [if_neg (by decide), hb]
  dsimp only
  rw [h]
  dsimp only
  cases (bagLeft env (isGiven (py! "--verbose") l) u).2 with
  | none => exact ⟨fun ⟨_, h⟩ => (by cases h), fun h => (by cases h)⟩
  | some e' =>
    constructor
    · rintro ⟨_, h⟩
      cases h
      rfl
    · intro h
      cases h
      exact ⟨_, rfl⟩

/-- **C103**: a log whose datasets have timestamps and named fields, and for whose exported datasets the arrays of the type
are long enough, is converted without an exception. -/
theorem C103_fits {fuel : Nat} {cfg : Cfg} {bs : Bytes} {u : ULog} (h : load fuel cfg bs = .ok u) {places : Dataset → List Place}
    (hp : ∀ d ∈ u.dataList, Places d.fields (places d)) (ht : ∀ d ∈ u.dataList, BagTimes d) {env : RosEnv} {verbose : Bool}
    (hv : verbose = true → ¬ NoVersionNumber u) (hs : ∀ d ∈ u.dataList, ¬ Untimed d)
    (hn : ∀ d ∈ u.dataList, ∀ f ∈ d.fields, f.name ≠ [])
    (hl : ∀ d ∈ u.dataList, ∀ name ty, BagExported env d name ty → ∀ n k, Place.elem n k ∈ places d →
      ∃ xs, ty.fresh.get? n = some (.array xs) ∧ k < xs.length) : (bagLeft env verbose u).2 = none := by
  cases hb : (bagLeft env verbose u).2 with
  | none => rfl
  | some e =>
    exfalso
    cases (C103_bag h hp ht env verbose e).mp hb with
    | version h1 h2 => exact hv h1 h2
    | topic _ h =>
      obtain ⟨pre, d, post, hd, _, ho⟩ := h
      have hd : d ∈ u.dataList := by rw [hd]; simp
      cases ho with
      | untimed h => exact hs d hd h
      | @field name ty _ _ hx h =>
        obtain ⟨pre, fp, post, hz, _, ho⟩ := h
        have hm : fp ∈ d.fields.zip (places d) := by rw [hz]; simp
        cases ho with
        | @unnamed f p h0 => exact hn d hd f (List.of_mem_zip hm).1 h0
        | @missing f n k h0 =>
          obtain ⟨xs, h1, _⟩ := hl d hd name ty hx n k (List.of_mem_zip hm).2
          rw [h0] at h1
          cases h1
        | @scalar f n k x h0 =>
          obtain ⟨xs, h1, _⟩ := hl d hd name ty hx n k (List.of_mem_zip hm).2
          rw [h0] at h1
          cases h1
        | @short f n k xs' h0 hle =>
          obtain ⟨xs, h1, hlt⟩ := hl d hd name ty hx n k (List.of_mem_zip hm).2
          rw [h0] at h1
          cases h1
          omega

/-! ### examples -/

/-- the fields of the datasets of a log -/
def Sample.fieldsOf (bs : Bytes) : Option (List (List FieldData)) :=
  match load 20 { depth := 100 } bs with
  | .ok u => some (u.dataList.map (·.fields))
  | _ => none

theorem Sample.arrayFields : Sample.fieldsOf Sample.arrayLog =
    some [[⟨py! "timestamp", .u64⟩, ⟨py! "x[0]", .u8⟩, ⟨py! "x[1]", .u8⟩]] := by
  decide +kernel

def Sample.arrayPlaces : List Place := [.attr (py! "timestamp"), .elem (py! "x") 0, .elem (py! "x") 1]

theorem Sample.arrayPlaces_fit : Places [⟨py! "timestamp", .u64⟩, ⟨py! "x[0]", .u8⟩, ⟨py! "x[1]", .u8⟩] Sample.arrayPlaces where
  columns := by decide
  plain := by
    intro p hp
    simp only [Sample.arrayPlaces, List.mem_cons, List.not_mem_nil, or_false] at hp
    rcases hp with rfl | rfl | rfl <;> exact ⟨by decide, by decide⟩
  nodup := by decide
  shape := by
    intro n k h1 h2
    simp only [Sample.arrayPlaces, List.mem_cons, Place.attr.injEq, Place.elem.injEq, reduceCtorEq, List.not_mem_nil,
      or_false, false_or] at h1 h2
    subst h1
    rcases h2 with h | h <;> exact absurd h.1 (by decide)

/-- the type has an array of `n` bytes -/
def Sample.arrayEnv (n : Nat) : RosEnv where
  msgType n := some n
  type _ := some ⟨[(py! "timestamp", py! "uint64"), (py! "x", py! "uint8[]")],
    [(py! "timestamp", .plain (.num (.int 0))), (py! "x", .array (List.replicate n (.num (.int 0))))]⟩

/-- the hypotheses of `C103_bag` hold for a log with an array -/
theorem Sample.arrayLoaded : ∃ u, load 20 { depth := 100 } Sample.arrayLog = .ok u ∧
    (∀ d ∈ u.dataList, Places d.fields Sample.arrayPlaces) ∧ ∀ d ∈ u.dataList, BagTimes d := by
  have h := Sample.arrayFields
  unfold Sample.fieldsOf at h
  cases hu : load 20 { depth := 100 } Sample.arrayLog with
  | raised e => rw [hu] at h; cases h
  | outOfFuel => rw [hu] at h; cases h
  | ok u =>
    rw [hu] at h
    injection h with h
    have hf : ∀ d ∈ u.dataList, d.fields = [⟨py! "timestamp", .u64⟩, ⟨py! "x[0]", .u8⟩, ⟨py! "x[1]", .u8⟩] := by
      intro d hd
      have := List.mem_map_of_mem (f := (·.fields)) hd
      rw [h] at this
      exact List.mem_singleton.mp this
    refine ⟨u, rfl, fun d hd => ?_, fun d hd => ?_⟩
    · rw [hf d hd]
      exact Sample.arrayPlaces_fit
    · unfold BagTimes
      rw [hf d hd]
      decide

/-- how the conversion ends -/
def Sample.bagEnd (env : RosEnv) (verbose : Bool) (bs : Bytes) : Option (Option PyErr) :=
  match load 20 { depth := 100 } bs with
  | .ok u => some (bagLeft env verbose u).2
  | _ => none

/-- an array that is too short, one that is as long as needed, and a field that is no array -/
example : Sample.bagEnd (Sample.arrayEnv 1) false Sample.arrayLog = some (some .indexError) ∧
    Sample.bagEnd (Sample.arrayEnv 2) false Sample.arrayLog = some none ∧
    Sample.bagEnd Sample.anyEnv false Sample.arrayLog = some (some .typeError) := by
  decide +kernel

/-- so there is an obstacle: the array is too short -/
example : ∃ u, load 20 { depth := 100 } Sample.arrayLog = .ok u ∧
    BagObstacle (Sample.arrayEnv 1) false (fun _ => Sample.arrayPlaces) u .indexError := by
  obtain ⟨u, h, hp, ht⟩ := Sample.arrayLoaded
  refine ⟨u, h, (C103_bag h hp ht _ false _).mp ?_⟩
  have hx : Sample.bagEnd (Sample.arrayEnv 1) false Sample.arrayLog = some (some .indexError) := by decide +kernel
  unfold Sample.bagEnd at hx
  rw [h] at hx
  exact Option.some.inj hx

/-- the message package knows only `a` -/
def Sample.onlyA : RosEnv := { Sample.anyEnv with msgType := fun n => if n = py! "a" then some n else none }

/-- A consequence: the dataset `b` has no timestamps, and this ends the conversion although the package has no type for it, so
that it would be skipped. -/
theorem C103_skipped : Sample.bagEnd Sample.onlyA false Sample.halfLog = some (some .keyError) := by
  decide +kernel

/-- the release is text: only the verbose run raises -/
example : Sample.bagEnd Sample.anyEnv true Sample.versionLog = some (some .typeError) ∧
    Sample.bagEnd Sample.anyEnv false Sample.versionLog = some none := by
  decide +kernel

end PyULog
