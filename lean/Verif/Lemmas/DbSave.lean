import Verif.Lemmas.Db
/-
Helper lemmas: what the statements of `save` add to a database.
-/
namespace PyULog
open Spec

/-- the rows of one entry of the info-multiple dictionary -/
def multiRow (l : DbLog) (p : Str × List (List DVal)) :
    Except PyErr ((Str × Str) × List (Nat × List (Nat × SqlVal))) := do
  let ty ← dictGet l.infoMultiTypes p.1
  let lists ← p.2.zipIdx.mapM fun q => do
    return (q.2, ← q.1.zipIdx.mapM fun x => do return (x.2, ← bindText x.1))
  return ((p.1, ty), lists)

/-- the rows of a log, by table; the errors are those of values that SQLite cannot hold -/
def dbRows (json : Bool) (sha : Str) (l : DbLog) : Except PyErr Content := do
  let row ← metaRow l sha
  let offsets ← l.appendedOffsets.zipIdx.mapM fun p => do return (p.2, ← bindNat p.1)
  let datasets ← l.dataList.mapM fun d => do return (← datasetRow d, ← d.fields.mapM (fieldRow json d))
  let dropouts ← l.dropouts.mapM fun d => do
    return ({ ts := ← bindNat d.ts, duration := ← bindNat d.duration } : Dropout)
  let logging ← l.logged.mapM fun m => do
    return ({ level := ← bindNat m.level, ts := ← bindNat m.ts, msg := m.msg } : LogMsg)
  let tagged ← (l.tagged.flatMap fun p => p.2.map fun m => (p.1, m)).mapM fun q => do
    return ({ level := ← bindNat q.2.level, ts := ← bindNat q.2.ts, tag := ← bindNat q.1, msg := q.2.msg } : TagMsg)
  let formats ← l.formats.mapM fun p => do return (p.1, ← p.2.fields.mapM formatFieldRow)
  let info ← l.info.mapM fun p => do return (p.1, ← dictGet l.infoTypes p.1, ← bindVal p.2)
  let multi ← l.infoMulti.mapM (multiRow l)
  let initial ← l.initialParams.mapM fun p => do return (p.1, ← bindVal p.2)
  let defaults ← (l.defaultParams.flatMap fun p => p.2.map fun q => (p.1, q)).mapM fun q => do
    return (← bindNat q.1, q.2.1, ← bindVal q.2.2)
  let changed ← l.changedParams.mapM fun p => do return (← bindNat p.1, p.2.1, ← bindVal p.2.2)
  return { row := [row], offsets, datasets, dropouts, logging, tagged, formats, info, multi, initial, defaults,
           changed }

/-- invariant of the databases that arise -/
structure DbInv (db : DB) : Prop extends NoOrphans db where
  ulogIds : Ids db.ulog db.ulogSeq
  datasetIds : Ids db.datasets db.datasetSeq
  formatIds : Ids db.formats db.formatSeq
  multiIds : Ids db.multi db.multiSeq
  listIds : Ids db.multiLists db.multiListSeq
  shas : (db.ulog.map fun p => p.2.sha).Nodup
  names : (db.datasets.map fun p => (p.2.1, p.2.2.name, p.2.2.multiId)).Nodup

theorem content_ext {a b : Content} (h1 : a.row = b.row) (h2 : a.offsets = b.offsets) (h3 : a.datasets = b.datasets)
    (h4 : a.dropouts = b.dropouts) (h5 : a.logging = b.logging) (h6 : a.tagged = b.tagged) (h7 : a.formats = b.formats)
    (h8 : a.info = b.info) (h9 : a.multi = b.multi) (h10 : a.initial = b.initial) (h11 : a.defaults = b.defaults)
    (h12 : a.changed = b.changed) : a = b := by
  cases a; cases b
  simp only at *
  subst h1 h2 h3 h4 h5 h6 h7 h8 h9 h10 h11 h12
  rfl

theorem Content.add_empty (a : Content) : a.add .empty = a := by
  cases a; simp [Content.add, Content.empty]

theorem Content.empty_add (a : Content) : Content.add .empty a = a := by
  cases a; simp [Content.add, Content.empty]

theorem Content.add_assoc (a b c : Content) : (a.add b).add c = a.add (b.add c) := by
  simp [Content.add, List.append_assoc]

/-- the statements add the rows `b` to the log `r.pk` and nothing else -/
structure Eff (r r' : Reg) (b : Content) : Prop where
  pk : r'.pk = r.pk
  version : r'.db.version = r.db.version
  ulog : r'.db.ulog = r.db.ulog
  seq : r'.db.ulogSeq = r.db.ulogSeq
  inv : DbInv r.db → r.pk ∈ r.db.ulog.map (·.1) → DbInv r'.db
  content : DbInv r.db → r.pk ∈ r.db.ulog.map (·.1) → ∀ k, content r'.db k =
    (content r.db k).add (if k = r.pk then b else .empty)

theorem Eff.refl (r : Reg) : Eff r r .empty where
  pk := rfl
  version := rfl
  ulog := rfl
  seq := rfl
  inv h _ := h
  content _ _ k := by
    rw [show (if k = r.pk then Content.empty else .empty) = .empty by split <;> rfl, Content.add_empty]

theorem Eff.trans {r r' r'' : Reg} {b b' : Content} (h : Eff r r' b) (h' : Eff r' r'' b') : Eff r r'' (b.add b') where
  pk := h'.pk.trans h.pk
  version := h'.version.trans h.version
  ulog := h'.ulog.trans h.ulog
  seq := h'.seq.trans h.seq
  inv i m := h'.inv (h.inv i m) (by rw [h.pk, h.ulog]; exact m)
  content i m k := by
    rw [h'.content (h.inv i m) (by rw [h.pk, h.ulog]; exact m) k, h.content i m k, h.pk, Content.add_assoc]
    by_cases e : k = r.pk
    · rw [if_pos e, if_pos e, if_pos e]
    · rw [if_neg e, if_neg e, if_neg e, Content.add_empty]

theorem mem_add_rows {α : Type} {t : List (Nat × α)} {l : List α} {k : Nat} {p : Nat × α} {S : List Nat}
    (h : ∀ p ∈ t, p.1 ∈ S) (hk : k ∈ S) (hp : p ∈ t ++ l.map fun x => (k, x)) : p.1 ∈ S := by
  rcases List.mem_append.mp hp with hp | hp
  · exact h p hp
  · obtain ⟨x, _, rfl⟩ := List.mem_map.mp hp
    exact hk

/-! ### tables that belong to the log directly -/

theorem eff_offsets (r : Reg) (rows : List (Nat × Nat)) :
    Eff r (rows.foldl (fun r x => { r with db := { r.db with offsets := r.db.offsets ++ [(r.pk, x)] } }) r)
      { Content.empty with offsets := rows } := by
  have e : rows.foldl (fun r x => { r with db := { r.db with offsets := r.db.offsets ++ [(r.pk, x)] } }) r =
      { r with db := { r.db with offsets := r.db.offsets ++ rows.map fun x => (r.pk, x) } } := by
    induction rows generalizing r with
    | nil => simp
    | cons x xs ih => rw [List.foldl_cons, ih]; simp
  rw [e]
  exact {
    pk := rfl, version := rfl, ulog := rfl, seq := rfl
    inv := fun i m => { i with offsets := fun p hp => mem_add_rows i.offsets m hp }
    content := fun i m k => by
      unfold content Content.add Content.empty
      simp only [owned_add]
      split <;> simp }

theorem eff_dropouts (r : Reg) (rows : List Dropout) :
    Eff r (rows.foldl (fun r x => { r with db := { r.db with dropouts := r.db.dropouts ++ [(r.pk, x)] } }) r)
      { Content.empty with dropouts := rows } := by
  have e : rows.foldl (fun r x => { r with db := { r.db with dropouts := r.db.dropouts ++ [(r.pk, x)] } }) r =
      { r with db := { r.db with dropouts := r.db.dropouts ++ rows.map fun x => (r.pk, x) } } := by
    induction rows generalizing r with
    | nil => simp
    | cons x xs ih => rw [List.foldl_cons, ih]; simp
  rw [e]
  exact {
    pk := rfl, version := rfl, ulog := rfl, seq := rfl
    inv := fun i m => { i with dropouts := fun p hp => mem_add_rows i.dropouts m hp }
    content := fun i m k => by
      unfold content Content.add Content.empty
      simp only [owned_add]
      split <;> simp }

theorem eff_logging (r : Reg) (rows : List LogMsg) :
    Eff r (rows.foldl (fun r x => { r with db := { r.db with logging := r.db.logging ++ [(r.pk, x)] } }) r)
      { Content.empty with logging := rows } := by
  have e : rows.foldl (fun r x => { r with db := { r.db with logging := r.db.logging ++ [(r.pk, x)] } }) r =
      { r with db := { r.db with logging := r.db.logging ++ rows.map fun x => (r.pk, x) } } := by
    induction rows generalizing r with
    | nil => simp
    | cons x xs ih => rw [List.foldl_cons, ih]; simp
  rw [e]
  exact {
    pk := rfl, version := rfl, ulog := rfl, seq := rfl
    inv := fun i m => { i with logging := fun p hp => mem_add_rows i.logging m hp }
    content := fun i m k => by
      unfold content Content.add Content.empty
      simp only [owned_add]
      split <;> simp }

theorem eff_tagged (r : Reg) (rows : List TagMsg) :
    Eff r (rows.foldl (fun r x => { r with db := { r.db with tagged := r.db.tagged ++ [(r.pk, x)] } }) r)
      { Content.empty with tagged := rows } := by
  have e : rows.foldl (fun r x => { r with db := { r.db with tagged := r.db.tagged ++ [(r.pk, x)] } }) r =
      { r with db := { r.db with tagged := r.db.tagged ++ rows.map fun x => (r.pk, x) } } := by
    induction rows generalizing r with
    | nil => simp
    | cons x xs ih => rw [List.foldl_cons, ih]; simp
  rw [e]
  exact {
    pk := rfl, version := rfl, ulog := rfl, seq := rfl
    inv := fun i m => { i with tagged := fun p hp => mem_add_rows i.tagged m hp }
    content := fun i m k => by
      unfold content Content.add Content.empty
      simp only [owned_add]
      split <;> simp }

theorem eff_info (r : Reg) (rows : List (Str × Str × SqlVal)) :
    Eff r (rows.foldl (fun r x => { r with db := { r.db with info := r.db.info ++ [(r.pk, x)] } }) r)
      { Content.empty with info := rows } := by
  have e : rows.foldl (fun r x => { r with db := { r.db with info := r.db.info ++ [(r.pk, x)] } }) r =
      { r with db := { r.db with info := r.db.info ++ rows.map fun x => (r.pk, x) } } := by
    induction rows generalizing r with
    | nil => simp
    | cons x xs ih => rw [List.foldl_cons, ih]; simp
  rw [e]
  exact {
    pk := rfl, version := rfl, ulog := rfl, seq := rfl
    inv := fun i m => { i with info := fun p hp => mem_add_rows i.info m hp }
    content := fun i m k => by
      unfold content Content.add Content.empty
      simp only [owned_add]
      split <;> simp }

theorem eff_initial (r : Reg) (rows : List (Str × SqlVal)) :
    Eff r (rows.foldl (fun r x => { r with db := { r.db with initial := r.db.initial ++ [(r.pk, x)] } }) r)
      { Content.empty with initial := rows } := by
  have e : rows.foldl (fun r x => { r with db := { r.db with initial := r.db.initial ++ [(r.pk, x)] } }) r =
      { r with db := { r.db with initial := r.db.initial ++ rows.map fun x => (r.pk, x) } } := by
    induction rows generalizing r with
    | nil => simp
    | cons x xs ih => rw [List.foldl_cons, ih]; simp
  rw [e]
  exact {
    pk := rfl, version := rfl, ulog := rfl, seq := rfl
    inv := fun i m => { i with initial := fun p hp => mem_add_rows i.initial m hp }
    content := fun i m k => by
      unfold content Content.add Content.empty
      simp only [owned_add]
      split <;> simp }

theorem eff_defaults (r : Reg) (rows : List (Nat × Str × SqlVal)) :
    Eff r (rows.foldl (fun r x => { r with db := { r.db with defaults := r.db.defaults ++ [(r.pk, x)] } }) r)
      { Content.empty with defaults := rows } := by
  have e : rows.foldl (fun r x => { r with db := { r.db with defaults := r.db.defaults ++ [(r.pk, x)] } }) r =
      { r with db := { r.db with defaults := r.db.defaults ++ rows.map fun x => (r.pk, x) } } := by
    induction rows generalizing r with
    | nil => simp
    | cons x xs ih => rw [List.foldl_cons, ih]; simp
  rw [e]
  exact {
    pk := rfl, version := rfl, ulog := rfl, seq := rfl
    inv := fun i m => { i with defaults := fun p hp => mem_add_rows i.defaults m hp }
    content := fun i m k => by
      unfold content Content.add Content.empty
      simp only [owned_add]
      split <;> simp }

theorem eff_changed (r : Reg) (rows : List (Nat × Str × SqlVal)) :
    Eff r (rows.foldl (fun r x => { r with db := { r.db with changed := r.db.changed ++ [(r.pk, x)] } }) r)
      { Content.empty with changed := rows } := by
  have e : rows.foldl (fun r x => { r with db := { r.db with changed := r.db.changed ++ [(r.pk, x)] } }) r =
      { r with db := { r.db with changed := r.db.changed ++ rows.map fun x => (r.pk, x) } } := by
    induction rows generalizing r with
    | nil => simp
    | cons x xs ih => rw [List.foldl_cons, ih]; simp
  rw [e]
  exact {
    pk := rfl, version := rfl, ulog := rfl, seq := rfl
    inv := fun i m => { i with changed := fun p hp => mem_add_rows i.changed m hp }
    content := fun i m k => by
      unfold content Content.add Content.empty
      simp only [owned_add]
      split <;> simp }

/-! ### tables with dependent rows -/

/-- the new row and its dependent rows -/
theorem nest_new {α β : Type} {ps : List (Nat × Nat × α)} {ks : List (Nat × β)} {seq : Nat} (hi : Ids ps seq)
    (ho : ∀ p ∈ ks, p.1 ∈ ps.map (·.1)) (o : Nat) (a : α) (l : List β) (k : Nat) :
    Spec.nest (ps ++ [(seq + 1, o, a)]) (fun i => owned i (ks ++ l.map fun x => (seq + 1, x))) k =
      Spec.nest ps (fun i => owned i ks) k ++ if k = o then [(a, l)] else [] := by
  rw [nest_add]
  have h0 : owned (seq + 1) ks = [] := owned_none fun hm => by
    obtain ⟨p, hp, e⟩ := List.mem_map.mp hm
    have := ho p hp
    rw [e] at this
    exact hi.not_mem this
  congr 1
  · apply nest_congr
    intro p hp _
    rw [owned_add, if_neg, List.append_nil]
    intro e
    have := hi.le p hp
    omega
  · rw [owned_add, if_pos rfl, h0, List.nil_append]

/-- one dataset with its fields -/
def addDs (r : Reg) (x : DsRow × List FieldRow) : Reg :=
  { r with dataset := r.db.datasetSeq + 1, db := { r.db with
    datasets := r.db.datasets ++ [(r.db.datasetSeq + 1, r.pk, x.1)]
    datasetSeq := r.db.datasetSeq + 1
    fields := r.db.fields ++ x.2.map fun f => (r.db.datasetSeq + 1, f) } }

/-- no dataset of the log has the name and multi id -/
def NoClash (r : Reg) (row : DsRow) : Prop :=
  ∀ p ∈ r.db.datasets, p.2.1 = r.pk → p.2.2.name = row.name → p.2.2.multiId = row.multiId → False

theorem runAll_dataset {json : Bool} {d : Dataset} {r r' : Reg} : runAll (datasetStmts json d) r = .ok r' ↔
    ∃ row fs, datasetRow d = .ok row ∧ d.fields.mapM (fieldRow json d) = .ok fs ∧ NoClash r row ∧
      r' = addDs r (row, fs) := by
  have key : ∀ (fs : List FieldRow) (r : Reg),
      fs.foldl (fun r x => { r with db := { r.db with fields := r.db.fields ++ [(r.dataset, x)] } }) r =
      { r with db := { r.db with fields := r.db.fields ++ fs.map fun x => (r.dataset, x) } } := by
    intro fs
    induction fs with
    | nil => intro r; simp
    | cons x xs ih => intro r; rw [List.foldl_cons, ih]; simp
  have clash : ∀ row : DsRow, (r.db.datasets.any fun p => decide (p.2.1 = r.pk) && decide (p.2.2.name = row.name) &&
      decide (p.2.2.multiId = row.multiId)) = false ↔ NoClash r row := by
    intro row
    rw [List.any_eq_false]
    unfold NoClash
    constructor
    · intro h p hp h1 h2 h3
      exact h p hp (by simp [h1, h2, h3])
    · intro h p hp hc
      simp only [Bool.and_eq_true, decide_eq_true_eq] at hc
      exact h p hp hc.1.1 hc.1.2 hc.2
  unfold datasetStmts
  rw [runAll_cons]
  constructor
  · intro h
    obtain ⟨r1, h1, h2⟩ := except_bind_ok.mp h
    obtain ⟨row, h3, h4⟩ := except_bind_ok.mp h1
    split at h4
    · cases h4
    · rename_i hc
      cases h4
      obtain ⟨fs, h5, h6⟩ := runAll_insert.mp h2
      refine ⟨row, fs, h3, h5, (clash row).mp (by simpa using hc), ?_⟩
      rw [h6, key]
      rfl
  · rintro ⟨row, fs, h3, h5, hc, rfl⟩
    refine except_bind_ok.mpr ⟨{ r with dataset := r.db.datasetSeq + 1, db := { r.db with
        datasets := r.db.datasets ++ [(r.db.datasetSeq + 1, r.pk, row)], datasetSeq := r.db.datasetSeq + 1 } },
      except_bind_ok.mpr ⟨row, h3, ?_⟩, runAll_insert.mpr ⟨fs, h5, ?_⟩⟩
    · rw [(clash row).mpr hc]
      rfl
    · rw [key]
      rfl

theorem eff_dataset {r : Reg} {x : DsRow × List FieldRow} (hc : NoClash r x.1) :
    Eff r (addDs r x) { Content.empty with datasets := [x] } where
  pk := rfl
  version := rfl
  ulog := rfl
  seq := rfl
  inv i m := { i with
    datasets := fun p hp => by
      rcases List.mem_append.mp hp with hp | hp
      · exact i.datasets p hp
      · rw [List.mem_singleton] at hp; rw [hp]; exact m
    fields := fun p hp => by
      show p.1 ∈ (r.db.datasets ++ [(r.db.datasetSeq + 1, r.pk, x.1)]).map (·.1)
      rw [List.map_append]
      rcases List.mem_append.mp hp with hp | hp
      · exact List.mem_append_left _ (i.fields p hp)
      · obtain ⟨f, _, rfl⟩ := List.mem_map.mp hp
        exact List.mem_append_right _ (by simp)
    datasetIds := i.datasetIds.add _
    names := by
      show ((r.db.datasets ++ [(r.db.datasetSeq + 1, r.pk, x.1)]).map fun p =>
        (p.2.1, p.2.2.name, p.2.2.multiId)).Nodup
      rw [List.map_append, List.nodup_append]
      refine ⟨i.names, by simp, ?_⟩
      intro a ha b hb e
      obtain ⟨p, hp, rfl⟩ := List.mem_map.mp ha
      rw [List.map_singleton, List.mem_singleton] at hb
      rw [hb] at e
      simp only [Prod.mk.injEq] at e
      exact hc p hp e.1 e.2.1 e.2.2 }
  content i m k := by
    unfold content Content.add Content.empty addDs
    simp only [nest_new i.datasetIds i.fields]
    split <;> simp

theorem runAll_datasets {json : Bool} : ∀ {ds : List Dataset} {r r' : Reg},
    runAll (ds.flatMap (datasetStmts json)) r = .ok r' →
    ∃ rows, ds.mapM (fun d => do return (← datasetRow d, ← d.fields.mapM (fieldRow json d))) = .ok rows ∧
      Eff r r' { Content.empty with datasets := rows }
  | [], r, r', h => by
    cases h
    exact ⟨[], rfl, Eff.refl r⟩
  | d :: ds, r, r', h => by
    rw [List.flatMap_cons, runAll_append] at h
    obtain ⟨r1, h1, h2⟩ := except_bind_ok.mp h
    obtain ⟨row, fs, h3, h4, hc, rfl⟩ := runAll_dataset.mp h1
    obtain ⟨rows, h5, h6⟩ := runAll_datasets h2
    refine ⟨(row, fs) :: rows, ?_, ?_⟩
    · rw [List.mapM_cons, h3, h4]
      exact except_bind_ok.mpr ⟨_, rfl, except_bind_ok.mpr ⟨rows, h5, rfl⟩⟩
    · exact (eff_dataset (x := (row, fs)) hc).trans h6

theorem runAll_datasets_total {json : Bool} : ∀ {ds : List Dataset} {r : Reg} {rows : List (DsRow × List FieldRow)},
    ds.mapM (fun d => do return (← datasetRow d, ← d.fields.mapM (fieldRow json d))) = .ok rows →
    (rows.map fun x => (x.1.name, x.1.multiId)).Nodup → (∀ x ∈ rows, NoClash r x.1) →
    ∃ r', runAll (ds.flatMap (datasetStmts json)) r = .ok r'
  | [], r, rows, h, hn, hc => ⟨r, rfl⟩
  | d :: ds, r, rows, h, hn, hc => by
    rw [List.mapM_cons] at h
    obtain ⟨x, h1, h2⟩ := except_bind_ok.mp h
    obtain ⟨row, h3, h4⟩ := except_bind_ok.mp h1
    obtain ⟨fs, h5, h6⟩ := except_bind_ok.mp h4
    cases h6
    obtain ⟨rows', h7, h8⟩ := except_bind_ok.mp h2
    cases h8
    rw [List.map_cons, List.nodup_cons] at hn
    have hc' : ∀ x ∈ rows', NoClash (addDs r (row, fs)) x.1 := by
      intro x hx p hp e1 e2 e3
      rcases List.mem_append.mp hp with hp | hp
      · exact hc x (List.mem_cons_of_mem _ hx) p hp e1 e2 e3
      · rw [List.mem_singleton] at hp
        rw [hp] at e2 e3
        exact hn.1 (List.mem_map.mpr ⟨x, hx, by simp only at e2 e3; rw [e2, e3]⟩)
    obtain ⟨r', hr⟩ := runAll_datasets_total h7 hn.2 hc'
    refine ⟨r', ?_⟩
    rw [List.flatMap_cons, runAll_append]
    exact except_bind_ok.mpr ⟨_, runAll_dataset.mpr ⟨row, fs, h3, h5, hc _ List.mem_cons_self, rfl⟩, hr⟩

/-- one format with its fields -/
def addFm (r : Reg) (x : Str × List FieldDef) : Reg :=
  { r with format := r.db.formatSeq + 1, db := { r.db with
    formats := r.db.formats ++ [(r.db.formatSeq + 1, r.pk, x.1)]
    formatSeq := r.db.formatSeq + 1
    formatFields := r.db.formatFields ++ x.2.map fun f => (r.db.formatSeq + 1, f) } }

theorem eff_format (r : Reg) (x : Str × List FieldDef) :
    Eff r (addFm r x) { Content.empty with formats := [x] } where
  pk := rfl
  version := rfl
  ulog := rfl
  seq := rfl
  inv i m := { i with
    formats := fun p hp => by
      rcases List.mem_append.mp hp with hp | hp
      · exact i.formats p hp
      · rw [List.mem_singleton] at hp; rw [hp]; exact m
    formatFields := fun p hp => by
      show p.1 ∈ (r.db.formats ++ [(r.db.formatSeq + 1, r.pk, x.1)]).map (·.1)
      rw [List.map_append]
      rcases List.mem_append.mp hp with hp | hp
      · exact List.mem_append_left _ (i.formatFields p hp)
      · obtain ⟨f, _, rfl⟩ := List.mem_map.mp hp
        exact List.mem_append_right _ (by simp)
    formatIds := i.formatIds.add _ }
  content i m k := by
    unfold content Content.add Content.empty addFm
    simp only [nest_new i.formatIds i.formatFields]
    split <;> simp

theorem runAll_format {p : Str × List FieldDef} {r r' : Reg} :
    runAll (formatStmt p.1 :: p.2.map fun f =>
      insert (fun r x => { r.db with formatFields := r.db.formatFields ++ [(r.format, x)] }) (formatFieldRow f)) r
      = .ok r' ↔ ∃ fs, p.2.mapM formatFieldRow = .ok fs ∧ r' = addFm r (p.1, fs) := by
  have key : ∀ (fs : List FieldDef) (r : Reg),
      fs.foldl (fun r x => { r with db := { r.db with formatFields := r.db.formatFields ++ [(r.format, x)] } }) r =
      { r with db := { r.db with formatFields := r.db.formatFields ++ fs.map fun x => (r.format, x) } } := by
    intro fs
    induction fs with
    | nil => intro r; simp
    | cons x xs ih => intro r; rw [List.foldl_cons, ih]; simp
  rw [runAll_cons]
  constructor
  · intro h
    obtain ⟨r1, h1, h2⟩ := except_bind_ok.mp h
    cases h1
    obtain ⟨fs, h5, h6⟩ := runAll_insert.mp h2
    refine ⟨fs, h5, ?_⟩
    rw [h6, key]
    rfl
  · rintro ⟨fs, h5, rfl⟩
    refine except_bind_ok.mpr ⟨_, rfl, runAll_insert.mpr ⟨fs, h5, ?_⟩⟩
    rw [key]
    rfl

theorem runAll_formats : ∀ {fm : Dict Str MsgFormat} {r r' : Reg},
    runAll (fm.flatMap fun p => formatStmt p.1 :: p.2.fields.map fun f =>
      insert (fun r x => { r.db with formatFields := r.db.formatFields ++ [(r.format, x)] }) (formatFieldRow f)) r
      = .ok r' →
    ∃ rows, fm.mapM (fun p => do return (p.1, ← p.2.fields.mapM formatFieldRow)) = .ok rows ∧
      Eff r r' { Content.empty with formats := rows }
  | [], r, r', h => by
    cases h
    exact ⟨[], rfl, Eff.refl r⟩
  | d :: ds, r, r', h => by
    rw [List.flatMap_cons, runAll_append] at h
    obtain ⟨r1, h1, h2⟩ := except_bind_ok.mp h
    obtain ⟨fs, h4, rfl⟩ := (runAll_format (p := (d.1, d.2.fields))).mp h1
    obtain ⟨rows, h5, h6⟩ := runAll_formats h2
    refine ⟨(d.1, fs) :: rows, ?_, ?_⟩
    · rw [List.mapM_cons, h4]
      exact except_bind_ok.mpr ⟨_, rfl, except_bind_ok.mpr ⟨rows, h5, rfl⟩⟩
    · exact (eff_format r (d.1, fs)).trans h6

theorem runAll_formats_total : ∀ {fm : Dict Str MsgFormat} {r : Reg} {rows : List (Str × List FieldDef)},
    fm.mapM (fun p => do return (p.1, ← p.2.fields.mapM formatFieldRow)) = .ok rows →
    ∃ r', runAll (fm.flatMap fun p => formatStmt p.1 :: p.2.fields.map fun f =>
      insert (fun r x => { r.db with formatFields := r.db.formatFields ++ [(r.format, x)] }) (formatFieldRow f)) r
      = .ok r'
  | [], r, rows, h => ⟨r, rfl⟩
  | d :: ds, r, rows, h => by
    rw [List.mapM_cons] at h
    obtain ⟨x, h1, h2⟩ := except_bind_ok.mp h
    obtain ⟨fs, h5, h6⟩ := except_bind_ok.mp h1
    obtain ⟨rows', h7, h8⟩ := except_bind_ok.mp h2
    obtain ⟨r', hr⟩ := runAll_formats_total (r := addFm r (d.1, fs)) h7
    refine ⟨r', ?_⟩
    rw [List.flatMap_cons, runAll_append]
    exact except_bind_ok.mpr ⟨_, (runAll_format (p := (d.1, d.2.fields))).mpr ⟨fs, h5, rfl⟩, hr⟩

/-- one list of an info-multiple row -/
def addList (r : Reg) (x : Nat × List (Nat × SqlVal)) : Reg :=
  { r with list := r.db.multiListSeq + 1, db := { r.db with
    multiLists := r.db.multiLists ++ [(r.db.multiListSeq + 1, r.multi, x.1)]
    multiListSeq := r.db.multiListSeq + 1
    multiElems := r.db.multiElems ++ x.2.map fun f => (r.db.multiListSeq + 1, f) } }

/-- the statements add the lists `b` to the info-multiple row `r.multi` and nothing else -/
structure EffL (r r' : Reg) (b : List (Nat × List (Nat × SqlVal))) : Prop where
  same : r' = { r with list := r'.list, db := { r.db with
    multiLists := r'.db.multiLists, multiListSeq := r'.db.multiListSeq, multiElems := r'.db.multiElems } }
  inv : DbInv r.db → r.multi ∈ r.db.multi.map (·.1) → DbInv r'.db
  nest : DbInv r.db → r.multi ∈ r.db.multi.map (·.1) → ∀ k,
    Spec.nest r'.db.multiLists (fun j => owned j r'.db.multiElems) k =
    Spec.nest r.db.multiLists (fun j => owned j r.db.multiElems) k ++ if k = r.multi then b else []

theorem effL_list (r : Reg) (x : Nat × List (Nat × SqlVal)) : EffL r (addList r x) [x] where
  same := rfl
  inv i m := { i with
    multiLists := fun p hp => by
      rcases List.mem_append.mp hp with hp | hp
      · exact i.multiLists p hp
      · rw [List.mem_singleton] at hp; rw [hp]; exact m
    multiElems := fun p hp => by
      show p.1 ∈ (r.db.multiLists ++ [(r.db.multiListSeq + 1, r.multi, x.1)]).map (·.1)
      rw [List.map_append]
      rcases List.mem_append.mp hp with hp | hp
      · exact List.mem_append_left _ (i.multiElems p hp)
      · obtain ⟨f, _, rfl⟩ := List.mem_map.mp hp
        exact List.mem_append_right _ (by simp)
    listIds := i.listIds.add _ }
  nest i m k := nest_new i.listIds i.multiElems _ _ _ k

theorem effL_lists : ∀ (ls : List (Nat × List (Nat × SqlVal))) (r : Reg), EffL r (ls.foldl addList r) ls
  | [], r => ⟨rfl, fun i _ => i, fun _ _ k => by
      rw [show (if k = r.multi then ([] : List (Nat × List (Nat × SqlVal))) else []) = [] by split <;> rfl,
        List.append_nil]; rfl⟩
  | x :: ls, r => by
    have h := effL_list r x
    have h' := effL_lists ls (addList r x)
    refine ⟨?_, ?_, ?_⟩
    · rw [List.foldl_cons, h'.same]
      rfl
    · intro i m
      exact h'.inv (h.inv i m) m
    · intro i m k
      rw [List.foldl_cons, h'.nest (h.inv i m) m k, h.nest i m k]
      show _ ++ (if k = r.multi then [x] else []) ++ (if k = r.multi then ls else []) = _
      split <;> simp

/-- one info-multiple row with its lists -/
def addMulti (r : Reg) (x : (Str × Str) × List (Nat × List (Nat × SqlVal))) : Reg :=
  x.2.foldl addList { r with multi := r.db.multiSeq + 1, db := { r.db with
    multi := r.db.multi ++ [(r.db.multiSeq + 1, r.pk, x.1)], multiSeq := r.db.multiSeq + 1 } }

theorem eff_multi (r : Reg) (x : (Str × Str) × List (Nat × List (Nat × SqlVal))) :
    Eff r (addMulti r x) { Content.empty with multi := [x] } := by
  have h := effL_lists x.2 { r with multi := r.db.multiSeq + 1, db := { r.db with
    multi := r.db.multi ++ [(r.db.multiSeq + 1, r.pk, x.1)], multiSeq := r.db.multiSeq + 1 } }
  generalize hr1 : ({ r with multi := r.db.multiSeq + 1, db := { r.db with
    multi := r.db.multi ++ [(r.db.multiSeq + 1, r.pk, x.1)], multiSeq := r.db.multiSeq + 1 } } : Reg) = r1 at h
  have hr' : addMulti r x = x.2.foldl addList r1 := by rw [← hr1]; rfl
  rw [hr']
  generalize x.2.foldl addList r1 = r' at h
  have hi1 : DbInv r.db → r.pk ∈ r.db.ulog.map (·.1) → DbInv r1.db := by
    intro i m
    rw [← hr1]
    exact { i with
      multi := fun p hp => by
        rcases List.mem_append.mp hp with hp | hp
        · exact i.multi p hp
        · rw [List.mem_singleton] at hp; rw [hp]; exact m
      multiLists := fun p hp => by
        show p.2.1 ∈ (r.db.multi ++ [(r.db.multiSeq + 1, r.pk, x.1)]).map (·.1)
        rw [List.map_append]
        exact List.mem_append_left _ (i.multiLists p hp)
      multiIds := i.multiIds.add _ }
  have hm1 : r1.multi ∈ r1.db.multi.map (·.1) := by
    rw [← hr1]
    simp
  refine ⟨?_, ?_, ?_, ?_, ?_, ?_⟩
  · rw [h.same, ← hr1]
  · rw [h.same, ← hr1]
  · rw [h.same, ← hr1]
  · rw [h.same, ← hr1]
  · intro i m
    exact h.inv (hi1 i m) hm1
  · intro i m k
    have hn := h.nest (hi1 i m) hm1
    have h1 : r'.db.multi = r.db.multi ++ [(r.db.multiSeq + 1, r.pk, x.1)] := by rw [h.same, ← hr1]
    have h2 : r1.multi = r.db.multiSeq + 1 := by rw [← hr1]
    have h3 : r1.db.multiLists = r.db.multiLists := by rw [← hr1]
    have h4 : r1.db.multiElems = r.db.multiElems := by rw [← hr1]
    rw [h2, h3, h4] at hn
    have hz : Spec.nest r.db.multiLists (fun j => owned j r.db.multiElems) (r.db.multiSeq + 1) = [] := by
      unfold Spec.nest
      rw [List.filter_eq_nil_iff.mpr]
      · rfl
      · intro p hp hc
        rw [decide_eq_true_eq] at hc
        exact i.multiIds.not_mem (hc ▸ i.multiLists p hp)
    have key : Spec.nest r'.db.multi
          (fun i => Spec.nest r'.db.multiLists (fun j => owned j r'.db.multiElems) i) k =
        Spec.nest r.db.multi (fun i => Spec.nest r.db.multiLists (fun j => owned j r.db.multiElems) i) k ++
          if k = r.pk then [x] else [] := by
      rw [h1, nest_add, hn, if_pos rfl, hz, List.nil_append]
      congr 1
      apply nest_congr
      intro p hp _
      rw [hn, if_neg, List.append_nil]
      intro e
      have := i.multiIds.le p hp
      omega
    unfold content Content.add Content.empty
    rw [key]
    rw [h.same, ← hr1]
    split <;> simp

theorem runAll_list {vs : List DVal} {n : Nat} {r r' : Reg} : runAll (listStmts vs n) r = .ok r' ↔
    ∃ xs, vs.zipIdx.mapM (fun x => do return (x.2, ← bindText x.1)) = .ok xs ∧ r' = addList r (n, xs) := by
  have key : ∀ (fs : List (Nat × SqlVal)) (r : Reg),
      fs.foldl (fun r x => { r with db := { r.db with multiElems := r.db.multiElems ++ [(r.list, x)] } }) r =
      { r with db := { r.db with multiElems := r.db.multiElems ++ fs.map fun x => (r.list, x) } } := by
    intro fs
    induction fs with
    | nil => intro r; simp
    | cons x xs ih => intro r; rw [List.foldl_cons, ih]; simp
  unfold listStmts
  rw [runAll_cons]
  constructor
  · intro h
    obtain ⟨r1, h1, h2⟩ := except_bind_ok.mp h
    cases h1
    obtain ⟨fs, h5, h6⟩ := runAll_insert.mp h2
    refine ⟨fs, h5, ?_⟩
    rw [h6, key]
    rfl
  · rintro ⟨fs, h5, rfl⟩
    refine except_bind_ok.mpr ⟨_, rfl, runAll_insert.mpr ⟨fs, h5, ?_⟩⟩
    rw [key]
    rfl

theorem runAll_lists : ∀ {ls : List (List DVal × Nat)} {r r' : Reg},
    runAll (ls.flatMap fun q => listStmts q.1 q.2) r = .ok r' ↔
    ∃ rows, ls.mapM (fun q : List DVal × Nat => do return (q.2, ← q.1.zipIdx.mapM fun x : DVal × Nat => do return (x.2, ← bindText x.1)))
      = .ok rows ∧ r' = rows.foldl addList r
  | [], r, r' => by
    constructor
    · intro h; cases h; exact ⟨[], rfl, rfl⟩
    · rintro ⟨rows, h, rfl⟩; cases h; rfl
  | q :: ls, r, r' => by
    rw [List.flatMap_cons, runAll_append, List.mapM_cons]
    constructor
    · intro h
      obtain ⟨r1, h1, h2⟩ := except_bind_ok.mp h
      obtain ⟨xs, h3, rfl⟩ := runAll_list.mp h1
      obtain ⟨rows, h5, h6⟩ := runAll_lists.mp h2
      refine ⟨(q.2, xs) :: rows, ?_, h6⟩
      rw [h3]
      exact except_bind_ok.mpr ⟨_, rfl, except_bind_ok.mpr ⟨rows, h5, rfl⟩⟩
    · rintro ⟨rows, h, rfl⟩
      obtain ⟨x, h1, h2⟩ := except_bind_ok.mp h
      obtain ⟨xs, h3, h4⟩ := except_bind_ok.mp h1
      cases h4
      obtain ⟨rows', h5, h6⟩ := except_bind_ok.mp h2
      cases h6
      exact except_bind_ok.mpr ⟨_, runAll_list.mpr ⟨xs, h3, rfl⟩, runAll_lists.mpr ⟨rows', h5, rfl⟩⟩

theorem runAll_multi {l : DbLog} {p : Str × List (List DVal)} {r r' : Reg} :
    runAll (multiStmt l p.1 :: p.2.zipIdx.flatMap fun q => listStmts q.1 q.2) r = .ok r' ↔
    ∃ ty lists, dictGet l.infoMultiTypes p.1 = .ok ty ∧
      p.2.zipIdx.mapM (fun q : List DVal × Nat => do return (q.2, ← q.1.zipIdx.mapM fun x : DVal × Nat => do return (x.2, ← bindText x.1)))
        = .ok lists ∧ r' = addMulti r ((p.1, ty), lists) := by
  rw [runAll_cons]
  constructor
  · intro h
    obtain ⟨r1, h1, h2⟩ := except_bind_ok.mp h
    obtain ⟨ty, h3, h4⟩ := except_bind_ok.mp h1
    cases h4
    obtain ⟨lists, h5, h6⟩ := runAll_lists.mp h2
    exact ⟨ty, lists, h3, h5, h6⟩
  · rintro ⟨ty, lists, h3, h5, rfl⟩
    exact except_bind_ok.mpr ⟨_, except_bind_ok.mpr ⟨ty, h3, rfl⟩, runAll_lists.mpr ⟨lists, h5, rfl⟩⟩

theorem multiRow_iff {l : DbLog} {p : Str × List (List DVal)} {x} : multiRow l p = .ok x ↔
    ∃ ty lists, dictGet l.infoMultiTypes p.1 = .ok ty ∧
      p.2.zipIdx.mapM (fun q : List DVal × Nat => do return (q.2, ← q.1.zipIdx.mapM fun x : DVal × Nat => do return (x.2, ← bindText x.1)))
        = .ok lists ∧ x = ((p.1, ty), lists) := by
  unfold multiRow
  constructor
  · intro h
    obtain ⟨ty, h1, h2⟩ := except_bind_ok.mp h
    obtain ⟨lists, h3, h4⟩ := except_bind_ok.mp h2
    cases h4
    exact ⟨ty, lists, h1, h3, rfl⟩
  · rintro ⟨ty, lists, h1, h3, rfl⟩
    exact except_bind_ok.mpr ⟨ty, h1, except_bind_ok.mpr ⟨lists, h3, rfl⟩⟩

theorem runAll_multis {l : DbLog} : ∀ {ms : List (Str × List (List DVal))} {r r' : Reg},
    runAll (ms.flatMap fun p => multiStmt l p.1 :: p.2.zipIdx.flatMap fun q => listStmts q.1 q.2) r = .ok r' →
    ∃ rows, ms.mapM (multiRow l) = .ok rows ∧ Eff r r' { Content.empty with multi := rows }
  | [], r, r', h => by
    cases h
    exact ⟨[], rfl, Eff.refl r⟩
  | d :: ds, r, r', h => by
    rw [List.flatMap_cons, runAll_append] at h
    obtain ⟨r1, h1, h2⟩ := except_bind_ok.mp h
    obtain ⟨ty, ls, h3, h4, rfl⟩ := runAll_multi.mp h1
    obtain ⟨rows, h5, h6⟩ := runAll_multis h2
    refine ⟨((d.1, ty), ls) :: rows, ?_, ?_⟩
    · rw [List.mapM_cons]
      exact except_bind_ok.mpr ⟨_, multiRow_iff.mpr ⟨ty, ls, h3, h4, rfl⟩, except_bind_ok.mpr ⟨rows, h5, rfl⟩⟩
    · exact (eff_multi r ((d.1, ty), ls)).trans h6

theorem runAll_multis_total {l : DbLog} : ∀ {ms : List (Str × List (List DVal))} {r : Reg}
    {rows : List ((Str × Str) × List (Nat × List (Nat × SqlVal)))}, ms.mapM (multiRow l) = .ok rows →
    ∃ r', runAll (ms.flatMap fun p => multiStmt l p.1 :: p.2.zipIdx.flatMap fun q => listStmts q.1 q.2) r = .ok r'
  | [], r, rows, h => ⟨r, rfl⟩
  | d :: ds, r, rows, h => by
    rw [List.mapM_cons] at h
    obtain ⟨x, h1, h2⟩ := except_bind_ok.mp h
    obtain ⟨ty, ls, h3, h4, rfl⟩ := multiRow_iff.mp h1
    obtain ⟨rows', h7, h8⟩ := except_bind_ok.mp h2
    obtain ⟨r', hr⟩ := runAll_multis_total (r := addMulti r ((d.1, ty), ls)) h7
    refine ⟨r', ?_⟩
    rw [List.flatMap_cons, runAll_append]
    exact except_bind_ok.mpr ⟨_, runAll_multi.mpr ⟨ty, ls, h3, h4, rfl⟩, hr⟩

/-! ### all statements -/

theorem runAll_info {l : DbLog} {r r' : Reg} : runAll (infoStmts l) r = .ok r' ↔
    ∃ rows, l.info.mapM (fun p => do return (p.1, ← dictGet l.infoTypes p.1, ← bindVal p.2)) = .ok rows ∧
      r' = rows.foldl (fun r x => { r with db := { r.db with info := r.db.info ++ [(r.pk, x)] } }) r := by
  unfold infoStmts
  rw [runAll_cons]
  constructor
  · intro h
    obtain ⟨r1, h1, h2⟩ := except_bind_ok.mp h
    split at h1
    · cases h1
      exact runAll_insert.mp h2
    · cases h1
  · rintro ⟨rows, h, hr⟩
    refine except_bind_ok.mpr ⟨r, ?_, runAll_insert.mpr ⟨rows, h, hr⟩⟩
    rw [if_pos]
    rw [List.all_eq_true]
    clear hr
    generalize l.info = xs at h
    induction xs generalizing rows with
    | nil => intro p hp; cases hp
    | cons a xs ih =>
      rw [List.mapM_cons] at h
      obtain ⟨x, h1, h2⟩ := except_bind_ok.mp h
      obtain ⟨rows', h3, h4⟩ := except_bind_ok.mp h2
      obtain ⟨ty, h5, h6⟩ := except_bind_ok.mp h1
      intro p hp
      rcases List.mem_cons.mp hp with rfl | hp
      · unfold dictGet at h5
        unfold Dict.has
        cases e : l.infoTypes.get? p.1 with
        | none => rw [e] at h5; cases h5
        | some v => rfl
      · exact ih rows' h3 p hp

/-- the statements after the first one add the rows of the log -/
theorem runAll_rest {json : Bool} {sha : Str} {l : DbLog} {r r' : Reg} {row : MetaRow} (hm : metaRow l sha = .ok row)
    (h : runAll (restStmts json l) r = .ok r') :
    ∃ c, dbRows json sha l = .ok c ∧ c.row = [row] ∧ Eff r r' { c with row := [] } := by
  unfold restStmts at h
  simp only [runAll_append] at h
  obtain ⟨r10, h, h11⟩ := except_bind_ok.mp h
  obtain ⟨r9, h, h10⟩ := except_bind_ok.mp h
  obtain ⟨r8, h, h9⟩ := except_bind_ok.mp h
  obtain ⟨r7, h, h8⟩ := except_bind_ok.mp h
  obtain ⟨r6, h, h7⟩ := except_bind_ok.mp h
  obtain ⟨r5, h, h6⟩ := except_bind_ok.mp h
  obtain ⟨r4, h, h5⟩ := except_bind_ok.mp h
  obtain ⟨r3, h, h4⟩ := except_bind_ok.mp h
  obtain ⟨r2, h, h3⟩ := except_bind_ok.mp h
  obtain ⟨r1, h1, h2⟩ := except_bind_ok.mp h
  obtain ⟨c1, a1, rfl⟩ := runAll_insert.mp h1
  obtain ⟨c2, a2, b2⟩ := runAll_datasets h2
  obtain ⟨c3, a3, rfl⟩ := runAll_insert.mp h3
  obtain ⟨c4, a4, rfl⟩ := runAll_insert.mp h4
  obtain ⟨c5, a5, rfl⟩ := runAll_insert.mp h5
  obtain ⟨c6, a6, b6⟩ := runAll_formats h6
  obtain ⟨c7, a7, rfl⟩ := runAll_info.mp h7
  obtain ⟨c8, a8, b8⟩ := runAll_multis h8
  obtain ⟨c9, a9, rfl⟩ := runAll_insert.mp h9
  obtain ⟨c10, a10, rfl⟩ := runAll_insert.mp h10
  obtain ⟨c11, a11, rfl⟩ := runAll_insert.mp h11
  refine ⟨⟨[row], c1, c2, c3, c4, c5, c6, c7, c8, c9, c10, c11⟩, ?_, rfl, ?_⟩
  · unfold dbRows
    rw [hm, a1, a2, a3, a4, a5, a6, a7, a8, a9, a10, a11]
    rfl
  · have := ((((((((((eff_offsets r c1).trans b2).trans (eff_dropouts r2 c3)).trans (eff_logging _ c4)).trans
      (eff_tagged _ c5)).trans b6).trans (eff_info r6 c7)).trans b8).trans (eff_initial r8 c9)).trans
      (eff_defaults _ c10)).trans (eff_changed _ c11)
    simpa only [Content.add, Content.empty, List.nil_append, List.append_nil] using this

theorem dbRows_iff {json : Bool} {sha : Str} {l : DbLog} {c : Content} : dbRows json sha l = .ok c ↔
    ∃ row, metaRow l sha = .ok row ∧ c.row = [row] ∧
      l.appendedOffsets.zipIdx.mapM (fun p => do return (p.2, ← bindNat p.1)) = .ok c.offsets ∧
      l.dataList.mapM (fun d => do return (← datasetRow d, ← d.fields.mapM (fieldRow json d))) = .ok c.datasets ∧
      l.dropouts.mapM (fun d => do
        return ({ ts := ← bindNat d.ts, duration := ← bindNat d.duration } : Dropout)) = .ok c.dropouts ∧
      l.logged.mapM (fun m => do
        return ({ level := ← bindNat m.level, ts := ← bindNat m.ts, msg := m.msg } : LogMsg)) = .ok c.logging ∧
      (l.tagged.flatMap fun p => p.2.map fun m => (p.1, m)).mapM (fun q => do
        return ({ level := ← bindNat q.2.level, ts := ← bindNat q.2.ts, tag := ← bindNat q.1,
                  msg := q.2.msg } : TagMsg)) = .ok c.tagged ∧
      l.formats.mapM (fun p => do return (p.1, ← p.2.fields.mapM formatFieldRow)) = .ok c.formats ∧
      l.info.mapM (fun p => do return (p.1, ← dictGet l.infoTypes p.1, ← bindVal p.2)) = .ok c.info ∧
      l.infoMulti.mapM (multiRow l) = .ok c.multi ∧
      l.initialParams.mapM (fun p => do return (p.1, ← bindVal p.2)) = .ok c.initial ∧
      (l.defaultParams.flatMap fun p => p.2.map fun q => (p.1, q)).mapM (fun q => do
        return (← bindNat q.1, q.2.1, ← bindVal q.2.2)) = .ok c.defaults ∧
      l.changedParams.mapM (fun p => do return (← bindNat p.1, p.2.1, ← bindVal p.2.2)) = .ok c.changed := by
  unfold dbRows
  constructor
  · intro h
    obtain ⟨row, h0, h⟩ := except_bind_ok.mp h
    obtain ⟨c1, h1, h⟩ := except_bind_ok.mp h
    obtain ⟨c2, h2, h⟩ := except_bind_ok.mp h
    obtain ⟨c3, h3, h⟩ := except_bind_ok.mp h
    obtain ⟨c4, h4, h⟩ := except_bind_ok.mp h
    obtain ⟨c5, h5, h⟩ := except_bind_ok.mp h
    obtain ⟨c6, h6, h⟩ := except_bind_ok.mp h
    obtain ⟨c7, h7, h⟩ := except_bind_ok.mp h
    obtain ⟨c8, h8, h⟩ := except_bind_ok.mp h
    obtain ⟨c9, h9, h⟩ := except_bind_ok.mp h
    obtain ⟨c10, h10, h⟩ := except_bind_ok.mp h
    obtain ⟨c11, h11, h⟩ := except_bind_ok.mp h
    cases h
    exact ⟨row, h0, rfl, h1, h2, h3, h4, h5, h6, h7, h8, h9, h10, h11⟩
  · rintro ⟨row, h0, hr, h1, h2, h3, h4, h5, h6, h7, h8, h9, h10, h11⟩
    rw [h0, h1, h2, h3, h4, h5, h6, h7, h8, h9, h10, h11]
    cases c
    simp only at hr
    subst hr
    rfl

theorem runAll_insert_total {α β : Type} (add : Reg → α → DB) {g : β → Except PyErr α} {xs : List β} {rows : List α}
    (h : xs.mapM g = .ok rows) (r : Reg) : ∃ r', runAll (xs.map fun x => insert add (g x)) r = .ok r' :=
  ⟨_, runAll_insert.mpr ⟨rows, h, rfl⟩⟩

theorem runAll_rest_total {json : Bool} {sha : Str} {l : DbLog} {r : Reg} {c : Content}
    (h : dbRows json sha l = .ok c) (hn : (c.datasets.map fun x => (x.1.name, x.1.multiId)).Nodup)
    (hc : ∀ p ∈ r.db.datasets, p.2.1 ≠ r.pk) : ∃ r', runAll (restStmts json l) r = .ok r' := by
  obtain ⟨row, h0, hr, h1, h2, h3, h4, h5, h6, h7, h8, h9, h10, h11⟩ := dbRows_iff.mp h
  have b1 := (runAll_insert (r := r) (add := fun r x => { r.db with offsets := r.db.offsets ++ [(r.pk, x)] })).mpr
    ⟨_, h1, rfl⟩
  have e1 : (c.offsets.foldl (fun r x => { r with db := { r.db with offsets := r.db.offsets ++ [(r.pk, x)] } }) r) =
      { r with db := { r.db with offsets := r.db.offsets ++ c.offsets.map fun x => (r.pk, x) } } := by
    generalize c.offsets = rows
    clear hc b1
    induction rows generalizing r with
    | nil => simp
    | cons x xs ih => rw [List.foldl_cons, ih]; simp
  rw [e1] at b1
  obtain ⟨r2, b2⟩ := runAll_datasets_total (r := { r with db := { r.db with
    offsets := r.db.offsets ++ c.offsets.map fun x => (r.pk, x) } }) h2 hn
    (fun x _ p hp e _ _ => hc p hp e)
  obtain ⟨r3, b3⟩ := runAll_insert_total (fun r x => { r.db with dropouts := r.db.dropouts ++ [(r.pk, x)] }) h3 r2
  obtain ⟨r4, b4⟩ := runAll_insert_total (fun r x => { r.db with logging := r.db.logging ++ [(r.pk, x)] }) h4 r3
  obtain ⟨r5, b5⟩ := runAll_insert_total (fun r x => { r.db with tagged := r.db.tagged ++ [(r.pk, x)] }) h5 r4
  obtain ⟨r6, b6⟩ := runAll_formats_total (r := r5) h6
  obtain ⟨r7, b7⟩ : ∃ r7, runAll (infoStmts l) r6 = .ok r7 := ⟨_, runAll_info.mpr ⟨_, h7, rfl⟩⟩
  obtain ⟨r8, b8⟩ := runAll_multis_total (r := r7) h8
  obtain ⟨r9, b9⟩ := runAll_insert_total (fun r x => { r.db with initial := r.db.initial ++ [(r.pk, x)] }) h9 r8
  obtain ⟨r10, b10⟩ := runAll_insert_total (fun r x => { r.db with defaults := r.db.defaults ++ [(r.pk, x)] }) h10 r9
  obtain ⟨r11, b11⟩ := runAll_insert_total (fun r x => { r.db with changed := r.db.changed ++ [(r.pk, x)] }) h11 r10
  refine ⟨r11, ?_⟩
  unfold restStmts
  simp only [runAll_append]
  exact except_bind_ok.mpr ⟨_, except_bind_ok.mpr ⟨_, except_bind_ok.mpr ⟨_, except_bind_ok.mpr ⟨_,
    except_bind_ok.mpr ⟨_, except_bind_ok.mpr ⟨_, except_bind_ok.mpr ⟨_, except_bind_ok.mpr ⟨_,
    except_bind_ok.mpr ⟨_, except_bind_ok.mpr ⟨_, b1, b2⟩, b3⟩, b4⟩, b5⟩, b6⟩, b7⟩, b8⟩, b9⟩, b10⟩, b11⟩

end PyULog
