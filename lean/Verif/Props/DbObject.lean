import Verif.Props.Db
/-
C62 (file objects as argument of the constructor), C63 (loading again), C64 (delete and save again),
C65 (JSON column), C66 (writing a stored log to a file).
-/
namespace PyULog
open Spec

/-! ### C62 -/

/-- For a file name the constructor gives the log of the file and the digest of its bytes. -/
theorem C62_file_name_partial (H : Bytes → Str) (fuel : Nat) (cfg : Cfg) {db : DB} (hv : 5 ≤ db.version) (c : Bytes)
    (lazy : Bool) (o : DbObj) : construct H fuel cfg db none (some (.name c)) lazy = .ok o ↔
      ∃ u, load fuel cfg c = .ok u ∧ o = { pk := none, sha := H c, lazyLoaded := lazy, log := DbLog.ofULog u } := by
  constructor
  · intro h
    obtain ⟨u, h1, h2, h3, h4, h5⟩ := construct_file h
    rw [(C45_whole_file H c).1] at h5
    refine ⟨u, h1, ?_⟩
    cases o
    simp_all
  · rintro ⟨u, h1, rfl⟩
    unfold construct
    rw [if_neg (by omega)]
    simp only [(C45_whole_file H c).1]
    show (match load fuel cfg c with
      | .ok u => ConRes.ok { pk := none, sha := H c, lazyLoaded := lazy, log := DbLog.ofULog u }
      | .raised e => .raised e
      | .outOfFuel => .outOfFuel) = _
    rw [h1]

/-- An open file object is always refused with `TypeError`: computing the digest leaves it at its end. -/
theorem C62_open_file_fails (H : Bytes → Str) (fuel : Nat) (cfg : Cfg) {db : DB} (hv : 5 ≤ db.version) (c : Bytes)
    (pos : Nat) (lazy : Bool) : construct H fuel cfg db none (some (.opened c pos)) lazy = .raised .typeError := by
  unfold construct
  rw [if_neg (by omega)]
  simp only [C45_open_file H c pos]
  rfl

/-- A closed file object is always refused with `ValueError`. -/
theorem C62_closed_file_fails (H : Bytes → Str) (fuel : Nat) (cfg : Cfg) {db : DB} (hv : 5 ≤ db.version) (c : Bytes)
    (lazy : Bool) : construct H fuel cfg db none (some (.closed c)) lazy = .raised .valueError := by
  unfold construct
  rw [if_neg (by omega)]
  simp only [(C45_whole_file H c).2]
  rfl

/-- A database of an older version, both a key and a file, and none of both are refused with `ValueError`, in this order. -/
theorem C62_arguments (H : Bytes → Str) (fuel : Nat) (cfg : Cfg) (db : DB) (pk : Option Nat) (file : Option FileArg)
    (lazy : Bool) (h : db.version < 5 ∨ (pk.isSome = file.isSome)) :
    construct H fuel cfg db pk file lazy = .raised .valueError := by
  unfold construct
  split
  · rfl
  · rename_i hv
    rcases h with h | h
    · exact absurd h hv
    · cases pk <;> cases file <;> first | rfl | cases h

/-- the sample file loads by name, but not as a file object at its beginning -/
example : (∃ o, construct Sample.hash 20 {} {} none (some (.name Sample.clean)) true = .ok o) ∧
    construct Sample.hash 20 {} {} none (some (.opened Sample.clean 0)) true = .raised .typeError ∧
    construct Sample.hash 20 {} {} none (some (.closed Sample.clean)) true = .raised .valueError :=
  ⟨⟨_, Sample.con_clean⟩, by decide +kernel, by decide +kernel⟩

/-! ### lazy loading of a content -/

theorem mapM_weaken {α β γ : Type} {f : α → Except PyErr β} {g : α → Except PyErr γ} {k : β → γ} {xs : List α}
    {ys : List β} (hm : xs.mapM f = .ok ys) (hg : ∀ x ∈ xs, ∀ y, f x = .ok y → g x = .ok (k y)) :
    xs.mapM g = .ok (ys.map k) := by
  induction xs generalizing ys with
  | nil => cases hm; rfl
  | cons a xs ih =>
    rw [List.mapM_cons] at hm
    obtain ⟨y, h1, h2⟩ := except_bind_ok.mp hm
    obtain ⟨ys', h3, h4⟩ := except_bind_ok.mp h2
    cases h4
    rw [List.mapM_cons, hg a List.mem_cons_self y h1, ih h3 fun x hx => hg x (List.mem_cons_of_mem _ hx)]
    rfl

/-- the log loaded lazily has the datasets without data series -/
theorem loadC_lazy {c : Content} {o : DbLog} {s : Str} {r : DbLog} (h : loadC c false o = .ok (s, r)) :
    loadC c true o = .ok (s, { r with dataList := r.dataList.map bare }) := by
  unfold loadC at h ⊢
  split at h
  · rename_i row hrow
    obtain ⟨dl, h1, h2⟩ := except_bind_ok.mp h
    cases h2
    simp only [mapM_weaken (k := bare) h1 fun x _ y hy => readC_lazy hy]
    rfl
  · cases h

/-! ### C63 -/

/-- what the constructor with a key gives, in terms of the content -/
theorem construct_content {H : Bytes → Str} {fuel : Nat} {cfg : Cfg} {db : DB} {k : Nat} {lazy : Bool} {o : DbObj}
    (h : construct H fuel cfg db (some k) none lazy = .ok o) : loadC (content db k) lazy {} = .ok (o.sha, o.log) := by
  rw [← dbLoad_content]
  exact (construct_load h).2.2

/-- `load()` on an object that was loaded from the database puts the logged messages, dropouts, changed
parameters and appended offsets into it a second time. -/
theorem C63_load_again_doubles {H : Bytes → Str} {fuel : Nat} {cfg : Cfg} {db : DB} {k : Nat} {lazy : Bool} {o : DbObj}
    (h : construct H fuel cfg db (some k) none lazy = .ok o) :
    ∃ o', o.load db lazy = .ok o' ∧
      o'.log.logged = o.log.logged ++ o.log.logged ∧
      o'.log.dropouts = o.log.dropouts ++ o.log.dropouts ∧
      o'.log.changedParams = o.log.changedParams ++ o.log.changedParams ∧
      o'.log.appendedOffsets = o.log.appendedOffsets ++ o.log.appendedOffsets := by
  have h1 := construct_content h
  obtain ⟨hpk, _, _⟩ := construct_load h
  unfold DbObj.load
  rw [hpk]
  show ∃ o', (dbLoad db k lazy o.log >>= fun x => _) = Except.ok o' ∧ _
  rw [dbLoad_content]
  generalize content db k = c at h1
  unfold loadC at h1 ⊢
  split at h1
  · rename_i row hrow
    obtain ⟨dl, h2, h3⟩ := except_bind_ok.mp h1
    have h3 := Except.ok.inj h3
    rw [Prod.mk.injEq] at h3
    obtain ⟨_, h4⟩ := h3
    simp only [h2]
    refine ⟨_, rfl, ?_⟩
    rw [← h4]
    exact ⟨rfl, rfl, rfl, rfl⟩
  · cases h1

/-- The datasets are replaced, not added. -/
theorem C63_datasets_partial {H : Bytes → Str} {fuel : Nat} {cfg : Cfg} {db : DB} {k : Nat} {lazy : Bool} {o o' : DbObj}
    (h : construct H fuel cfg db (some k) none lazy = .ok o) (h' : o.load db lazy = .ok o') :
    o'.log.dataList = o.log.dataList ∧ o'.sha = o.sha := by
  have h1 := construct_content h
  obtain ⟨hpk, _, _⟩ := construct_load h
  unfold DbObj.load at h'
  rw [hpk] at h'
  obtain ⟨⟨s, l⟩, h2, h3⟩ := except_bind_ok.mp h'
  cases h3
  rw [dbLoad_content] at h2
  generalize content db k = c at h1 h2
  unfold loadC at h1 h2
  split at h1
  · rename_i row hrow
    rw [hrow] at h2
    obtain ⟨dl, h3, h4⟩ := except_bind_ok.mp h1
    obtain ⟨dl', h5, h6⟩ := except_bind_ok.mp h2
    rw [h3] at h5
    cases h5
    have h4 := Except.ok.inj h4
    have h6 := Except.ok.inj h6
    rw [Prod.mk.injEq] at h4 h6
    rw [← h4.1, ← h4.2, ← h6.1, ← h6.2]
    exact ⟨rfl, rfl⟩
  · cases h1

/-- `load` of an object whose log is not in the database (never saved, or deleted since) is a KeyError -/
theorem C63_not_stored (db : DB) (o : DbObj) (lazy : Bool) (h : ∀ k, o.pk = some k → k ∉ db.ulog.map (·.1)) :
    o.load db lazy = .error .keyError := by
  unfold DbObj.load
  cases hp : o.pk with
  | none => rfl
  | some k =>
    have h := h k hp
    have h1 : existsInDb db k = false := by
      unfold existsInDb
      have : db.ulog.filter (fun p => decide (p.1 = k)) = [] := by
        rw [List.filter_eq_nil_iff]
        intro p hpm
        simp only [decide_eq_true_eq]
        intro he
        exact h (List.mem_map.mpr ⟨p, hpm, he⟩)
      rw [this]
      rfl
    show (dbLoad db k lazy o.log >>= fun x => _) = _
    unfold dbLoad
    rw [if_pos (by rw [h1]; rfl)]
    rfl

/-- an object that was built from a file -/
example : (match construct Sample.hash 20 {} Sample.db1 none (some (.name Sample.clean)) true with
    | .ok o => decide (o.pk = none) && (match o.load Sample.db1 true with
      | .error .keyError => true
      | _ => false)
    | _ => false) = true := by decide +kernel

/-- the stored sample log, loaded and loaded again: the text message is there twice -/
example : (match construct Sample.hash 20 {} Sample.db1 (some 1) none true with
    | .ok o => (match o.load Sample.db1 true with
      | .ok o' => decide (o.log.logged.length = 1 ∧ o'.log.logged.length = 2 ∧ o'.log.dropouts.length = 2)
      | .error _ => false)
    | _ => false) = true := by decide +kernel

/-! ### C64 -/

theorem valueBack_back (v : DVal) : valueBack (valueBack v) = valueBack v := by
  cases v with
  | none => rfl
  | some v =>
    cases v with
    | float x =>
      by_cases h : exp64 x = 2047 ∧ frac64 x ≠ 0
      · have : valueBack (some (.float x)) = none := if_pos h
        rw [this]; rfl
      · have : valueBack (some (.float x)) = some (.float x) := if_neg h
        rw [this, this]
    | _ => rfl

theorem textBack_back (v : DVal) : textBack (textBack v) = textBack v := by
  cases v with
  | none => rfl
  | some v =>
    cases v with
    | float x =>
      by_cases h : exp64 x = 2047 ∧ frac64 x ≠ 0
      · have : textBack (some (.float x)) = none := if_pos h
        rw [this]; rfl
      · have : textBack (some (.float x)) = some (.str (realText x)) := if_neg h
        rw [this]; rfl
    | _ => rfl

theorem fromDb_fromDb (l : DbLog) : fromDb (fromDb l) = fromDb l := by
  unfold fromDb
  simp only [List.map_map, List.filter_filter, Bool.and_self, Function.comp_def, valueBack_back, textBack_back]

theorem regular_fromDb {l : DbLog} (h : Regular l) : Regular (fromDb l) := by
  have hk : ∀ {κ α β : Type} (f : α → β) (d : List (κ × α)), (d.map fun p => (p.1, f p.2)).map (·.1) = d.map (·.1) := by
    intro κ α β f d; rw [List.map_map]; rfl
  exact {
    infoKeys := by show ((l.info.map fun p => (p.1, valueBack p.2)).map (·.1)).Nodup; rw [hk]; exact h.infoKeys
    infoTypes := by
      show l.infoTypes.map (·.1) = (l.info.map fun p => (p.1, valueBack p.2)).map (·.1); rw [hk]; exact h.infoTypes
    multiKeys := by
      show ((l.infoMulti.map fun p => (p.1, p.2.map (List.map textBack))).map (·.1)).Nodup
      rw [hk fun x : List (List DVal) => x.map (List.map textBack)]; exact h.multiKeys
    multiTypes := by
      show l.infoMultiTypes.map (·.1) = (l.infoMulti.map fun p => (p.1, p.2.map (List.map textBack))).map (·.1)
      rw [hk fun x : List (List DVal) => x.map (List.map textBack)]; exact h.multiTypes
    initial := by
      show ((l.initialParams.map fun p => (p.1, valueBack p.2)).map (·.1)).Nodup; rw [hk]; exact h.initial
    defaults := by
      show ((l.defaultParams.map fun p => (p.1, p.2.map fun q => (q.1, valueBack q.2))).map (·.1)).Nodup
      rw [hk fun x : Dict Str DVal => x.map fun q => (q.1, valueBack q.2)]; exact h.defaults
    default := by
      intro p hp
      obtain ⟨q, hq, rfl⟩ := List.mem_map.mp (show p ∈ l.defaultParams.map fun p =>
        (p.1, p.2.map fun q => (q.1, valueBack q.2)) from hp)
      obtain ⟨h1, h2⟩ := h.default q hq
      refine ⟨?_, ?_⟩
      · show List.map _ q.2 ≠ []
        simpa using h1
      · show ((q.2.map fun q => (q.1, valueBack q.2)).map (·.1)).Nodup
        rw [hk]; exact h2
    formats := h.formats.sublist (List.filter_sublist.map _)
    formatNames := fun p hp => h.formatNames p (List.mem_filter.mp hp).1
    tags := h.tags
    tagged := h.tagged
    order := h.order
    fields := h.fields
    columns := h.columns
    typed := h.typed }

theorem regular_bare {l : DbLog} (h : Regular l) : Regular { l with dataList := l.dataList.map bare } where
  infoKeys := h.infoKeys
  infoTypes := h.infoTypes
  multiKeys := h.multiKeys
  multiTypes := h.multiTypes
  initial := h.initial
  defaults := h.defaults
  default := h.default
  formats := h.formats
  formatNames := h.formatNames
  tags := h.tags
  tagged := h.tagged
  order := by
    rw [List.pairwise_map]
    exact h.order
  fields := by
    intro d hd
    obtain ⟨x, _, rfl⟩ := List.mem_map.mp hd
    exact List.nodup_nil
  columns := by
    intro d hd
    obtain ⟨x, _, rfl⟩ := List.mem_map.mp hd
    rfl
  typed := by
    intro d hd f hf
    obtain ⟨x, _, rfl⟩ := List.mem_map.mp hd
    cases hf

/-- steps put together -/
theorem Spec.Later.trans {a b c : DB} (h : Later a b) (h' : Later b c) : Later a c := by
  induction h' with
  | refl => exact h
  | step _ _ _ hs ih => exact .step _ _ _ ih hs

theorem later_save {db db' : DB} {o o' : DbObj} {fault : Nat → Option PyErr} {json : Bool} {r : Option PyErr}
    (h : o.save fault json db = (r, db', o')) : Later db db' := by
  have : db' = (o.save fault json db).2.1 := by rw [h]
  rw [this]
  exact .step _ _ _ (.refl _) (.save fault json o db)

/-- A log loaded eagerly, deleted and saved again, loads as it did before. -/
theorem C64_eager {H : Bytes → Str} {fuel : Nat} {cfg : Cfg} {fault fault' : Nat → Option PyErr} {json json' : Bool}
    {o o' e e' e'' : DbObj} {db₀ db₁ db₂ db₃ db₄ db₅ db₆ : DB} {k k' : Nat}
    (hr : Reach db₀) (hreg : Regular o.log) (hs : o.save fault json db₀ = (none, db₁, o')) (hk : o'.pk = some k)
    (hl : Later db₁ db₂) (hm : k ∈ db₂.ulog.map (·.1))
    (he : construct H fuel cfg db₂ (some k) none false = .ok e) (hd : e.delete db₂ = .ok (db₃, e'))
    (hl₃ : Later db₃ db₄) (hs' : e'.save fault' json' db₄ = (none, db₅, e'')) (hk' : e''.pk = some k')
    (hl₅ : Later db₅ db₆) (hm₆ : k' ∈ db₆.ulog.map (·.1)) :
    construct H fuel cfg db₆ (some k') none false = .ok { e with pk := some k' } := by
  have hr4 : Reach db₄ :=
    (((hr : Later _ _).trans (later_save hs)).trans hl |>.step _ _ _ (.delete _ _ _ _ hd)).trans hl₃
  have h1 := C38_loads_stored H fuel cfg hr hreg hs hk hl hm
  rw [he] at h1
  cases h1
  unfold DbObj.delete at hd
  cases hd
  have h2 := C38_loads_stored H fuel cfg hr4 (regular_fromDb hreg) hs' hk' hl₅ hm₆
  rw [h2, fromDb_fromDb]

/-- A log loaded lazily, which is the default, deleted and saved again, has lost all its data series. -/
theorem C64_lazy_loses_data {H : Bytes → Str} {fuel : Nat} {cfg : Cfg} {fault fault' : Nat → Option PyErr}
    {json json' : Bool} {o o' e e' e'' : DbObj} {db₀ db₁ db₂ db₃ db₄ db₅ db₆ : DB} {k k' : Nat}
    (hr : Reach db₀) (hreg : Regular o.log) (hs : o.save fault json db₀ = (none, db₁, o')) (hk : o'.pk = some k)
    (hl : Later db₁ db₂) (hm : k ∈ db₂.ulog.map (·.1))
    (he : construct H fuel cfg db₂ (some k) none true = .ok e) (hd : e.delete db₂ = .ok (db₃, e'))
    (hl₃ : Later db₃ db₄) (hs' : e'.save fault' json' db₄ = (none, db₅, e'')) (hk' : e''.pk = some k')
    (hl₅ : Later db₅ db₆) (hm₆ : k' ∈ db₆.ulog.map (·.1)) :
    ∃ r, construct H fuel cfg db₆ (some k') none false = .ok r ∧ r.sha = o.sha ∧
      r.log = { fromDb o.log with dataList := o.log.dataList.map bare } := by
  have hr4 : Reach db₄ :=
    (((hr : Later _ _).trans (later_save hs)).trans hl |>.step _ _ _ (.delete _ _ _ _ hd)).trans hl₃
  have h1 := C38_loads_stored H fuel cfg hr hreg hs hk hl hm
  have h2 := loadC_lazy (construct_content h1)
  have h3 := construct_content he
  rw [h2] at h3
  cases e with
  | mk pk sha lz lg =>
    have hpk := (construct_load he).1
    simp only at hpk h3
    have h3 := Except.ok.inj h3
    rw [Prod.mk.injEq] at h3
    obtain ⟨rfl, rfl⟩ := h3
    subst hpk
    unfold DbObj.delete at hd
    cases hd
    have h4 := C38_loads_stored H fuel cfg hr4 (regular_bare (regular_fromDb hreg)) hs' hk' hl₅ hm₆
    refine ⟨_, h4, rfl, ?_⟩
    show fromDb { fromDb o.log with dataList := o.log.dataList.map bare } = _
    have : ∀ (l : DbLog) dl, fromDb { l with dataList := dl } = { fromDb l with dataList := dl } := fun _ _ => rfl
    rw [this, fromDb_fromDb]

theorem valueFits_back {v : DVal} (h : valueFits v) : valueFits (valueBack v) := by
  intro n hn
  cases v with
  | none => cases hn
  | some v =>
    cases v with
    | int m => exact h n hn
    | str s => cases hn
    | bytes b => cases hn
    | bool b => cases b <;> cases hn <;> (unfold fitsInt; decide)
    | float x =>
      by_cases hx : exp64 x = 2047 ∧ frac64 x ≠ 0
      · rw [show valueBack (some (.float x)) = none from if_pos hx] at hn
        cases hn
      · rw [show valueBack (some (.float x)) = some (.float x) from if_neg hx] at hn
        cases hn

theorem textFits_back (v : DVal) : valueFits (textBack v) := by
  cases v with
  | none => exact fun _ e => (by cases e)
  | some v =>
    cases v with
    | float x =>
      intro n e
      have e : (if exp64 x = 2047 ∧ frac64 x ≠ 0 then none else some (Value.str (realText x))) = some (.int n) := e
      split at e <;> cases e
    | _ => exact fun _ e => (by cases e)

theorem holdable_fromDb {l : DbLog} (h : Holdable l) : Holdable (fromDb l) where
  flags := h.flags
  header := h.header
  offsets := h.offsets
  datasets := h.datasets
  distinct := h.distinct
  named := h.named
  dropouts := h.dropouts
  logged := h.logged
  tagged := h.tagged
  formats := fun p hp => h.formats p (List.mem_filter.mp hp).1
  info := fun p hp => by
    obtain ⟨q, hq, rfl⟩ := List.mem_map.mp hp
    exact valueFits_back (h.info q hq)
  multi := fun p hp vs hvs v hv => by
    obtain ⟨q, hq, rfl⟩ := List.mem_map.mp hp
    obtain ⟨ws, hws, rfl⟩ := List.mem_map.mp hvs
    obtain ⟨w, hw, rfl⟩ := List.mem_map.mp hv
    exact textFits_back w
  initial := fun p hp => by
    obtain ⟨q, hq, rfl⟩ := List.mem_map.mp hp
    exact valueFits_back (h.initial q hq)
  defaults := fun p hp => by
    obtain ⟨q, hq, rfl⟩ := List.mem_map.mp hp
    refine ⟨(h.defaults q hq).1, fun r hr => ?_⟩
    obtain ⟨s, hs, rfl⟩ := List.mem_map.mp hr
    exact valueFits_back ((h.defaults q hq).2 s hs)
  changed := fun p hp => by
    obtain ⟨q, hq, rfl⟩ := List.mem_map.mp hp
    exact ⟨(h.changed q hq).1, valueFits_back (h.changed q hq).2⟩

/-- A log whose numbers fit can be saved again after it was deleted. -/
theorem C64_can_save {H : Bytes → Str} {fuel : Nat} {cfg : Cfg} {fault : Nat → Option PyErr} {json : Bool}
    {o o' e e' : DbObj} {db₀ db₁ db₂ db₃ db₄ : DB} {k : Nat}
    (hr : Reach db₀) (hreg : Regular o.log) (hf : Holdable o.log)
    (hs : o.save fault json db₀ = (none, db₁, o')) (hk : o'.pk = some k)
    (hl : Later db₁ db₂) (hm : k ∈ db₂.ulog.map (·.1))
    (he : construct H fuel cfg db₂ (some k) none false = .ok e) (hd : e.delete db₂ = .ok (db₃, e'))
    (hl₃ : Later db₃ db₄) (hnew : ∀ p ∈ db₄.ulog, p.2.sha ≠ e'.sha) :
    ∃ db₅, e'.save (fun _ => none) false db₄ = (none, db₅, { e' with pk := some (db₄.ulogSeq + 1) }) := by
  have hr4 : Reach db₄ :=
    (((hr : Later _ _).trans (later_save hs)).trans hl |>.step _ _ _ (.delete _ _ _ _ hd)).trans hl₃
  have h1 := C38_loads_stored H fuel cfg hr hreg hs hk hl hm
  rw [he] at h1
  injection h1 with h1
  subst h1
  unfold DbObj.delete at hd
  cases hd
  obtain ⟨c, hc, hn⟩ := dbRows_total (sha := o.sha) (regular_fromDb hreg) (holdable_fromDb hf)
  exact save_total (reach_inv hr4) rfl hnew hc hn

/-- The digest of a log is free after it was deleted. -/
theorem C64_deleted {H : Bytes → Str} {fuel : Nat} {cfg : Cfg} {lazy : Bool} {e e' : DbObj} {db db' : DB} {k : Nat}
    (hr : Reach db) (he : construct H fuel cfg db (some k) none lazy = .ok e) (hd : e.delete db = .ok (db', e')) :
    ∀ p ∈ db'.ulog, p.2.sha ≠ e'.sha := by
  obtain ⟨hpk, _, hload⟩ := construct_load he
  unfold DbObj.delete at hd
  rw [hpk] at hd
  cases hd
  intro p hp hsha
  obtain ⟨hp1, hp2⟩ := List.mem_filter.mp hp
  unfold dbLoad at hload
  split at hload
  · cases hload
  · split at hload
    · cases hload
    · rename_i k' row hfind
      obtain ⟨dl, _, h2⟩ := except_bind_ok.mp hload
      have hs : row.sha = e.sha := congrArg Prod.fst (Except.ok.inj h2)
      have hmem := List.mem_of_find?_eq_some hfind
      have hk : k' = k := by simpa using List.find?_some hfind
      have := (pkFromSha_some (reach_inv hr) (sha := e.sha) (k := p.1)).mpr ⟨p.2, hp1, hsha⟩
      rw [(pkFromSha_some (reach_inv hr) (sha := e.sha) (k := k')).mpr ⟨row, hmem, hs⟩] at this
      have : k' = p.1 := Option.some.inj this
      simp [← this, hk] at hp2

/-- Deleting is refused exactly for an object that is not stored, with a KeyError; so it is for one that was
just deleted. -/
theorem C64_delete_unsaved (o : DbObj) (db : DB) :
    (∀ x, o.delete db = .error x ↔ o.pk = none ∧ x = .keyError) ∧
      ∀ db' o' db'' x, o.delete db = .ok (db', o') → (o'.delete db'' = .error x ↔ x = .keyError) := by
  have h : ∀ (o : DbObj) db x, o.delete db = .error x ↔ o.pk = none ∧ x = .keyError := by
    intro o db x
    unfold DbObj.delete
    cases o.pk with
    | none => exact ⟨fun h => ⟨rfl, (Except.error.inj h).symm⟩, fun h => by rw [h.2]⟩
    | some k => exact ⟨fun h => (by cases h), fun h => (by cases h.1)⟩
  refine ⟨h o db, fun db' o' db'' x hd => ?_⟩
  rw [h]
  have : o'.pk = none := by
    unfold DbObj.delete at hd
    cases hp : o.pk with
    | none => rw [hp] at hd; cases hd
    | some k => rw [hp] at hd; cases hd; rfl
  simp [this]

/-- the stored sample log: load, delete, save, load again; 110 and 115 are the timestamps of topic `a` -/
example : ∀ lazy, (match construct Sample.hash 20 {} Sample.db1 (some 1) none lazy with
    | .ok e => (match e.delete Sample.db1 with
      | .ok (d, e') => (match e'.save Sample.noFault false d with
        | (none, d', e'') => (match e''.pk, construct Sample.hash 20 {} d' e''.pk none false with
          | some 2, .ok r => decide (r.log.dataList.map (fun d => d.data.get? (py! "timestamp")) =
              if lazy then [none, none] else [some [.int 110, .int 115], some [.int 120]])
          | _, _ => false)
        | _ => false)
      | .error _ => false)
    | _ => false) = true := by decide +kernel

/-! ### C65 -/

theorem get?_foldl_set {κ α : Type} [DecidableEq κ] : ∀ (ps : List (κ × α)) (acc : Dict κ α) (k : κ),
    Dict.get? (ps.foldl (fun j p => Dict.set j p.1 p.2) acc) k =
      ((ps.reverse.find? fun p => decide (p.1 = k)).map (·.2)).or (Dict.get? acc k)
  | [], acc, k => rfl
  | p :: ps, acc, k => by
    rw [List.foldl_cons, get?_foldl_set ps, List.reverse_cons, List.find?_append, Dict.get?_set]
    cases ps.reverse.find? fun p => decide (p.1 = k) with
    | some q => rfl
    | none =>
      by_cases h : p.1 = k
      · simp [h]
      · simp [h]

theorem jsonOf_spec {d : Dataset} {vals : List NpVal} {j : Dict Int NpVal} (h : jsonOf d vals = .ok j) :
    ∃ ts, d.data.get? (py! "timestamp") = some ts ∧
      ∀ t : Int, j.get? t = ((ts.zip vals).reverse.find? fun q => decide (q.1 = .int t)).map (·.2) := by
  unfold jsonOf at h
  obtain ⟨ts, h1, h⟩ := except_bind_ok.mp h
  obtain ⟨keys, h2, h⟩ := except_bind_ok.mp h
  simp only at h
  split at h
  · cases h
  · cases h
    refine ⟨ts, ?_, ?_⟩
    · unfold dictGet at h1
      split at h1 <;> cases h1
      assumption
    · intro t
      have e : keys.map NpVal.int = ts := by
        have := mapM_map_eq (h := NpVal.int) (g := id) (fun x _ y hy => by
          cases x with
          | int n => cases hy; rfl
          | _ => cases hy) h2
        simpa using this
      rw [get?_foldl_set, ← e, List.zip_map_left, ← List.map_reverse, List.find?_map, Option.map_map]
      have : (fun (q : NpVal × NpVal) => decide (q.1 = NpVal.int t)) ∘ Prod.map NpVal.int id =
          fun p : Int × NpVal => decide (p.1 = t) := by
        funext p
        simp
      rw [this]
      have e2 : (fun x : NpVal × NpVal => x.2) ∘ Prod.map NpVal.int id = fun p : Int × NpVal => p.2 := rfl
      rw [e2]
      exact Option.or_none

/-- the JSON of a stored field -/
theorem fieldRow_json {d : Dataset} {f : FieldData} {r : FieldRow} (h : fieldRow true d f = .ok r) :
    ∃ col j, d.data.get? f.name = some col ∧ jsonOf d col = .ok j ∧ r.json = some j ∧
      fieldRow false d f = .ok { r with json := none } := by
  unfold fieldRow at h
  obtain ⟨col, h1, h⟩ := except_bind_ok.mp h
  obtain ⟨b, h2, h⟩ := except_bind_ok.mp h
  obtain ⟨j, h3, h⟩ := except_bind_ok.mp (show (Except.map some (jsonOf d col) >>= _) = .ok r from h)
  cases h
  cases hj : jsonOf d col with
  | error e => rw [hj] at h3; cases h3
  | ok j' =>
    rw [hj] at h3
    cases h3
    refine ⟨col, j', ?_, hj, rfl, ?_⟩
    · unfold dictGet at h1
      split at h1 <;> cases h1
      assumption
    · unfold fieldRow
      rw [h1]
      show (npBytes f.type col >>= fun _ => _) = _
      rw [h2]
      rfl

/-- With `append_json=True` every stored column has a JSON object that maps each timestamp of the dataset to
the value of the column in the last row with this timestamp. -/
theorem C65_json_partial {fault : Nat → Option PyErr} {o o' : DbObj} {db db' : DB} {k : Nat} (hr : Reach db)
    (hs : o.save fault true db = (none, db', o')) (hk : o'.pk = some k) :
    ∀ p ∈ (content db' k).datasets, ∀ r ∈ p.2, ∃ d ∈ o.log.dataList, ∃ f ∈ d.fields,
      p.1.name = d.name ∧ p.1.multiId = d.multiId ∧ r.name = f.name ∧
      ∃ ts vals j, d.data.get? (py! "timestamp") = some ts ∧ d.data.get? f.name = some vals ∧ r.json = some j ∧
        ∀ t : Int, j.get? t = ((ts.zip vals).reverse.find? fun q => decide (q.1 = .int t)).map (·.2) := by
  obtain ⟨c, hc⟩ := save_ok hs
  rw [hc.obj] at hk
  cases hk
  rw [hc.content (reach_inv hr)]
  simp only [if_true]
  obtain ⟨row, _, _, _, h2, _⟩ := dbRows_iff.mp hc.rows
  intro p hp r hrm
  obtain ⟨d, hd, h3⟩ := mapM_mem h2 hp
  obtain ⟨x, h4, h3⟩ := except_bind_ok.mp h3
  obtain ⟨y, h5, h3⟩ := except_bind_ok.mp h3
  cases h3
  obtain ⟨f, hf, h6⟩ := mapM_mem h5 hrm
  obtain ⟨col, j, h7, h8, h9, _⟩ := fieldRow_json h6
  obtain ⟨_, _, e3, _⟩ := fieldRow_eq h6
  obtain ⟨ts, h10, h11⟩ := jsonOf_spec h8
  rw [datasetRow_eq h4]
  exact ⟨d, hd, f, hf, rfl, rfl, e3, ts, col, j, h10, h7, h9, h11⟩

/-- Apart from the JSON column, the same rows are stored as without `append_json`. -/
theorem C65_same_rows_partial {fault fault' : Nat → Option PyErr} {o o₁ o₂ : DbObj} {db db₁ db₂ : DB} (hr : Reach db)
    (h₁ : o.save fault true db = (none, db₁, o₁)) (h₂ : o.save fault' false db = (none, db₂, o₂)) :
    o₁ = o₂ ∧ ∀ k, content db₂ k = if o₁.pk = some k then { content db₁ k with
      datasets := (content db₁ k).datasets.map fun p => (p.1, p.2.map fun r => { r with json := none }) }
      else content db₁ k := by
  obtain ⟨c₁, hc₁⟩ := save_ok h₁
  obtain ⟨c₂, hc₂⟩ := save_ok h₂
  refine ⟨hc₁.obj.trans hc₂.obj.symm, ?_⟩
  intro k
  rw [hc₁.content (reach_inv hr), hc₂.content (reach_inv hr), hc₁.obj]
  by_cases hk : k = db.ulogSeq + 1
  · subst hk
    simp only [if_true]
    obtain ⟨r1, a0, a1, a2, a3, a4, a5, a6, a7, a8, a9, a10, a11, a12⟩ := dbRows_iff.mp hc₁.rows
    obtain ⟨r2, b0, b1, b2, b3, b4, b5, b6, b7, b8, b9, b10, b11, b12⟩ := dbRows_iff.mp hc₂.rows
    rw [a0] at b0; cases b0
    have e3 : c₂.datasets = c₁.datasets.map fun p => (p.1, p.2.map fun r => { r with json := none }) := by
      have := mapM_weaken (k := fun p : DsRow × List FieldRow =>
        (p.1, p.2.map fun r : FieldRow => { r with json := none })) (g := fun d => do
          return (← datasetRow d, ← d.fields.mapM (fieldRow false d))) a3 (by
        intro d _ y hy
        obtain ⟨x, h4, h3⟩ := except_bind_ok.mp hy
        obtain ⟨z, h5, h3⟩ := except_bind_ok.mp h3
        cases h3
        have h6 := mapM_weaken (k := fun r : FieldRow => { r with json := none }) (g := fieldRow false d) h5
          fun f _ r hr => by
            obtain ⟨_, _, _, _, _, h⟩ := fieldRow_json hr
            exact h
        show (datasetRow d >>= fun _ => _) = _
        rw [h4]
        show (d.fields.mapM (fieldRow false d) >>= fun _ => _) = _
        rw [h6]
        rfl)
      exact Except.ok.inj (b3.symm.trans this)
    apply content_ext
    · rw [b1, a1]
    · exact Except.ok.inj (b2.symm.trans a2)
    · exact e3
    · exact Except.ok.inj (b4.symm.trans a4)
    · exact Except.ok.inj (b5.symm.trans a5)
    · exact Except.ok.inj (b6.symm.trans a6)
    · exact Except.ok.inj (b7.symm.trans a7)
    · exact Except.ok.inj (b8.symm.trans a8)
    · exact Except.ok.inj (b9.symm.trans a9)
    · exact Except.ok.inj (b10.symm.trans a10)
    · exact Except.ok.inj (b11.symm.trans a11)
    · exact Except.ok.inj (b12.symm.trans a12)
  · rw [if_neg hk, if_neg hk, if_neg]
    intro e
    exact hk (Option.some.inj e).symm

/-- the sample log can be stored with JSON -/
example : ((Sample.fileObj Sample.clean).save Sample.noFault true {}).1 = none ∧
    (((content ((Sample.fileObj Sample.clean).save Sample.noFault true {}).2.1 1).datasets.flatMap (·.2)).map (·.json))[1]?
      = some (some [(110, .int 7), (115, .int (-9))]) := by decide +kernel

/-- `append_json=True` can make `save` fail: with -∞ among the samples, and for a topic without timestamp. -/
theorem C65_json_fails :
    (∃ u, load 20 {} Sample.negInf = .ok u ∧
      ((Sample.fileObj Sample.negInf).save Sample.noFault false {}).1 = none ∧
      ((Sample.fileObj Sample.negInf).save Sample.noFault true {}).1 = some .operationalError) ∧
    (∃ u, load 20 {} Sample.noTime = .ok u ∧
      ((Sample.fileObj Sample.noTime).save Sample.noFault false {}).1 = none ∧
      ((Sample.fileObj Sample.noTime).save Sample.noFault true {}).1 = some .keyError) :=
  ⟨⟨Sample.get (load 20 {} Sample.negInf), by decide +kernel, by decide +kernel, by decide +kernel⟩,
    ⟨Sample.get (load 20 {} Sample.noTime), by decide +kernel, by decide +kernel, by decide +kernel⟩⟩

/-! ### C66 -/

/-- An object made with the default `lazy=True` cannot be written, also when it was made from a file and has
all its datasets. -/
theorem C66_lazy_raises {H : Bytes → Str} {fuel : Nat} {cfg : Cfg} {db : DB} {pk : Option Nat} {file : Option FileArg}
    {o : DbObj} (h : construct H fuel cfg db pk file true = .ok o) : o.writeUlog = .error .valueError := by
  have : o.lazyLoaded = true := by
    unfold construct at h
    split at h
    · cases h
    · split at h
      · cases h
      · cases h
      · split at h
        · cases h
        · split at h <;> cases h
          rfl
      · split at h <;> cases h
        rfl
  unfold DbObj.writeUlog
  rw [this]
  rfl

theorem packScalar_back (t : BT) {v : Value} : packScalar t (backV v) = packScalar t v := by
  cases v with
  | bool b => cases t <;> cases b <;> rfl
  | _ => rfl

theorem infoData_back (key : Str) {v : Value} (ty : Str) (c : Option Bool) :
    infoData key (backV v) ty c = infoData key v ty c := by
  have : infoValueBytes ty (backV v) = infoValueBytes ty v := by
    unfold infoValueBytes
    split
    · cases v <;> rfl
    · split
      · cases v <;> rfl
      · split
        · exact packScalar_back _
        · rfl
  unfold infoData
  rw [this]

theorem paramData_back (name : Str) {v : Value} : paramData name (backV v) = paramData name v := by
  cases v with
  | bool b =>
    exact infoData_back (v := .bool b) (py! "int32_t" ++ py! " " ++ name) (py! "int32_t") none
  | _ => rfl

/-- writing does not see what the database changes -/
theorem writeUlog_back {u : ULog} (hf : ∀ p ∈ u.formats, p.2.fields ≠ [])
    (ht : ∀ p ∈ u.infoMulti, ∀ l ∈ p.2, ∀ v ∈ l, (∃ s, v = .str s) ∨ ∃ b, v = .bytes b) :
    writeUlog (backLog u) = writeUlog u := by
  have e1 : writeFormats (backLog u) = writeFormats u := by
    unfold writeFormats
    have : (backLog u).formats = u.formats := by
      show u.formats.filter _ = u.formats
      rw [List.filter_eq_self]
      intro p hp
      have := hf p hp
      cases h : p.2.fields
      · exact absurd h this
      · rfl
    rw [this]
  have e2 : writeInfos (backLog u) = writeInfos u := by
    unfold writeInfos
    show concatM ((Dict.mapVals backV u.info).map _) = _
    unfold Dict.mapVals
    rw [List.map_map]
    congr 1
    apply List.map_congr_left
    intro p _
    show (match u.infoTypes.get? p.1 with
      | none => Except.error PyErr.keyError
      | some ty => do
        let d ← infoData (ty ++ py! " " ++ p.1) (backV p.2) ty none
        frame MSG_TYPE_INFO d) = match u.infoTypes.get? p.1 with
      | none => Except.error PyErr.keyError
      | some ty => do
        let d ← infoData (ty ++ py! " " ++ p.1) p.2 ty none
        frame MSG_TYPE_INFO d
    simp only [infoData_back]
  have e3 : writeInfoMulti (backLog u) = writeInfoMulti u := by
    have : (backLog u).infoMulti = u.infoMulti := by
      show u.infoMulti.map _ = u.infoMulti
      conv => rhs; rw [← List.map_id u.infoMulti]
      apply List.map_congr_left
      intro p hp
      have : List.map (List.map backT) p.2 = p.2 := by
        conv => rhs; rw [← List.map_id p.2]
        apply List.map_congr_left
        intro l hl
        conv => rhs; rw [id, ← List.map_id l]
        apply List.map_congr_left
        intro v hv
        rcases ht p hp l hl v hv with ⟨s, rfl⟩ | ⟨b, rfl⟩ <;> rfl
      rw [this]
      rfl
    unfold writeInfoMulti
    rw [this]
    rfl
  have e4 : writeInitialParams (backLog u) = writeInitialParams u := by
    unfold writeInitialParams
    show concatM ((Dict.mapVals backV u.initialParams).map _) = _
    unfold Dict.mapVals
    rw [List.map_map]
    congr 1
    apply List.map_congr_left
    intro p _
    show (paramData p.1 (backV p.2) >>= _) = _
    rw [paramData_back]
  have e5 : writeDefaultParams (backLog u) = writeDefaultParams u := by
    unfold writeDefaultParams
    show concatM ((Dict.mapVals (Dict.mapVals backV) u.defaultParams).map _) = _
    unfold Dict.mapVals
    rw [List.map_map]
    congr 1
    apply List.map_congr_left
    intro p _
    show concatM ((p.2.map fun q => (q.1, backV q.2)).map _) = _
    rw [List.map_map]
    congr 1
    apply List.map_congr_left
    intro q _
    show (packU 1 (1 <<< p.1) >>= fun m => paramData q.1 (backV q.2) >>= _) = _
    rw [paramData_back]
  have e6 : writeDataSection (backLog u) = writeDataSection u := by
    have : (backLog u).changedParams.mapM changedItem = u.changedParams.mapM changedItem := by
      show (u.changedParams.map _).mapM changedItem = _
      rw [List.mapM_map]
      congr 1
      funext p
      show changedItem (p.1, p.2.1, backV p.2.2) = changedItem p
      unfold changedItem
      simp only [paramData_back]
    unfold writeDataSection allItems
    rw [this]
    rfl
  unfold writeUlog
  rw [e1, e2, e3, e4, e5, e6]
  rfl

/-- The log of a file, saved and loaded eagerly, writes the file that the log itself writes, provided that its
formats have fields, its info-multiple values are texts and it has no NaN. -/
theorem C66_write_same_partial {H : Bytes → Str} {fuel : Nat} {cfg : Cfg} {fault : Nat → Option PyErr}
    {json lazy : Bool} {o o' : DbObj} {db db' db'' : DB} {k : Nat} {bs : Bytes} {u : ULog} (hr : Reach db)
    (ho : construct H fuel cfg db none (some (.name bs)) lazy = .ok o) (hu : load fuel cfg bs = .ok u)
    (hs : o.save fault json db = (none, db', o')) (hk : o'.pk = some k) (hl : Later db' db'')
    (hm : k ∈ db''.ulog.map (·.1)) (hf : ∀ p ∈ u.formats, p.2.fields ≠ [])
    (ht : ∀ p ∈ u.infoMulti, ∀ l ∈ p.2, ∀ v ∈ l, (∃ s, v = .str s) ∨ ∃ b, v = .bytes b) (hn : ¬ HasNaN u) :
    ∃ r, construct H fuel cfg db'' (some k) none false = .ok r ∧ r.writeUlog = writeUlog u := by
  obtain ⟨u', hu', hlog, _, _, _⟩ := construct_file ho
  rw [hu] at hu'
  cases hu'
  have hreg : Regular o.log := by rw [hlog]; exact load_regular hu (save_named hu hlog hs)
  refine ⟨_, C38_loads_stored H fuel cfg hr hreg hs hk hl hm, ?_⟩
  have hno : NoNone u := by
    refine ⟨?_, ?_, ?_, ?_, ?_⟩
    · intro p hp h; exact hn (.inl ⟨p, hp, h⟩)
    · intro p hp l hl v hv h; exact hn (.inr (.inl ⟨p, hp, l, hl, v, hv, h⟩))
    · intro p hp h; exact hn (.inr (.inr (.inl ⟨p, hp, h⟩)))
    · intro p hp q hq h; exact hn (.inr (.inr (.inr (.inl ⟨p, hp, q, hq, h⟩))))
    · intro p hp h; exact hn (.inr (.inr (.inr (.inr ⟨p, hp, h⟩))))
  show writeUlog (fromDb o.log).noNone = _
  rw [hlog, noNone_of_toULog (toULog_back hno)]
  exact writeUlog_back hf ht

/-- the sample log can be written after it came from the database, and not when it was made from the file with
the default arguments -/
example : (match construct Sample.hash 20 {} Sample.db2 (some 1) none false with
    | .ok r => decide (r.writeUlog.toOption = (writeUlog (Sample.get (load 20 {} Sample.clean))).toOption) &&
      r.writeUlog.toOption.isSome
    | _ => false) = true ∧
    (match (Sample.fileObj Sample.clean).writeUlog with
    | .error e => decide (e = .valueError)
    | .ok _ => false) = true := by decide +kernel

end PyULog
