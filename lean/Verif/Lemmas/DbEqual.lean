import Verif.Lemmas.DbRegular
import Verif.Props.Equal
/-
Helper lemmas: comparison of a log with what the database gives back.
-/
namespace PyULog
open Spec

theorem omapM_some {α β : Type} {f : α → Option β} {g : α → β} : ∀ {l : List α}, (∀ x ∈ l, f x = some (g x)) →
    l.mapM f = some (l.map g)
  | [], _ => rfl
  | x :: l, h => by
    rw [List.mapM_cons, h x List.mem_cons_self, omapM_some fun y hy => h y (List.mem_cons_of_mem _ hy)]
    rfl

theorem omapM_mem {α β : Type} {f : α → Option β} : ∀ {l : List α} {ys : List β}, l.mapM f = some ys → ∀ x ∈ l,
    ∃ y, f x = some y
  | [], _, _, x, hx => by cases hx
  | a :: l, ys, h, x, hx => by
    rw [List.mapM_cons] at h
    cases ha : f a with
    | none => rw [ha] at h; cases h
    | some b =>
      rw [ha] at h
      rcases List.mem_cons.mp hx with rfl | hx
      · exact ⟨b, ha⟩
      · cases hl : l.mapM f with
        | none => rw [hl] at h; cases h
        | some bs => exact omapM_mem hl x hx

theorem get?_mapVals {κ α β : Type} [DecidableEq κ] (f : α → β) (d : Dict κ α) (k : κ) :
    (d.mapVals f).get? k = (d.get? k).map f := by
  unfold Dict.mapVals
  induction d with
  | nil => rfl
  | cons p d ih =>
    obtain ⟨a, b⟩ := p
    rw [List.map_cons, Dict.get?_cons, Dict.get?_cons, ih]
    split <;> rfl

theorem sameMap_mapVals {κ α : Type} [DecidableEq κ] {R : α → α → Prop} {f : α → α} {d : Dict κ α} (hd : DictOk d) :
    SameMap R d (d.mapVals f) ↔ ∀ p ∈ d, R p.2 (f p.2) := by
  constructor
  · rintro ⟨h, _⟩ ⟨k, x⟩ hp
    have hx := Dict.get?_of_mem _ _ _ hd hp
    obtain ⟨y, hy, hr⟩ := h k x hx
    rw [get?_mapVals, hx] at hy
    cases hy
    exact hr
  · intro h
    refine ⟨fun k x hx => ⟨f x, by rw [get?_mapVals, hx]; rfl, h _ (Dict.mem_of_get? _ _ _ hx)⟩, fun k hk => ?_⟩
    rw [get?_mapVals, hk]
    rfl

theorem sameList_map {α : Type} {R : α → α → Prop} {f : α → α} {a : List α} :
    SameList R a (a.map f) ↔ ∀ x ∈ a, R x (f x) := by
  constructor
  · rintro ⟨_, h⟩ x hx
    obtain ⟨i, hi⟩ := List.getElem?_of_mem hx
    exact h i x (f x) hi (by rw [List.getElem?_map, hi]; rfl)
  · intro h
    refine ⟨(List.length_map ..).symm, fun i x y hx hy => ?_⟩
    rw [List.getElem?_map, hx] at hy
    cases hy
    exact h _ (List.mem_of_getElem? hx)

/-- a value that is not NaN, out of the database -/
def backV : Value → Value
  | .bool b => .int (if b then 1 else 0)
  | v => v

/-- a value of a text column that is not NaN, out of the database -/
def backT : Value → Value
  | .int n => .str (intDec n)
  | .bool b => .str (if b then py! "1" else py! "0")
  | .float x => .str (realText x)
  | v => v

theorem valueBack_some {v : Value} (h : ¬ NaNValue v) : valueBack (some v) = some (backV v) := by
  cases v with
  | float b =>
    show (if exp64 b = 2047 ∧ frac64 b ≠ 0 then none else _) = _
    rw [if_neg fun e => h ⟨b, rfl, e.1, e.2⟩]
    rfl
  | _ => rfl

theorem valueBack_none {v : Value} {w : Value} (h : valueBack (some v) = some w) : ¬ NaNValue v := by
  rintro ⟨b, rfl, e1, e2⟩
  have h : (if exp64 b = 2047 ∧ frac64 b ≠ 0 then none else some (Value.float b)) = some w := h
  rw [if_pos ⟨e1, e2⟩] at h
  cases h

theorem textBack_some {v : Value} (h : ¬ NaNValue v) : textBack (some v) = some (backT v) := by
  cases v with
  | float b =>
    show (if exp64 b = 2047 ∧ frac64 b ≠ 0 then none else _) = _
    rw [if_neg fun e => h ⟨b, rfl, e.1, e.2⟩]
    rfl
  | _ => rfl

theorem textBack_none {v : Value} {w : Value} (h : textBack (some v) = some w) : ¬ NaNValue v := by
  rintro ⟨b, rfl, e1, e2⟩
  have h : (if exp64 b = 2047 ∧ frac64 b ≠ 0 then none else some (Value.str (realText b))) = some w := h
  rw [if_pos ⟨e1, e2⟩] at h
  cases h

/-- the log that the database gives back when no value is `None` -/
def backLog (u : ULog) : ULog where
  fileCorrupt := false
  startTs := u.startTs
  lastTs := u.lastTs
  info := u.info.mapVals backV
  infoTypes := u.infoTypes
  infoMulti := u.infoMulti.mapVals (List.map (List.map backT))
  infoMultiTypes := u.infoMultiTypes
  initialParams := u.initialParams.mapVals backV
  defaultParams := u.defaultParams.mapVals (Dict.mapVals backV)
  changedParams := u.changedParams.map fun p => (p.1, p.2.1, backV p.2.2)
  formats := u.formats.filter fun p => !p.2.fields.isEmpty
  logged := u.logged
  tagged := u.tagged
  dropouts := u.dropouts
  dataList := u.dataList
  subs := []
  filteredIds := []
  missingIds := []
  fileVersion := u.fileVersion
  compat := u.compat
  incompat := u.incompat
  appendedOffsets := u.appendedOffsets
  hasSync := u.hasSync
  syncCnt := u.syncCnt

/-- no value becomes `None` -/
structure NoNone (u : ULog) : Prop where
  info : ∀ p ∈ u.info, ¬ NaNValue p.2
  multi : ∀ p ∈ u.infoMulti, ∀ l ∈ p.2, ∀ v ∈ l, ¬ NaNValue v
  initial : ∀ p ∈ u.initialParams, ¬ NaNValue p.2
  defaults : ∀ p ∈ u.defaultParams, ∀ q ∈ p.2, ¬ NaNValue q.2
  changed : ∀ c ∈ u.changedParams, ¬ NaNValue c.2.2

theorem mapValsM_back {d : Dict κ Value} (h : ∀ p ∈ d, ¬ NaNValue p.2) :
    Dict.mapValsM id ((d.mapVals some).map fun p => (p.1, valueBack p.2)) = some (d.mapVals backV) := by
  unfold Dict.mapValsM Dict.mapVals
  rw [List.map_map, List.mapM_map]
  refine omapM_some fun p hp => ?_
  show (valueBack (some p.2)).map _ = _
  rw [valueBack_some (h p hp)]
  rfl

theorem toULog_back {u : ULog} (h : NoNone u) : (fromDb (DbLog.ofULog u)).toULog = some (backLog u) := by
  have e1 := mapValsM_back h.info
  have e3 := mapValsM_back h.initial
  have e2 : Dict.mapValsM (fun v => v.mapM fun w => w.mapM id)
      ((u.infoMulti.mapVals (List.map (List.map some))).map fun p => (p.1, p.2.map (List.map textBack))) =
      some (u.infoMulti.mapVals (List.map (List.map backT))) := by
    unfold Dict.mapValsM Dict.mapVals
    rw [List.map_map, List.mapM_map]
    refine omapM_some fun p hp => ?_
    show (List.mapM (fun w => List.mapM id w) ((p.2.map (List.map some)).map (List.map textBack))).map _ = _
    rw [List.map_map, List.mapM_map, omapM_some (g := List.map backT) fun l hl => ?_]
    · rfl
    · show List.mapM id ((l.map some).map textBack) = _
      rw [List.map_map, List.mapM_map]
      exact omapM_some fun v hv => textBack_some (h.multi p hp l hl v hv)
  have e4 : Dict.mapValsM (fun d => Dict.mapValsM id d)
      ((u.defaultParams.mapVals (Dict.mapVals some)).map fun p => (p.1, p.2.map fun q => (q.1, valueBack q.2))) =
      some (u.defaultParams.mapVals (Dict.mapVals backV)) := by
    unfold Dict.mapValsM Dict.mapVals
    rw [List.map_map, List.mapM_map]
    refine omapM_some fun p hp => ?_
    have := mapValsM_back (h.defaults p hp)
    show (Dict.mapValsM id ((p.2.mapVals some).map fun q => (q.1, valueBack q.2))).map _ = _
    rw [this]
    rfl
  have e5 : ((u.changedParams.map fun p => (p.1, p.2.1, some p.2.2)).map fun p => (p.1, p.2.1, valueBack p.2.2)).mapM
      (fun p => p.2.2.map fun v => (p.1, p.2.1, v)) = some (u.changedParams.map fun p => (p.1, p.2.1, backV p.2.2)) := by
    rw [List.map_map, List.mapM_map]
    refine omapM_some fun p hp => ?_
    show (valueBack (some p.2.2)).map _ = _
    rw [valueBack_some (h.changed p hp)]
    rfl
  unfold DbLog.toULog
  simp only [fromDb, DbLog.ofULog, e1, e2, e3, e4, e5]
  rfl

theorem omapM_getD {α β : Type} {f : α → Option β} {g : α → β} (hfg : ∀ a b, f a = some b → g a = b) :
    ∀ {l : List α} {ys : List β}, l.mapM f = some ys → l.map g = ys
  | [], ys, h => by cases h; rfl
  | a :: l, ys, h => by
    rw [List.mapM_cons] at h
    cases ha : f a with
    | none => rw [ha] at h; cases h
    | some b =>
      rw [ha] at h
      cases hl : l.mapM f with
      | none => rw [hl] at h; cases h
      | some bs =>
        rw [hl] at h
        cases h
        rw [List.map_cons, hfg a b ha, omapM_getD hfg hl]

theorem mapValsM_getD {κ α β : Type} {f : α → Option β} {g : κ × α → β} (hfg : ∀ p b, f p.2 = some b → g p = b)
    {d : Dict κ α} {e : Dict κ β} (h : Dict.mapValsM f d = some e) : d.map (fun p => (p.1, g p)) = e := by
  unfold Dict.mapValsM at h
  refine omapM_getD (fun p b hb => ?_) h
  cases hp : f p.2 with
  | none => rw [hp] at hb; cases hb
  | some v => rw [hp] at hb; cases hb; rw [hfg p v hp]

theorem noNone_of_toULog {l : DbLog} {u : ULog} (h : l.toULog = some u) : l.noNone = u := by
  unfold DbLog.toULog at h
  simp only [Option.bind_eq_bind, Option.bind_eq_some_iff] at h
  obtain ⟨a1, h1, a2, h2, a3, h3, a4, h4, a5, h5, h6⟩ := h
  cases h6
  have hid : ∀ (w v : Value) (x : DVal), id x = some v → x.getD w = v := by
    intro w v x hx; rw [show x = some v from hx]; rfl
  unfold DbLog.noNone
  congr 1
  · exact mapValsM_getD (fun p b hb => hid _ _ _ hb) h1
  · refine mapValsM_getD (fun p b hb => ?_) h2
    exact omapM_getD (fun x y hy => omapM_getD (fun z t ht => hid _ _ _ ht) hy) hb
  · exact mapValsM_getD (fun p b hb => hid _ _ _ hb) h3
  · exact mapValsM_getD (fun p b hb => mapValsM_getD (fun q c hc => hid _ _ _ hc) hb) h4
  · refine omapM_getD (fun p b hb => ?_) h5
    cases hp : p.2.2 with
    | none => rw [hp] at hb; cases hb
    | some v => rw [hp] at hb; cases hb; rfl

theorem mapValsM_noNaN {d : Dict κ Value} {e : Dict κ Value}
    (h : Dict.mapValsM id ((d.mapVals some).map fun p => (p.1, valueBack p.2)) = some e) : ∀ p ∈ d, ¬ NaNValue p.2 := by
  intro p hp
  unfold Dict.mapValsM Dict.mapVals at h
  rw [List.map_map, List.mapM_map] at h
  obtain ⟨y, hy⟩ := omapM_mem h p hp
  have hy : (valueBack (some p.2)).map _ = some y := hy
  cases hv : valueBack (some p.2) with
  | none => rw [hv] at hy; cases hy
  | some w => exact valueBack_none hv

theorem toULog_noNone {u v : ULog} (h : (fromDb (DbLog.ofULog u)).toULog = some v) : NoNone u := by
  unfold DbLog.toULog at h
  simp only [fromDb, DbLog.ofULog, Option.bind_eq_bind, Option.bind_eq_some_iff] at h
  obtain ⟨a1, h1, a2, h2, a3, h3, a4, h4, a5, h5, -⟩ := h
  refine ⟨mapValsM_noNaN h1, ?_, mapValsM_noNaN h3, ?_, ?_⟩
  · intro p hp l hl v hv
    unfold Dict.mapValsM Dict.mapVals at h2
    rw [List.map_map, List.mapM_map] at h2
    obtain ⟨y, hy⟩ := omapM_mem h2 p hp
    have hy : (List.mapM (fun w => List.mapM id w) ((p.2.map (List.map some)).map (List.map textBack))).map _ = some y := hy
    cases hm : List.mapM (fun w => List.mapM id w) ((p.2.map (List.map some)).map (List.map textBack)) with
    | none => rw [hm] at hy; cases hy
    | some z =>
      rw [List.map_map, List.mapM_map] at hm
      obtain ⟨y', hy'⟩ := omapM_mem hm l hl
      have hy' : List.mapM id ((l.map some).map textBack) = some y' := hy'
      rw [List.map_map, List.mapM_map] at hy'
      obtain ⟨y'', hy''⟩ := omapM_mem hy' v hv
      exact textBack_none hy''
  · intro p hp
    unfold Dict.mapValsM Dict.mapVals at h4
    rw [List.map_map, List.mapM_map] at h4
    obtain ⟨y, hy⟩ := omapM_mem h4 p hp
    have hy : (Dict.mapValsM id ((p.2.mapVals some).map fun q => (q.1, valueBack q.2))).map _ = some y := hy
    cases hm : Dict.mapValsM id ((p.2.mapVals some).map fun q => (q.1, valueBack q.2)) with
    | none => rw [hm] at hy; cases hy
    | some z => exact mapValsM_noNaN hm
  · intro c hc
    rw [List.map_map, List.mapM_map] at h5
    obtain ⟨y, hy⟩ := omapM_mem h5 c hc
    have hy : (valueBack (some c.2.2)).map _ = some y := hy
    cases hv : valueBack (some c.2.2) with
    | none => rw [hv] at hy; cases hy
    | some w => exact valueBack_none hv

theorem backV_same {v : Value} (h : ¬ NaNValue v) : SameValue v (backV v) := by
  cases v with
  | bool b =>
    refine Or.inr (Or.inr ⟨_, numOf_bool b, ?_⟩)
    cases b <;> rfl
  | _ => exact (sameValue_self _).mpr h

theorem backV_ok {v : Value} (h : ValueOk v) : ValueOk (backV v) := by
  cases v with
  | bool b => intro x e; cases e
  | _ => exact h

theorem backT_ok {v : Value} (h : ValueOk v) : ValueOk (backT v) := by
  cases v with
  | bool b => intro x e; cases e
  | int n => intro x e; cases e
  | float b => intro x e; cases e
  | _ => exact h

theorem backT_same (v : Value) :
    SameValue v (backT v) ↔ (∃ s, v = .str s) ∨ ∃ b, v = .bytes b := by
  cases v with
  | str s => exact ⟨fun _ => Or.inl ⟨s, rfl⟩, fun _ => Or.inl ⟨s, rfl, rfl⟩⟩
  | bytes s => exact ⟨fun _ => Or.inr ⟨s, rfl⟩, fun _ => Or.inr (Or.inl ⟨s, rfl, rfl⟩)⟩
  | float x =>
    constructor
    · rintro (⟨s, h1, h2⟩ | ⟨s, h1, h2⟩ | ⟨n, h1, h2⟩)
      · cases h1
      · cases h1
      · cases h2
    · rintro (⟨s, h⟩ | ⟨s, h⟩) <;> cases h
  | int n =>
    constructor
    · rintro (⟨s, h1, h2⟩ | ⟨s, h1, h2⟩ | ⟨n, h1, h2⟩)
      · cases h1
      · cases h1
      · cases h2
    · rintro (⟨s, h⟩ | ⟨s, h⟩) <;> cases h
  | bool b =>
    constructor
    · rintro (⟨s, h1, h2⟩ | ⟨s, h1, h2⟩ | ⟨n, h1, h2⟩)
      · cases h1
      · cases h1
      · cases h2
    · rintro (⟨s, h⟩ | ⟨s, h⟩) <;> cases h

theorem dictOk_mapVals {κ α β : Type} {f : α → β} {d : Dict κ α} (h : DictOk d) : DictOk (d.mapVals f) := by
  unfold DictOk Dict.keys
  rw [mapVals_keys]
  exact h

theorem backLog_dicts {u : ULog} (h : DictsOk u) : DictsOk (backLog u) where
  info := dictOk_mapVals h.info
  infoTypes := h.infoTypes
  infoMulti := dictOk_mapVals h.infoMulti
  infoMultiTypes := h.infoMultiTypes
  initial := dictOk_mapVals h.initial
  defaults := dictOk_mapVals h.defaults
  default := by
    intro p hp
    obtain ⟨q, hq, rfl⟩ := List.mem_map.mp hp
    exact dictOk_mapVals (h.default q hq)
  formats := h.formats.sublist (List.Sublist.map _ List.filter_sublist)
  tagged := h.tagged

theorem backLog_vals {u : ULog} (h : AllVals ValueOk u) : AllVals ValueOk (backLog u) where
  info := by
    intro p hp
    obtain ⟨q, hq, rfl⟩ := List.mem_map.mp hp
    exact backV_ok (h.info q hq)
  multi := by
    intro p hp l hl v hv
    obtain ⟨q, hq, rfl⟩ := List.mem_map.mp hp
    obtain ⟨m, hm, rfl⟩ := List.mem_map.mp hl
    obtain ⟨w, hw, rfl⟩ := List.mem_map.mp hv
    exact backT_ok (h.multi q hq m hm w hw)
  initial := by
    intro p hp
    obtain ⟨q, hq, rfl⟩ := List.mem_map.mp hp
    exact backV_ok (h.initial q hq)
  defaults := by
    intro p hp q hq
    obtain ⟨p', hp', rfl⟩ := List.mem_map.mp hp
    obtain ⟨q', hq', rfl⟩ := List.mem_map.mp hq
    exact backV_ok (h.defaults p' hp' q' hq')
  changed := by
    intro p hp
    obtain ⟨q, hq, rfl⟩ := List.mem_map.mp hp
    exact backV_ok (h.changed q hq)

theorem get?_filter_mem {κ α : Type} [DecidableEq κ] {d : Dict κ α} {f : κ × α → Bool} {k : κ} {x : α} (hd : DictOk d)
    (h : Dict.get? (d.filter f : Dict κ α) k = some x) : d.get? k = some x ∧ f (k, x) = true := by
  have := Dict.mem_of_get? _ _ _ h
  obtain ⟨h1, h2⟩ := List.mem_filter.mp this
  exact ⟨Dict.get?_of_mem _ _ _ hd h1, h2⟩

/-- the log read back from the database has the same content -/
theorem backLog_same {u : ULog} (hd : DictsOk u) (hn : NoNone u) : SameLog u (backLog u) ↔
    u.fileCorrupt = false ∧ u.filteredIds = [] ∧ u.missingIds = [] ∧ (∀ p ∈ u.formats, p.2.fields ≠ []) ∧
      ∀ p ∈ u.infoMulti, ∀ l ∈ p.2, ∀ v ∈ l, (∃ s, v = .str s) ∨ ∃ b, v = .bytes b := by
  constructor
  · intro h
    refine ⟨h.corrupt, ?_, ?_, ?_, ?_⟩
    · exact List.eq_nil_iff_forall_not_mem.mpr fun k hk => List.not_mem_nil ((h.filtered k).mp hk)
    · exact List.eq_nil_iff_forall_not_mem.mpr fun k hk => List.not_mem_nil ((h.missing k).mp hk)
    · rintro ⟨k, x⟩ hp e
      have hx := Dict.get?_of_mem _ _ _ hd.formats hp
      obtain ⟨y, hy, rfl⟩ := h.formats.1 k x hx
      have := (get?_filter_mem hd.formats hy).2
      simp only at e this
      rw [e] at this
      cases this
    · intro p hp l hl v hv
      have h1 := (sameMap_mapVals hd.infoMulti).mp h.infoMulti p hp
      have h2 := sameList_map.mp h1 l hl
      exact (backT_same v).mp (sameList_map.mp h2 v hv)
  · rintro ⟨h1, h2, h3, h4, h5⟩
    have hfm : (backLog u).formats = u.formats := by
      show u.formats.filter (fun p => !p.2.fields.isEmpty) = u.formats
      refine List.filter_eq_self.mpr fun p hp => ?_
      have := h4 p hp
      cases hf : p.2.fields with
      | nil => exact absurd hf this
      | cons f fs => rfl
    exact {
      corrupt := h1
      start := rfl
      last := rfl
      info := (sameMap_mapVals hd.info).mpr fun p hp => backV_same (hn.info p hp)
      infoTypes := (sameMap_self hd.infoTypes).mpr fun p hp => rfl
      infoMulti := (sameMap_mapVals hd.infoMulti).mpr fun p hp => sameList_map.mpr fun l hl => sameList_map.mpr
        fun v hv => (backT_same v).mpr (h5 p hp l hl v hv)
      infoMultiTypes := (sameMap_self hd.infoMultiTypes).mpr fun p hp => rfl
      initial := (sameMap_mapVals hd.initial).mpr fun p hp => backV_same (hn.initial p hp)
      defaults := (sameMap_mapVals hd.defaults).mpr fun p hp => (sameMap_mapVals (hd.default p hp)).mpr fun q hq =>
        backV_same (hn.defaults p hp q hq)
      changed := sameList_map.mpr fun c hc => ⟨rfl, rfl, backV_same (hn.changed c hc)⟩
      formats := by rw [hfm]; exact (sameMap_self hd.formats).mpr fun p hp => rfl
      logged := rfl
      tagged := (sameMap_self hd.tagged).mpr fun p hp => rfl
      dropouts := rfl
      data := sameList_self.mpr fun d hd => sameData_refl
      filtered := fun k => by rw [h2]; exact Iff.rfl
      missing := fun k => by rw [h3]; exact Iff.rfl
      version := rfl
      compat := rfl
      incompat := rfl
      appended := rfl
      hasSync := rfl
      syncCnt := rfl }

/-- comparison of a loaded log with what the database gives back -/
theorem eqDb_back {fuel : Nat} {cfg : Cfg} {bs : Bytes} {u : ULog} (h : load fuel cfg bs = .ok u) :
    eqDb u (fromDb (DbLog.ofULog u)) = true ↔
      (u.fileCorrupt = false ∧ u.filteredIds = [] ∧ u.missingIds = [] ∧ (∀ p ∈ u.formats, p.2.fields ≠ []) ∧
        ∀ p ∈ u.infoMulti, ∀ l ∈ p.2, ∀ v ∈ l, (∃ s, v = .str s) ∨ ∃ b, v = .bytes b) ∧ ¬ HasNaN u := by
  have hd := load_dicts h
  have hv := load_vals parsed_ok h
  have key : NoNone u → (eqDb u (fromDb (DbLog.ofULog u)) = true ↔ SameLog u (backLog u)) := by
    intro hn
    unfold eqDb
    rw [toULog_back hn]
    exact ulogEq_iff hd (backLog_dicts hd) hv (backLog_vals hv) (fun x hx y hy => C28_loaded h h x y hx hy) (load_subs h)
  constructor
  · intro he
    have hn : NoNone u := by
      cases ht : (fromDb (DbLog.ofULog u)).toULog with
      | none => unfold eqDb at he; rw [ht] at he; cases he
      | some v => exact toULog_noNone ht
    refine ⟨(backLog_same hd hn).mp ((key hn).mp he), ?_⟩
    rintro (⟨p, hp, e⟩ | ⟨p, hp, l, hl, v, hv, e⟩ | ⟨p, hp, e⟩ | ⟨p, hp, q, hq, e⟩ | ⟨c, hc, e⟩)
    · exact hn.info p hp e
    · exact hn.multi p hp l hl v hv e
    · exact hn.initial p hp e
    · exact hn.defaults p hp q hq e
    · exact hn.changed c hc e
  · rintro ⟨hs, hx⟩
    have hn : NoNone u := by
      refine ⟨fun p hp e => hx (Or.inl ⟨p, hp, e⟩), fun p hp l hl v hv e => hx (Or.inr (Or.inl ⟨p, hp, l, hl, v, hv, e⟩)),
        fun p hp e => hx (Or.inr (Or.inr (Or.inl ⟨p, hp, e⟩))),
        fun p hp q hq e => hx (Or.inr (Or.inr (Or.inr (Or.inl ⟨p, hp, q, hq, e⟩)))),
        fun c hc e => hx (Or.inr (Or.inr (Or.inr (Or.inr ⟨c, hc, e⟩))))⟩
    exact (key hn).mpr ((backLog_same hd hn).mpr hs)

end PyULog
