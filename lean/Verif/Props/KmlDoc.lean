import Verif.Props.Kml
import Verif.Props.Api
import Verif.Props.Filter
import Verif.Lemmas.Attitude
/-
The document that is exported: C36 (flight modes, line strings of every topic) and C76 (camera triggers).
-/
namespace PyULog
open Spec

/-! ### flight modes -/

/-- `d` is the first dataset with that name and instance 0 -/
def Spec.FirstOf (u : ULog) (name : Str) (d : Dataset) : Prop :=
  ∃ pre post, u.dataList = pre ++ d :: post ∧ d.name = name ∧ d.multiId = 0 ∧
    ∀ e ∈ pre, ¬ (e.name = name ∧ e.multiId = 0)

/-- no dataset has that name and instance 0 -/
def Spec.NoneOf (u : ULog) (name : Str) : Prop := ∀ d ∈ u.dataList, ¬ (d.name = name ∧ d.multiId = 0)

theorem firstOf_getDataset {u : ULog} {name : Str} {d : Dataset} :
    getDataset u name = .ok d ↔ FirstOf u name d := by
  rw [C25_get_dataset]
  unfold FirstOf
  have hz : ∀ e : Dataset, ((e.multiId : Int) = 0) ↔ e.multiId = 0 := fun e => by omega
  simp only [hz]

theorem noneOf_getDataset {u : ULog} {name : Str} (h : NoneOf u name) :
    getDataset u name = .error .indexError :=
  (C25_not_found u name 0 _).mpr ⟨rfl, fun d hd h' => h d hd ⟨h'.1, by have := h'.2; omega⟩⟩

/-- the changes of an integer column, as a list of times and values: those of `rows` at the positions where
the value changes -/
def Spec.IntChanges (times values : List Int) (out : List (Int × Int)) : Prop :=
  ∃ (rows : List (Int × Int)) (idx : List Nat),
    rows = (times.zip values).filter (fun r => r.1 ≠ 0) ∧ idx.Pairwise (· < ·) ∧
    (∀ i, i ∈ idx ↔ ∃ r, rows[i]? = some r ∧ (i = 0 ∨ ∃ q, rows[i - 1]? = some q ∧ q.2 ≠ r.2)) ∧
    out.map some = idx.map (rows[·]?)

/-- the flight modes: the changes of `nav_state` and the end of the log; none if that column is missing -/
inductive Spec.Modes (u : ULog) : List (Int × Int) → Prop
  | noTopic : NoneOf u (py! "vehicle_status") → Modes u []
  | noField {d} : FirstOf u (py! "vehicle_status") d →
      (d.data.get? (py! "timestamp") = none ∨ d.data.get? (py! "nav_state") = none) → Modes u []
  | modes {d times values out} : FirstOf u (py! "vehicle_status") d →
      d.data.get? (py! "timestamp") = some (times.map .int) →
      d.data.get? (py! "nav_state") = some (values.map .int) →
      IntChanges times values out → Modes u (out ++ [((u.lastTs : Int), -1)])

theorem listValueChanges_int {d : Dataset} {field : Str} {times values : List Int}
    (ht : d.data.get? (py! "timestamp") = some (times.map .int))
    (hx : d.data.get? field = some (values.map .int)) (hl : times.length = values.length) :
    ∃ out, listValueChanges d field = .ok (out.map fun c => (.int c.1, .int c.2)) ∧
      IntChanges times values out := by
  obtain ⟨out, rows, idx, h1, h2, h3, h4, h5⟩ := C26_value_changes d field _ _ ht hx (by simpa using hl)
    (by intro v hv; obtain ⟨n, _, rfl⟩ := List.mem_map.mp hv; trivial)
  let g : Int × Int → NpVal × NpVal := fun c => (.int c.1, .int c.2)
  have hrows : rows = ((times.zip values).filter (fun r => r.1 ≠ 0)).map g := by
    rw [h2, List.zip_map, List.filter_map]
    congr 1
  generalize hR : (times.zip values).filter (fun r => r.1 ≠ 0) = R at hrows
  have hget : ∀ i, rows[i]? = R[i]?.map g := fun i => by rw [hrows, List.getElem?_map]
  have hch : ∀ i, i ∈ idx ↔ ∃ r, R[i]? = some r ∧ (i = 0 ∨ ∃ q, R[i - 1]? = some q ∧ q.2 ≠ r.2) := by
    intro i
    rw [h4]
    unfold ChangeAt
    simp only [hget]
    constructor
    · rintro ⟨r, hr, h⟩
      obtain ⟨r', hr', rfl⟩ := Option.map_eq_some_iff.mp hr
      refine ⟨r', hr', h.imp id ?_⟩
      rintro ⟨q, hq, hne⟩
      obtain ⟨q', hq', rfl⟩ := Option.map_eq_some_iff.mp hq
      exact ⟨q', hq', hne⟩
    · rintro ⟨r, hr, h⟩
      refine ⟨g r, by rw [hr]; rfl, h.imp id ?_⟩
      rintro ⟨q, hq, hne⟩
      exact ⟨g q, by rw [hq]; rfl, hne⟩
  have hall : ∀ l : List Nat, (∀ i ∈ l, i ∈ idx) → (l.filterMap (R[·]?)).map some = l.map (R[·]?) := by
    intro l
    induction l with
    | nil => intro _; rfl
    | cons i l ih =>
      intro hmem
      obtain ⟨r, hr, _⟩ := (hch i).mp (hmem i (by simp))
      rw [List.filterMap_cons, hr]
      simp only [List.map_cons, hr]
      rw [ih fun j hj => hmem j (List.mem_cons_of_mem _ hj)]
  have hI := hall idx fun _ h => h
  refine ⟨idx.filterMap (R[·]?), ?_, R, idx, hR.symm, h3, hch, hI⟩
  rw [h1]
  congr 1
  apply (List.map_inj_right (f := some) fun _ _ h => Option.some.inj h).mp
  rw [h5, List.map_map]
  have : (some ∘ fun c : Int × Int => ((.int c.1, .int c.2) : NpVal × NpVal)) = (Option.map g) ∘ some := rfl
  rw [this, ← List.map_map, hI, List.map_map]
  apply List.map_congr_left
  intro i _
  exact hget i

/-- the columns that give the flight modes are integers of the same length -/
def Spec.IntModes (u : ULog) : Prop :=
  ∀ d t x, FirstOf u (py! "vehicle_status") d → d.data.get? (py! "timestamp") = some t →
    d.data.get? (py! "nav_state") = some x →
    ∃ times values : List Int, t = times.map .int ∧ x = values.map .int ∧ times.length = values.length

/-- **C36**, flight modes: they are the changes of `nav_state` followed by mode -1 at the end of the log;
there are none without that column. -/
theorem C36_modes (u : ULog) (h : IntModes u) :
    ∃ changes, flightModeChanges u = .ok changes ∧ Modes u changes := by
  unfold flightModeChanges navStates
  cases hd : getDataset u (py! "vehicle_status") with
  | error e =>
    obtain ⟨rfl, hn⟩ := (C25_not_found _ _ _ _).mp hd
    exact ⟨[], rfl, .noTopic fun d hd h' => hn d hd ⟨h'.1, by have := h'.2; omega⟩⟩
  | ok d =>
    have hf := firstOf_getDataset.mp hd
    rw [ok_bind]
    by_cases hm : d.data.get? (py! "timestamp") = none ∨ d.data.get? (py! "nav_state") = none
    · rw [C26_missing d _ hm]
      exact ⟨[], rfl, .noField hf hm⟩
    · cases ht : d.data.get? (py! "timestamp") with
      | none => exact absurd (Or.inl ht) hm
      | some t =>
        cases hx : d.data.get? (py! "nav_state") with
        | none => exact absurd (Or.inr hx) hm
        | some x =>
          obtain ⟨times, values, rfl, rfl, hl⟩ := h d t x hf ht hx
          obtain ⟨out, ho, hi⟩ := listValueChanges_int ht hx hl
          refine ⟨_, ?_, .modes hf ht hx hi⟩
          rw [ho, ok_bind, List.mapM_map, mapM_ok (g := id)]
          · rw [List.map_id]
          · intro c _
            rfl

/-! ### line strings -/

/-- the positions of a topic: the rows with a fix, each with its timestamp and its coordinates -/
def Spec.Positions (coord : Bool → NpVal → NpVal → NpVal → P) (d : Dataset) (rows : List (Nat × P)) : Prop :=
  ∃ (n : Nat) (t : Nat → Nat) (fix : Option (Nat → Int)) (lon lat alt : Nat → NpVal) (scaled : Bool),
    (d.fields.map (·.name)).Nodup ∧ (scaled = true ↔ IntLon d) ∧ (∀ i, t i < 2 ^ 64) ∧
    d.data.get? (py! "timestamp") = some ((List.range n).map fun i => .int (t i)) ∧
    d.data.get? (py! "fix_type") = fix.map (fun f => (List.range n).map fun i => .int (f i)) ∧
    ColumnOf d (py! "lon") (py! "longitude_deg") ((List.range n).map lon) ∧
    ColumnOf d (py! "lat") (py! "latitude_deg") ((List.range n).map lat) ∧
    ColumnOf d (py! "alt") (py! "altitude_msl_m") ((List.range n).map alt) ∧
    rows = (((List.range n).filter fun i => fix.all fun f => f i > 2).map fun i =>
      (t i, coord scaled (lon i) (lat i) (alt i)))

theorem topicData_of {u : ULog} {name : Str} {d : Dataset} (h : FirstOf u name d) : topicData u name = .ok d := by
  have key := (filter_first (p := fun d : Dataset => decide (d.name = name ∧ d.multiId = 0))
    (l := u.dataList) (d := d)).mpr (by
      obtain ⟨pre, post, h1, h2, h3, h4⟩ := h
      exact ⟨pre, post, h1, by simp [h2, h3], fun e he => by simpa using h4 e he⟩)
  unfold topicData
  generalize u.dataList.filter (fun d => decide (d.name = name ∧ d.multiId = 0)) = L at key
  cases L with
  | nil => cases key
  | cons x L =>
    simp only [List.getElem?_cons_zero, Option.some.injEq] at key
    rw [key]

theorem topicData_none {u : ULog} {name : Str} (h : NoneOf u name) : topicData u name = .error .keyError := by
  have : u.dataList.filter (fun d => decide (d.name = name ∧ d.multiId = 0)) = [] :=
    List.filter_eq_nil_iff.mpr fun d hd => by simpa using h d hd
  unfold topicData
  rw [this]

theorem thinned_unique {far : Nat → Bool} {last : Nat} {rows a b : List (Nat × P)}
    (h1 : Thinned far last rows a) (h2 : Thinned far last rows b) : a = b := by
  induction h1 generalizing b with
  | nil => cases h2; rfl
  | keep hf _ ih =>
    cases h2 with
    | keep _ h2 => rw [ih h2]
    | drop hf' _ => rw [hf] at hf'; cases hf'
  | drop hf _ ih =>
    cases h2 with
    | keep hf' _ => rw [hf] at hf'; cases hf'
    | drop _ h2 => exact ih h2

/-- the modes that need a colour -/
def Spec.UsedMode (changes : List (Int × Int)) (m : Int) : Prop :=
  (changes = [] ∧ m = 0) ∨ ∃ c ∈ changes, c.2 = m

theorem modeLoop_congr {f g : Int → Except PyErr C} {changes : List (Int × Int)}
    (h : ∀ m, UsedMode changes m → f m = g m) (t : Nat) (p : P) (fuel : Nat) (st : KmlState C P) :
    modeLoop f changes t p fuel st = modeLoop g changes t p fuel st := by
  induction fuel generalizing st with
  | zero => rfl
  | succ fuel ih =>
    rw [modeLoop, modeLoop]
    cases hc : changes[st.idx + 1]? with
    | none => rfl
    | some c =>
      have : f c.2 = g c.2 := h _ (Or.inr ⟨c, List.mem_of_getElem? hc, rfl⟩)
      dsimp only
      rw [this]
      split
      · cases g c.2 with
        | error e => rfl
        | ok color => exact ih _
      · rfl

theorem kmlTrack_congr {f g : Int → Except PyErr C} {changes : List (Int × Int)}
    (h : ∀ m, UsedMode changes m → f m = g m) (far : Nat → Bool) (rows : List (Nat × P)) :
    kmlTrack far f changes rows = kmlTrack far g changes rows := by
  have hstep : kmlStep (P := P) far f changes = kmlStep far g changes := by
    funext st row
    unfold kmlStep
    rw [modeLoop_congr h]
  have hfirst : f (firstMode changes) = g (firstMode changes) := by
    apply h
    cases changes with
    | nil => exact Or.inl ⟨rfl, rfl⟩
    | cons c cs => exact Or.inr ⟨c, by simp, rfl⟩
  unfold kmlTrack
  rw [hstep, hfirst]

/-- a topic that is exported: the name, the colours, all positions and those that are kept -/
structure Spec.KmlTopic (C P : Type) where
  name : Str
  colors : Int → Except PyErr C
  color : Int → C
  rows : List (Nat × P)
  kept : List (Nat × P)

/-- the positions are those of the log, thinned, and all modes have a colour -/
def Spec.KmlTopic.Exported (coord : Bool → NpVal → NpVal → NpVal → P) (far : Nat → Bool) (u : ULog)
    (changes : List (Int × Int)) (x : KmlTopic C P) : Prop :=
  (∃ d, FirstOf u x.name d ∧ Positions coord d x.rows) ∧ Thinned far 0 x.rows x.kept ∧
    ∀ m, UsedMode changes m → x.colors m = .ok (x.color m)

theorem kmlPosition_of {coord : Bool → NpVal → NpVal → NpVal → P} {far : Nat → Bool} {u : ULog}
    {changes : List (Int × Int)} {x : KmlTopic C P} (hx : x.Exported coord far u changes) :
    kmlPosition coord far x.colors changes u x.name = .ok (track x.color changes x.kept) := by
  obtain ⟨⟨d, hd, n, t, fix, lon, lat, alt, scaled, h1, h2, h3, h4, h5, h6, h7, h8, hr⟩, hk, hc⟩ := hx
  unfold kmlPosition
  rw [topicData_of hd, ok_bind, C36_positions coord d n t fix lon lat alt scaled h1 h2 h3 h4 h5 h6 h7 h8,
    ok_bind, ← hr, kmlTrack_congr (g := fun m => .ok (x.color m)) hc]
  obtain ⟨kept', hk', ht⟩ := C36_track (colors := fun m => .ok (x.color m)) (fun _ => rfl) far changes x.rows
  rw [ht, thinned_unique hk' hk]

/-! ### C76: camera triggers -/

/-- the points of the camera triggers: none without the topic, and otherwise one for every row -/
inductive Spec.Triggers (fmt : NpVal → Str) (point : NpVal → NpVal → NpVal → P) (u : ULog) :
    Option Str → List (Str × P) → Prop
  | notAsked : Triggers fmt point u none []
  | noTopic {c} : NoneOf u c → Triggers fmt point u (some c) []
  | points {c d} {n : Nat} {seq lon lat alt : Nat → NpVal} : FirstOf u c d →
      d.data.get? (py! "seq") = some ((List.range n).map seq) →
      ColumnOf d (py! "lon") (py! "longitude_deg") ((List.range n).map lon) →
      ColumnOf d (py! "lat") (py! "latitude_deg") ((List.range n).map lat) →
      ColumnOf d (py! "alt") (py! "altitude_msl_m") ((List.range n).map alt) →
      Triggers fmt point u (some c)
        ((List.range n).map fun i => (py! "Camera Trigger " ++ fmt (seq i), point (lon i) (lat i) (alt i)))

theorem triggerData {u : ULog} {c : Str} {d : Dataset} (h : FirstOf u c d) :
    ∃ L, u.dataList.filter (fun d => decide (some d.name = some c ∧ d.multiId = 0)) = d :: L := by
  have key := (filter_first (p := fun d : Dataset => decide (some d.name = some c ∧ d.multiId = 0))
    (l := u.dataList) (d := d)).mpr (by
      obtain ⟨pre, post, h1, h2, h3, h4⟩ := h
      exact ⟨pre, post, h1, by simp [h2, h3], fun e he => by simpa using h4 e he⟩)
  generalize u.dataList.filter (fun d => decide (some d.name = some c ∧ d.multiId = 0)) = L at key
  cases L with
  | nil => cases key
  | cons x L =>
    simp only [List.getElem?_cons_zero, Option.some.injEq] at key
    exact ⟨L, by rw [key]⟩

/-- **C76**: there is one point for every row of the camera topic, with its sequence number and its
coordinates. Without the topic there are no points. -/
theorem C76_triggers {fmt : NpVal → Str} {point : NpVal → NpVal → NpVal → P} {u : ULog} {c : Option Str}
    {pts : List (Str × P)} (h : Triggers fmt point u c pts) : kmlTriggers fmt point u c = .ok pts := by
  cases h with
  | notAsked =>
    unfold kmlTriggers
    rw [List.filter_eq_nil_iff.mpr fun d _ => by simp]
  | noTopic hn =>
    unfold kmlTriggers
    rw [List.filter_eq_nil_iff.mpr fun d hd => by simpa using hn d hd]
  | points hd h1 h2 h3 h4 =>
    rename_i d n seq lon lat alt
    obtain ⟨L, hL⟩ := triggerData hd
    unfold kmlTriggers
    rw [hL]
    dsimp only
    rw [eitherCol_of h2, ok_bind, eitherCol_of h3, ok_bind, eitherCol_of h4, ok_bind]
    have : dictGet d.data (py! "seq") = .ok ((List.range n).map seq) := by
      unfold dictGet
      rw [h1]
    rw [this, ok_bind]
    unfold triggerPoints
    rw [List.length_map, List.length_range]
    apply mapM_ok
    intro i hi
    have hi : i < (List.range n).length := by simpa using hi
    rw [pyIndex_map _ _ hi, ok_bind, pyIndex_map _ _ hi, ok_bind, pyIndex_map _ _ hi, ok_bind,
      pyIndex_map _ _ hi, ok_bind, List.getElem_range]

/-- **C76**, failures: without a column for a coordinate or for the sequence number there is a KeyError. -/
theorem C76_missing {fmt : NpVal → Str} {point : NpVal → NpVal → NpVal → P} {u : ULog} {c : Str} {d : Dataset}
    (hd : FirstOf u c d)
    (h : (d.data.get? (py! "lon") = none ∧ d.data.get? (py! "longitude_deg") = none) ∨
      (d.data.get? (py! "lat") = none ∧ d.data.get? (py! "latitude_deg") = none) ∨
      (d.data.get? (py! "alt") = none ∧ d.data.get? (py! "altitude_msl_m") = none) ∨
      d.data.get? (py! "seq") = none) :
    kmlTriggers fmt point u (some c) = .error .keyError := by
  obtain ⟨L, hL⟩ := triggerData hd
  have hcol : ∀ a b, (∃ col, eitherCol d a b = .ok col) ∨
      (eitherCol d a b = .error .keyError) := by
    intro a b
    unfold eitherCol dictGet
    cases d.data.get? a with
    | some x => exact Or.inl ⟨x, rfl⟩
    | none =>
      cases d.data.get? b with
      | some x => exact Or.inl ⟨x, rfl⟩
      | none => exact Or.inr rfl
  have hno : ∀ a b, d.data.get? a = none ∧ d.data.get? b = none → eitherCol d a b = .error .keyError := by
    intro a b hab
    unfold eitherCol dictGet
    rw [hab.1, hab.2]
  unfold kmlTriggers
  rw [hL]
  dsimp only
  rcases hcol (py! "lon") (py! "longitude_deg") with ⟨x, hx⟩ | hx
  · rw [hx, ok_bind]
    rcases h with h | h
    · rw [hno _ _ h] at hx; cases hx
    rcases hcol (py! "lat") (py! "latitude_deg") with ⟨y, hy⟩ | hy
    · rw [hy, ok_bind]
      rcases h with h | h
      · rw [hno _ _ h] at hy; cases hy
      rcases hcol (py! "alt") (py! "altitude_msl_m") with ⟨z, hz⟩ | hz
      · rw [hz, ok_bind]
        rcases h with h | h
        · rw [hno _ _ h] at hz; cases hz
        unfold dictGet
        rw [h]
        rfl
      · rw [hz]; rfl
    · rw [hy]; rfl
  · rw [hx]; rfl

/-! ### the document -/

/-- the columns of a camera topic; its longitude is an integer -/
def Sample.camera : Dataset :=
  { multiId := 0, msgId := 2, name := py! "camera_capture", tsIdx := 0,
    fields := [⟨py! "timestamp", .u64⟩, ⟨py! "seq", .u32⟩, ⟨py! "lon", .i32⟩, ⟨py! "lat", .i32⟩, ⟨py! "alt", .i32⟩],
    data := [(py! "timestamp", [.int 1000000, .int 2000000]), (py! "seq", [.int 7, .int 9]),
      (py! "lon", [.int 85400000, .int 85500000]), (py! "lat", [.int 473000000, .int 473100000]),
      (py! "alt", [.int 500000, .int 510000])] }

/-- the flight modes -/
def Sample.status : Dataset :=
  { multiId := 0, msgId := 4, name := py! "vehicle_status", tsIdx := 0,
    fields := [⟨py! "timestamp", .u64⟩, ⟨py! "nav_state", .u8⟩],
    data := [(py! "timestamp", [.int 900000, .int 1500000, .int 2500000]),
      (py! "nav_state", [.int 4, .int 4, .int 5])] }

/-- a log with positions, camera triggers and flight modes; the first instance of `vehicle_status` counts -/
def Sample.flight : ULog :=
  { lastTs := 3000000
    dataList := [Sample.gpsPos, Sample.camera,
      { multiId := 1, msgId := 3, name := py! "vehicle_status", tsIdx := 0, fields := [], data := [] },
      Sample.status] }

/-- the coordinates together with whether they are scaled -/
def Sample.coord : Bool → NpVal → NpVal → NpVal → Bool × NpVal := fun s x _ _ => (s, x)

example : (flightModeChanges Sample.flight).toOption = some [(900000, 4), (2500000, 5), (3000000, -1)] := by
  decide +kernel

/-! ### C77: the document -/

theorem kmlLines_of {coord : Bool → NpVal → NpVal → NpVal → P} {far : Nat → Bool} {u : ULog}
    {changes : List (Int × Int)} {l : List (KmlTopic C P)} (hl : ∀ x ∈ l, x.Exported coord far u changes) :
    ((l.map (·.name)).zip (l.map (·.colors))).mapM (fun p => do
      let r ← kmlPosition coord far p.2 changes u p.1
      .ok (r.map fun s => (p.1, s)))
    = .ok (l.map fun x => (track x.color changes x.kept).map fun s => (x.name, s)) := by
  rw [List.zip_map', List.mapM_map, mapM_ok]
  intro x hx
  rw [Function.comp_apply, kmlPosition_of (hl x hx)]
  rfl

/-- **C77**: if there are as many colours as topics, then every topic is exported with its own colours: the
document consists of the tracks of the topics, divided by the flight modes of the log, and the points of the
camera triggers. -/
theorem C77_document_partial {coord : Bool → NpVal → NpVal → NpVal → P} {far : Nat → Bool} {fmt : NpVal → Str}
    {u : ULog} (hm : IntModes u) {camera : Option Str} {pts : List (Str × P)}
    (ht : Triggers fmt (coord false) u camera pts) :
    ∃ changes, Modes u changes ∧ ∀ l : List (KmlTopic C P), (∀ x ∈ l, x.Exported coord far u changes) →
      kmlDocument coord far fmt (.list (l.map (·.name))) (.list (l.map (·.colors))) camera u
        = .ok ⟨l.flatMap fun x => (track x.color changes x.kept).map fun s => (x.name, s), pts⟩ := by
  obtain ⟨changes, h1, h2⟩ := C36_modes u hm
  refine ⟨changes, h2, fun l hl => ?_⟩
  unfold kmlDocument
  rw [h1, ok_bind]
  show (Except.ok _ >>= _) = _
  rw [ok_bind, kmlLines_of hl, ok_bind, C76_triggers ht, ok_bind]
  rw [List.flatMap_def]

/-- **C77**: one topic is like a list of one topic. -/
theorem C77_one {coord : Bool → NpVal → NpVal → NpVal → P} (far : Nat → Bool) (fmt : NpVal → Str) (u : ULog)
    (camera : Option Str) (t : Str) (f : Int → Except PyErr C) :
    kmlDocument coord far fmt (.one t) (.one f) camera u
      = kmlDocument coord far fmt (.list [t]) (.list [f]) camera u := rfl

/-- **C77**, failures: a topic that is not in the log is a KeyError. -/
theorem C77_no_topic {coord : Bool → NpVal → NpVal → NpVal → P} {far : Nat → Bool} {fmt : NpVal → Str}
    {u : ULog} {changes : List (Int × Int)} (hm : flightModeChanges u = .ok changes) {camera : Option Str}
    {l : List (KmlTopic C P)} (hl : ∀ x ∈ l, x.Exported coord far u changes) {t : Str} (hn : NoneOf u t)
    {f : Int → Except PyErr C} {ts : List Str} {fs : List (Int → Except PyErr C)} :
    kmlDocument coord far fmt (.list (l.map (·.name) ++ t :: ts)) (.list (l.map (·.colors) ++ f :: fs)) camera u
      = .error .keyError := by
  unfold kmlDocument
  rw [hm, ok_bind]
  show (Except.ok ((l.map (·.name) ++ t :: ts).zip (l.map (·.colors) ++ f :: fs)) >>= _) = _
  rw [ok_bind, List.zip_append (by simp), List.mapM_append, kmlLines_of hl, ok_bind, List.zip_cons_cons,
    List.mapM_cons]
  have : kmlPosition coord far f changes u t = .error .keyError := by
    unfold kmlPosition
    rw [topicData_none hn]
    rfl
  rw [this]
  rfl

/-- **C77** does not hold in general: topics for which there are no more colours are not exported. -/
theorem C77_missing_colors {coord : Bool → NpVal → NpVal → NpVal → P} (far : Nat → Bool) (fmt : NpVal → Str)
    (u : ULog) (camera : Option Str) (ts more : List Str) (fs : List (Int → Except PyErr C))
    (h : ts.length = fs.length) :
    kmlDocument coord far fmt (.list (ts ++ more)) (.list fs) camera u
      = kmlDocument coord far fmt (.list ts) (.list fs) camera u := by
  have : topicColors (.list (ts ++ more)) (.list fs) = topicColors (.list ts) (.list fs) := by
    show Except.ok ((ts ++ more).zip fs) = .ok (ts.zip fs)
    have := List.zip_append (r₁ := more) (r₂ := ([] : List (Int → Except PyErr C))) h
    rw [List.append_nil, List.zip_nil_right, List.append_nil] at this
    rw [this]
  unfold kmlDocument
  rw [this]

/-- **C77**, failures: for a list of topics one function of colours, such as the default, is a TypeError. -/
theorem C77_single_color {coord : Bool → NpVal → NpVal → NpVal → P} (far : Nat → Bool) (fmt : NpVal → Str)
    {u : ULog} (hm : IntModes u) (camera : Option Str) (ts : List Str) (f : Int → Except PyErr C) :
    kmlDocument coord far fmt (.list ts) (.one f) camera u = .error .typeError := by
  obtain ⟨changes, h1, _⟩ := C36_modes u hm
  unfold kmlDocument
  rw [h1]
  rfl

/-- **C77**, failures: for one topic a list of colours is a TypeError, once the positions are known. -/
theorem C77_color_list {coord : Bool → NpVal → NpVal → NpVal → P} (far : Nat → Bool) (fmt : NpVal → Str)
    {u : ULog} (hm : IntModes u) (camera : Option Str) {t : Str} {d : Dataset} {rows : List (Nat × P)}
    (hd : topicData u t = .ok d) (hr : positions coord d = .ok rows) (fs : List (Int → Except PyErr C)) :
    kmlDocument coord far fmt (.one t) (.list fs) camera u = .error .typeError := by
  obtain ⟨changes, h1, _⟩ := C36_modes u hm
  have h2 : kmlPosition coord far (fun _ => (.error .typeError : Except PyErr C)) changes u t = .error .typeError := by
    unfold kmlPosition
    rw [hd, ok_bind, hr]
    rfl
  unfold kmlDocument
  rw [h1, ok_bind]
  show (do
    let l ← ([(t, fun _ => .error .typeError)] : List (Str × (Int → Except PyErr C))).mapM fun p => do
      let l ← kmlPosition coord far p.2 changes u p.1
      .ok (l.map fun x => (p.1, x))
    let points ← kmlTriggers fmt (coord false) u camera
    .ok ⟨l.flatten, points⟩ : Except PyErr (KmlDoc C P)) = _
  rw [List.mapM_cons, h2]
  rfl

theorem topicData_filter {u v : ULog} {F : NameFilter} {name : Str} (hF : F.accepts name = true)
    (h : v.dataList = u.dataList.filter (fun d => F.accepts d.name)) :
    v.dataList.filter (fun d => decide (d.name = name ∧ d.multiId = 0))
      = u.dataList.filter (fun d => decide (d.name = name ∧ d.multiId = 0)) := by
  rw [h, List.filter_filter]
  apply List.filter_congr
  intro d _
  by_cases hd : d.name = name
  · rw [hd, hF]; simp
  · simp [hd]

/-- **C77**, file: that only the needed topics are loaded does not change the document, except that the log
ends at the last timestamp of those topics. -/
theorem C77_filter {coord : Bool → NpVal → NpVal → NpVal → P} (far : Nat → Bool) (fmt : NpVal → Str)
    (topics : OneOrList Str) (colors : OneOrList (Int → Except PyErr C)) (camera : Option Str)
    (fuel : Nat) (cfg : Cfg) (bs : Bytes) (u : ULog) (h : load fuel { cfg with filter := .all } bs = .ok u)
    (hok : ∀ t ∈ fileTrace fuel { cfg with filter := .all } bs, ∀ x ∈ t,
      FilterOk cfg (kmlFilter topics camera) x) :
    ∃ v, load fuel { cfg with filter := kmlFilter topics camera } bs = .ok v ∧ v.lastTs ≤ u.lastTs ∧
      kmlDocument coord far fmt topics colors camera v
        = kmlDocument coord far fmt topics colors camera { u with lastTs := v.lastTs } := by
  obtain ⟨v, hv, hd, _, _, _, _, _, _, _, _, _, _, _, _, _, _, hl, _⟩ :=
    C17_filter_partial fuel cfg (kmlFilter topics camera) bs u h hok
  refine ⟨v, hv, hl, ?_⟩
  have hacc : ∀ n, (n ∈ topicNames topics ∨ n = py! "vehicle_status" ∨ some n = camera) →
      (kmlFilter topics camera).accepts n = true := by
    intro n hn
    refine (C17_listed_names _ _).mpr ?_
    simp only [List.mem_append, List.mem_singleton, Option.mem_toList]
    rcases hn with h | h | h
    · exact Or.inl (Or.inl h)
    · exact Or.inl (Or.inr h)
    · exact Or.inr h.symm
  have hmodes : flightModeChanges v = flightModeChanges { u with lastTs := v.lastTs } := by
    have : getDataset v (py! "vehicle_status") = getDataset { u with lastTs := v.lastTs } (py! "vehicle_status") := by
      have := topicData_filter (hacc (py! "vehicle_status") (Or.inr (Or.inl rfl))) hd
      have hz : ∀ e : Dataset, ((e.multiId : Int) = 0) ↔ e.multiId = 0 := fun e => by omega
      unfold getDataset
      simp only [hz]
      rw [this]
    unfold flightModeChanges navStates
    rw [this]
  have htrig : kmlTriggers fmt (coord false) v camera
      = kmlTriggers fmt (coord false) { u with lastTs := v.lastTs } camera := by
    unfold kmlTriggers
    cases camera with
    | none =>
      rw [List.filter_eq_nil_iff.mpr fun d _ => by simp, List.filter_eq_nil_iff.mpr fun d _ => by simp]
    | some c =>
      have := topicData_filter (hacc c (Or.inr (Or.inr rfl))) hd
      simp only [Option.some.injEq]
      rw [this]
  have hpos : ∀ n ∈ topicNames topics, ∀ (f : Int → Except PyErr C) (changes : List (Int × Int)),
      kmlPosition coord far f changes v n = kmlPosition coord far f changes { u with lastTs := v.lastTs } n := by
    intro n hn f changes
    unfold kmlPosition topicData
    rw [topicData_filter (hacc n (Or.inl hn)) hd]
  have hpairs : ∀ pairs, topicColors topics colors = .ok pairs → ∀ p ∈ pairs, p.1 ∈ topicNames topics := by
    intro pairs hp p hmem
    cases topics with
    | one t =>
      cases colors with
      | one f => cases hp; simp only [List.mem_singleton] at hmem; subst hmem; simp [topicNames]
      | list fs => cases hp; simp only [List.mem_singleton] at hmem; subst hmem; simp [topicNames]
    | list ts =>
      cases colors with
      | one f => cases hp
      | list fs => cases hp; exact (List.of_mem_zip hmem).1
  unfold kmlDocument
  rw [hmodes, htrig]
  cases flightModeChanges { u with lastTs := v.lastTs } with
  | error e => rfl
  | ok changes =>
    rw [ok_bind, ok_bind]
    cases hp : topicColors topics colors with
    | error e => rfl
    | ok pairs =>
      rw [ok_bind, ok_bind]
      rw [mapM_congr_mem (fun p hmem => by rw [hpos p.1 (hpairs pairs hp p hmem)])]

/-! ### concrete cases -/

theorem Sample.gpsPos_first : FirstOf Sample.flight (py! "vehicle_gps_position") Sample.gpsPos :=
  ⟨[], _, rfl, by decide +kernel, rfl, by simp⟩

theorem Sample.camera_first : FirstOf Sample.flight (py! "camera_capture") Sample.camera :=
  ⟨[Sample.gpsPos], _, rfl, by decide +kernel, rfl, by
    intro e he
    rw [List.mem_singleton.mp he]
    decide +kernel⟩

theorem Sample.gpsPos_positions : Positions Sample.coord Sample.gpsPos
    [(1000000, true, .int 10), (3000000, true, .int 12)] :=
  ⟨3, fun i => [1000000, 2000000, 3000000].getD i 0, some fun i => [3, 2, 4].getD i 0,
    fun i => .int (10 + (i : Int)), fun i => .int (20 + (i : Int)), fun i => .int (30 + (i : Int)), true,
    by decide +kernel, by simpa using ⟨⟨py! "lon", .i32⟩, by decide +kernel, by decide +kernel, by decide +kernel⟩,
    by
      intro i
      match i with
      | 0 | 1 | 2 => decide +kernel
      | n + 3 => exact Nat.two_pow_pos 64,
    by decide +kernel, by decide +kernel, Or.inl (by decide +kernel), Or.inr (by decide +kernel),
    Or.inl (by decide +kernel), by decide +kernel⟩

theorem Sample.flight_modes : IntModes Sample.flight := by
  intro d t x hd h1 h2
  have hd' := firstOf_getDataset.mpr hd
  have : (getDataset Sample.flight (py! "vehicle_status")).toOption
      = some Sample.status := by decide +kernel
  rw [hd'] at this
  cases this
  cases h1
  cases h2
  exact ⟨[900000, 1500000, 2500000], [4, 4, 5], rfl, rfl, rfl⟩

/-- two tracks of one topic and the camera triggers -/
example : (kmlDocument Sample.coord (fun x => x > 100000) (fun v => match v with | .int 7 => py! "7" | _ => py! "9")
    (.one (py! "vehicle_gps_position")) (.one defaultColors) (some (py! "camera_capture")) Sample.flight).toOption
  = some ⟨[(py! "vehicle_gps_position", ⟨4, py! "yellow", [(true, .int 10), (true, .int 12)]⟩),
      (py! "vehicle_gps_position", ⟨5, py! "orange", [(true, .int 12)]⟩),
      (py! "vehicle_gps_position", ⟨-1, py! "red", [(true, .int 12)]⟩)],
    [(py! "Camera Trigger 7", (false, .int 85400000)), (py! "Camera Trigger 9", (false, .int 85500000))]⟩ := by
  decide +kernel

example (changes : List (Int × Int)) (kept) 
    (hk : Thinned (fun x => x > 100000) 0 [(1000000, true, .int 10), (3000000, true, .int 12)] kept) :
    KmlTopic.Exported Sample.coord (fun x => x > 100000) Sample.flight changes
      ⟨py! "vehicle_gps_position", fun _ => .ok (py! "green"), fun _ => py! "green",
        [(1000000, true, .int 10), (3000000, true, .int 12)], kept⟩ :=
  ⟨⟨_, Sample.gpsPos_first, Sample.gpsPos_positions⟩, hk, fun _ _ => rfl⟩

example : Triggers (P := NpVal) (fun _ => py! "?") (fun x _ _ => x) Sample.flight (some (py! "camera_capture"))
    [(py! "Camera Trigger ?", .int 85400000), (py! "Camera Trigger ?", .int 85500000)] :=
  .points (n := 2) (seq := fun i => [.int 7, .int 9].getD i (.int 0))
    (lon := fun i => [.int 85400000, .int 85500000].getD i (.int 0))
    (lat := fun i => [.int 473000000, .int 473100000].getD i (.int 0))
    (alt := fun i => [.int 500000, .int 510000].getD i (.int 0))
    Sample.camera_first (by decide +kernel) (Or.inl (by decide +kernel)) (Or.inl (by decide +kernel))
    (Or.inl (by decide +kernel))

/-- a topic with positions -/
example : ((topicData Sample.flight (py! "vehicle_gps_position")).toOption.bind fun d =>
    (positions Sample.coord d).toOption) = some [(1000000, true, .int 10), (3000000, true, .int 12)] := by
  decide +kernel

/-- **C76** does not give degrees: coordinates that are integers are scaled when the topic is exported as
positions, but not when it is exported as camera triggers. -/
theorem C76_not_scaled :
    IntLon Sample.camera ∧
    (positions Sample.coord Sample.camera).toOption
      = some [(1000000, true, .int 85400000), (2000000, true, .int 85500000)] ∧
    (kmlDocument Sample.coord (fun _ => true) (fun _ => []) (.list []) (.list ([] : List (Int → Except PyErr Str)))
      (some (py! "camera_capture")) Sample.flight).toOption.map (fun d => d.points.map (·.2))
      = some [(false, .int 85400000), (false, .int 85500000)] :=
  ⟨⟨⟨py! "lon", .i32⟩, by decide +kernel, by decide +kernel, by decide +kernel⟩, by decide +kernel,
    by decide +kernel⟩

/-- **C77** does not hold: with one colour for two topics the second is missing, also if it is not in the
log. -/
theorem C77_topic_lost :
    (kmlDocument Sample.coord (fun x => x > 100000) (fun _ => [])
      (.list [py! "vehicle_gps_position", py! "camera_capture", py! "unknown"]) (.list [defaultColors]) none
      Sample.flight).toOption.map (fun d => d.lines.map (·.1))
    = some [py! "vehicle_gps_position", py! "vehicle_gps_position", py! "vehicle_gps_position"] := by
  decide +kernel

end PyULog
