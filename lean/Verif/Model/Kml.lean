import Verif.Model.Api
/-
Export of position tracks (ulog2kml.py). The KML library is represented by the list of line strings
that are created, and coordinates and distances by parameters (`kmlCoord` and `kmlFar` in Floats.lean).
-/
namespace PyULog

/-- a line string (ulog2kml.py:200-211): its name is the topic name and the mode -/
structure KmlLine (C P : Type) where
  mode : Int
  color : C
  points : List P
  deriving DecidableEq, Repr

/-- the local variables of the loop (ulog2kml.py:194-215): the finished line strings, the current one,
`current_flight_mode_idx` and `last_t` -/
structure KmlState (C P : Type) where
  done : List (KmlLine C P)
  cur : KmlLine C P
  idx : Nat
  lastT : Nat
  deriving DecidableEq, Repr

/-- the `while` loop (ulog2kml.py:225-232): every change that is reached starts a new line string with the
point. The fuel is the number of changes. -/
def modeLoop (colors : Int → Except PyErr C) (changes : List (Int × Int)) (t : Nat) (p : P) :
    Nat → KmlState C P → Except PyErr (KmlState C P)
  | 0, st => .ok st
  | fuel + 1, st =>
    match changes[st.idx + 1]? with
    | none => .ok st
    | some c =>
      if c.1 ≤ (t : Int) then
        match colors c.2 with
        | .error e => .error e
        | .ok color => modeLoop colors changes t p fuel
            { done := st.done ++ [st.cur]
              cur := ⟨c.2, color, [p]⟩
              idx := st.idx + 1
              lastT := st.lastT }
      else .ok st

/-- the loop body (ulog2kml.py:216-232). `far` is `x/1e6 > minimum_interval_s` for the difference of
the timestamps, which are unsigned 64-bit numbers. -/
def kmlStep (far : Nat → Bool) (colors : Int → Except PyErr C) (changes : List (Int × Int))
    (st : KmlState C P) (row : Nat × P) : Except PyErr (KmlState C P) :=
  if far ((row.1 + 2 ^ 64 - st.lastT) % 2 ^ 64) then
    modeLoop colors changes row.1 row.2 changes.length
      { done := st.done
        cur := ⟨st.cur.mode, st.cur.color, st.cur.points ++ [row.2]⟩
        idx := st.idx
        lastT := row.1 }
  else .ok st

/-- the first mode (ulog2kml.py:194-197) -/
def firstMode : List (Int × Int) → Int
  | [] => 0
  | c :: _ => c.2

/-- the line strings of a track (ulog2kml.py:194-232) -/
def kmlTrack (far : Nat → Bool) (colors : Int → Except PyErr C) (changes : List (Int × Int))
    (rows : List (Nat × P)) : Except PyErr (List (KmlLine C P)) := do
  let color ← colors (firstMode changes)
  let st ← rows.foldlM (kmlStep far colors changes) ⟨[], ⟨firstMode changes, color, []⟩, 0, 0⟩
  .ok (st.done ++ [st.cur])

/-! ### input of the track -/

/-- an element of an integer column; other types are not modelled -/
def npInt : NpVal → Except PyErr Int
  | .int n => .ok n
  | _ => .error .unmodelled

/-- an element of a `uint64_t` column; other types are not modelled -/
def npU64 : NpVal → Except PyErr Nat
  | .int n => if 0 ≤ n ∧ n < 2 ^ 64 then .ok n.toNat else .error .unmodelled
  | _ => .error .unmodelled

/-- `list_value_changes('nav_state')` of `vehicle_status`, as integers -/
def navStates (u : ULog) : Except PyErr (List (Int × Int)) := do
  let d ← getDataset u (py! "vehicle_status")
  let l ← listValueChanges d (py! "nav_state")
  l.mapM fun c => do
    let t ← npInt c.1
    let m ← npInt c.2
    pure (t, m)

/-- the flight modes (ulog2kml.py:105-111) -/
def flightModeChanges (u : ULog) : Except PyErr (List (Int × Int)) :=
  match navStates u with
  | .ok l => .ok (l ++ [((u.lastTs : Int), -1)])
  | .error e => if e = .keyError ∨ e = .indexError then .ok [] else .error e

/-- `data[a] if a in data else data[b]` -/
def eitherCol (d : Dataset) (a b : Str) : Except PyErr (List NpVal) :=
  match d.data.get? a with
  | some c => .ok c
  | none => dictGet d.data b

/-- the mask `fix_type > 2`, all true without that column (ulog2kml.py:179-180) -/
def fixMask (d : Dataset) (n : Nat) : Except PyErr (List Bool) :=
  match d.data.get? (py! "fix_type") with
  | none => .ok (List.replicate n true)
  | some col => col.mapM fun v => do
    let k ← npInt v
    pure (decide (k > 2))

/-- `lon` is a scaled integer (ulog2kml.py:187-188) -/
def scaledLon (d : Dataset) : Bool :=
  match d.fields.filter fun f => f.name = py! "lon" with
  | f :: _ => decide (f.type = .i32)
  | [] => false

/-- the dataset of a topic (ulog2kml.py:162-167) -/
def topicData (u : ULog) (topic : Str) : Except PyErr Dataset :=
  match u.dataList.filter fun d => d.name = topic ∧ d.multiId = 0 with
  | d :: _ => .ok d
  | [] => .error .keyError

/-- the positions that are used (ulog2kml.py:170-191); `coord scaled lon lat alt` makes the coordinates -/
def positions (coord : Bool → NpVal → NpVal → NpVal → P) (d : Dataset) : Except PyErr (List (Nat × P)) := do
  let lon ← eitherCol d (py! "lon") (py! "longitude_deg")
  let lat ← eitherCol d (py! "lat") (py! "latitude_deg")
  let alt ← eitherCol d (py! "alt") (py! "altitude_msl_m")
  let t ← dictGet d.data (py! "timestamp")
  let mask ← fixMask d lon.length
  let lon ← maskBy mask lon
  let lat ← maskBy mask lat
  let alt ← maskBy mask alt
  let t ← maskBy mask t
  (List.range lon.length).mapM fun i => do
    let ti ← pyIndex t i
    let x ← pyIndex lon i
    let y ← pyIndex lat i
    let z ← pyIndex alt i
    let n ← npU64 ti
    .ok (n, coord (scaledLon d) x y z)

/-- `_kml_add_position_data` (ulog2kml.py:153-232) -/
def kmlPosition (coord : Bool → NpVal → NpVal → NpVal → P) (far : Nat → Bool) (colors : Int → Except PyErr C)
    (changes : List (Int × Int)) (u : ULog) (topic : Str) : Except PyErr (List (KmlLine C P)) := do
  let d ← topicData u topic
  let rows ← positions coord d
  kmlTrack far colors changes rows

/-- the loop of `_kml_add_camera_triggers` (ulog2kml.py:146-148): the name and the coordinates of every
point. `fmt` is `str` of an element and `point lon lat alt` makes the coordinates. -/
def triggerPoints (fmt : NpVal → Str) (point : NpVal → NpVal → NpVal → P) (lon lat alt seq : List NpVal) :
    Except PyErr (List (Str × P)) :=
  (List.range lon.length).mapM fun i => do
    let s ← pyIndex seq i
    let x ← pyIndex lon i
    let y ← pyIndex lat i
    let z ← pyIndex alt i
    .ok (py! "Camera Trigger " ++ fmt s, point x y z)

/-- `_kml_add_camera_triggers` (ulog2kml.py:124-148). A topic name that is not given is equal to no
name. -/
def kmlTriggers (fmt : NpVal → Str) (point : NpVal → NpVal → NpVal → P) (u : ULog) (topic : Option Str) :
    Except PyErr (List (Str × P)) :=
  match u.dataList.filter fun d => some d.name = topic ∧ d.multiId = 0 with
  | [] => .ok []
  | d :: _ => do
    let lon ← eitherCol d (py! "lon") (py! "longitude_deg")
    let lat ← eitherCol d (py! "lat") (py! "latitude_deg")
    let alt ← eitherCol d (py! "alt") (py! "altitude_msl_m")
    let seq ← dictGet d.data (py! "seq")
    triggerPoints fmt point lon lat alt seq

/-- an argument that is one value or a list -/
inductive OneOrList (α : Type) where
  | one (a : α)
  | list (l : List α)

/-- the list of `position_topic_name` (ulog2kml.py:95-97) -/
def topicNames : OneOrList Str → List Str
  | .one t => [t]
  | .list l => l

/-- the topics with their colours: `zip` of the arguments (ulog2kml.py:95-97 and 114). The colours of one
topic are called later, which fails for a list; a function is not iterable. -/
def topicColors : OneOrList Str → OneOrList (Int → Except PyErr C) →
    Except PyErr (List (Str × (Int → Except PyErr C)))
  | .one t, .one f => .ok [(t, f)]
  | .one t, .list _ => .ok [(t, fun _ => .error .typeError)]
  | .list ts, .list fs => .ok (ts.zip fs)
  | .list _, .one _ => .error .typeError

/-- the document: the line strings with the topic in front of their names, and the points -/
structure KmlDoc (C P : Type) where
  lines : List (Str × KmlLine C P)
  points : List (Str × P)
  deriving DecidableEq, Repr

/-- `convert_ulog2kml` after loading (ulog2kml.py:105-119) of the loaded log. The settings for rendering are not modelled. -/
def kmlDocument (coord : Bool → NpVal → NpVal → NpVal → P) (far : Nat → Bool) (fmt : NpVal → Str)
    (topics : OneOrList Str) (colors : OneOrList (Int → Except PyErr C)) (camera : Option Str) (u : ULog) :
    Except PyErr (KmlDoc C P) := do
  let changes ← flightModeChanges u
  let pairs ← topicColors topics colors
  let lines ← pairs.mapM fun p => do
    let l ← kmlPosition coord far p.2 changes u p.1
    .ok (l.map fun x => (p.1, x))
  let points ← kmlTriggers fmt (coord false) u camera
  .ok ⟨lines.flatten, points⟩

/-- the topics to load (ulog2kml.py:100-103) -/
def kmlFilter (topics : OneOrList Str) (camera : Option Str) : NameFilter :=
  .names (topicNames topics ++ [py! "vehicle_status"] ++ camera.toList)

/-- the names of the colours in the table (ulog2kml.py:48-53) -/
def colorTable : List Str := [
  py! "red", py! "green", py! "blue", py! "violet", py! "yellow", py! "orange", py! "burlywood",
  py! "azure", py! "lightblue", py! "lawngreen", py! "indianred", py! "hotpink", py! "bisque", py! "cyan",
  py! "darksalmon", py! "deepskyblue", py! "lime", py! "orchid"]

/-- `_kml_default_colors` (ulog2kml.py:45-54) -/
def defaultColors (x : Int) : Except PyErr Str := pyIndex colorTable (max x 0).toNat

end PyULog
