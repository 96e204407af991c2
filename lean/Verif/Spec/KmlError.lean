import Verif.Spec.ToolError
import Verif.Props.KmlDoc
/-
Why a log cannot be exported to KML: the reasons, each with its exception, restated on the contents of the log.
-/
namespace PyULog.Spec
open PyULog

/-- a line string with the colour of its mode, if there is one -/
def coloured (l : KmlLine (Except PyErr C) P) : Except PyErr (KmlLine C P) :=
  match l.color with
  | .ok c => .ok ⟨l.mode, c, l.points⟩
  | .error e => .error e

/-- no field has the name -/
def NoField (d : Dataset) (k : Str) : Prop := ∀ f ∈ d.fields, f.name ≠ k

/-- a coordinate is missing under both of its names -/
def NoCoordinate (d : Dataset) : Prop :=
  (NoField d (py! "lon") ∧ NoField d (py! "longitude_deg")) ∨
  (NoField d (py! "lat") ∧ NoField d (py! "latitude_deg")) ∨
  (NoField d (py! "alt") ∧ NoField d (py! "altitude_msl_m"))

/-- the types of the fields that are used: times are of type uint64_t, modes and fixes are not floats. All fields are
named. -/
def KmlTypes (u : ULog) : Prop :=
  ∀ d ∈ u.dataList, ∀ f ∈ d.fields, f.name ≠ [] ∧ (f.name = py! "timestamp" → f.type = .u64) ∧
    (f.name = py! "nav_state" ∨ f.name = py! "fix_type" → f.type ≠ .f32 ∧ f.type ≠ .f64)

/-- a mode without a default colour is reached by the track -/
def ColorObstacle (coord : Bool → NpVal → NpVal → NpVal → P) (far : Nat → Bool) (u : ULog) (topic : Str) : Prop :=
  ∃ d rows kept changes j, FirstOf u topic d ∧ Positions coord d rows ∧ Thinned far 0 rows kept ∧ Modes u changes ∧
    j ≤ reachedBy changes kept ∧ 18 ≤ modeOf changes j

/-- reasons why a log cannot be exported with the default colours -/
inductive KmlObstacle (coord : Bool → NpVal → NpVal → NpVal → P) (far : Nat → Bool) (u : ULog) (topic : Str)
    (camera : Option Str) : PyErr → Prop
  | noTopic : NoneOf u topic → KmlObstacle coord far u topic camera .keyError
  | noPosition {d} : FirstOf u topic d → NoCoordinate d ∨ NoField d (py! "timestamp") →
      KmlObstacle coord far u topic camera .keyError
  | color : ColorObstacle coord far u topic → KmlObstacle coord far u topic camera .indexError
  | camera {c d} : ¬ ColorObstacle coord far u topic → camera = some c → FirstOf u c d →
      NoCoordinate d ∨ NoField d (py! "seq") → KmlObstacle coord far u topic camera .keyError

end PyULog.Spec
