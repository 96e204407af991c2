import Verif.Model.Basic
/-
Which PX4 topics have which ROS2 message type.
-/
namespace PyULog.Spec
open PyULog

/-- ASCII letters -/
def Letter (c : Char) : Prop := (65 ≤ c.toNat ∧ c.toNat ≤ 90) ∨ (97 ≤ c.toNat ∧ c.toNat ≤ 122)
instance : DecidablePred Letter := fun c => by unfold Letter; infer_instance

def Digit (c : Char) : Prop := 48 ≤ c.toNat ∧ c.toNat ≤ 57

def WordChar (c : Char) : Prop := Digit c ∨ Letter c ∨ c = '_'

/-- a text of at least one letter, digit or underscore -/
def Word (w : Str) : Prop := w ≠ [] ∧ ∀ c ∈ w, WordChar c

/-- the text, possibly with a line end after it -/
def Whole (t s : Str) : Prop := ∃ e, s = t ++ e ∧ (e = [] ∨ e = py! "\n")

def Starts (p s : Str) : Prop := ∃ r, s = p ++ r

/-- nothing or `_groundtruth` -/
def Truth (e : Str) : Prop := e = py! "_groundtruth" ∨ e = []

/-- topics with a type of another name, in order of precedence -/
def msgTypeTable : List ((Str → Prop) × Str) := [
  (fun s => ∃ d, Digit d ∧ Whole (py! "actuator_controls_status_" ++ [d]) s, py! "ActuatorControlsStatus"),
  (Starts (py! "actuator_outputs"), py! "ActuatorOutputs"),
  (Starts (py! "config_overrides"), py! "ConfigOverrides"),
  (fun s => ∃ x, (x ∈ [py! "gnss_yaw", py! "ev_yaw", py! "fake_hgt", py! "airspeed", py! "sideslip"] ∨
      ∃ w, Word w ∧ x = w ++ py! "_hgt") ∧ Whole (py! "estimator_aid_src_" ++ x) s, py! "EstimatorAidSource1d"),
  (fun s => ∃ x, (x ∈ [py! "drag", py! "aux_vel", py! "optical_flow", py! "aux_global_position"] ∨
      ∃ w, Word w ∧ x = w ++ py! "_pos") ∧ Whole (py! "estimator_aid_src_" ++ x) s, py! "EstimatorAidSource2d"),
  (fun s => ∃ x ∈ [py! "ev_vel", py! "gnss_vel", py! "gravity", py! "mag"],
      Whole (py! "estimator_aid_src_" ++ x) s, py! "EstimatorAidSource3d"),
  (Starts (py! "estimator_ev_pos_bias"), py! "EstimatorBias3d"),
  (fun s => ∃ x ∈ [py! "baro", py! "gnss_hgt"], Starts (py! "estimator_" ++ x ++ py! "_bias") s, py! "EstimatorBias"),
  (Starts (py! "estimator_innovation"), py! "EstimatorInnovations"),
  (Whole (py! "px4io_status"), py! "Px4ioStatus"),
  (Whole (py! "vehicle_gps_position"), py! "SensorGps"),
  (fun s => ∃ w r, Word w ∧ s = py! "sensors_status_" ++ w ++ r, py! "SensorsStatus"),
  (Starts (py! "vehicle_angular_velocity"), py! "VehicleAngularVelocity"),
  (fun s => ∃ w e, Word w ∧ Truth e ∧ Whole (w ++ py! "attitude" ++ e) s, py! "VehicleAttitude"),
  (fun s => ∃ w, Word w ∧ Whole (w ++ py! "attitude_setpoint") s, py! "VehicleAttitudeSetpoint"),
  (fun s => ∃ w r, Word w ∧ s = w ++ py! "_command" ++ r, py! "VehicleCommand"),
  (fun s => ∃ w x r, Word w ∧ Word x ∧ s = w ++ py! "_control_" ++ x ++ r, py! "VehicleControlMode"),
  (fun s => ∃ x ∈ [py! "aux_", py! "estimator_", py! "vehicle_", py! "external_ins_"], ∃ e, Truth e ∧
      Whole (x ++ py! "global_position" ++ e) s, py! "VehicleGlobalPosition"),
  (fun s => ∃ w e, Word w ∧ Truth e ∧ Whole (w ++ py! "_local_position" ++ e) s, py! "VehicleLocalPosition"),
  (fun s => ∃ w, Word w ∧ Whole (w ++ py! "_odometry") s, py! "VehicleOdometry"),
  (fun s => ∃ x ∈ [py! "estimator", py! "vehicle"], Whole (x ++ py! "_optical_flow_vel") s,
    py! "VehicleOpticalFlowVel"),
  (Starts (py! "vehicle_thrust_setpoint"), py! "VehicleThrustSetpoint"),
  (Starts (py! "vehicle_torque_setpoint"), py! "VehicleTorqueSetpoint"),
  (fun s => ∃ x ∈ [py! "estimator_", []], Whole (x ++ py! "wind") s, py! "Wind")]

/-- `type` belongs to the first entry of the table that holds for the topic -/
def FirstType (name : Str) (type : Option Str) : Prop :=
  match type with
  | some t => ∃ i, ∃ h : i < msgTypeTable.length, msgTypeTable[i].1 name ∧ msgTypeTable[i].2 = t ∧
      ∀ j, ∀ hj : j < i, ¬ (msgTypeTable[j]'(by omega)).1 name
  | none => ∀ e ∈ msgTypeTable, ¬ e.1 name

/-- upper and lower case of ASCII letters -/
def upper (c : Char) : Char := if 97 ≤ c.toNat ∧ c.toNat ≤ 122 then Char.ofNat (c.toNat - 32) else c
def lower (c : Char) : Char := if 65 ≤ c.toNat ∧ c.toNat ≤ 90 then Char.ofNat (c.toNat + 32) else c

/-- camel case: underscores go; a letter that directly follows a letter is lower case, every other
letter is upper case -/
def camel (before : Option Char) : Str → Str
  | [] => []
  | c :: cs =>
    if c = '_' then camel (some c) cs
    else (if before.any (fun b => decide (Letter b)) then lower c else upper c) :: camel (some c) cs

end PyULog.Spec
