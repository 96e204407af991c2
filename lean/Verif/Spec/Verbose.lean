import Verif.Model.Verbose
import Verif.Spec.Prints
import Verif.Spec.ToolError
import Verif.Props.Ros2
/-
What `--verbose` should add.
-/
namespace PyULog.Spec
open PyULog

/-- a line that is not only for a verbose run -/
def quietLine (s : Str) : Bool := !((py! "I: ").isPrefixOf s || (py! "D: ").isPrefixOf s)

/-- every element of a set is listed once -/
def Lists (order : List Str → List Str) : Prop := ∀ l : List Str, l.Nodup → (order l).Perm l

/-- the topic as it is called in the log: with its instance, unless instance 0 is the only one -/
def TopicText (all : List Dataset) (d : Dataset) (s : Str) : Prop :=
  (Single all d.name → s = d.name) ∧ (¬ Single all d.name → s = d.name ++ py! " (" ++ natDec d.multiId ++ py! ")")

/-- the line that says that a field is missing in the type -/
def fieldLine (field topic type : Str) : Str :=
  py! "D: field " ++ field ++ py! " of " ++ topic ++ py! " not found in " ++ type

/-- the first line about a dataset -/
def topicLine (shown topic : Str) (n : Nat) : Str :=
  py! "D: Processing ulog topic " ++ shown ++ py! " with " ++ natDec n ++ py! " messages and ROS2 topic " ++ topic

/-- the lines for a machine: its distribution and where the types are -/
def siteLines (distro share : Option Str) : List Str :=
  [py! "I: ROS2 Distro: " ++ (if distro.getD [] = [] then py! "not detected" else distro.getD []),
    py! "I: ROS2 px4_msgs: " ++ (if share.getD [] = [] then py! "not found" else share.getD [])]

/-- the line with the version of the firmware -/
def versionLine (v : Option Str) : Str := py! "I: PX4 firmware version from ulog: " ++ v.getD (py! "not found")

end PyULog.Spec
