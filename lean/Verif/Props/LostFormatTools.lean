import Verif.Props.LostFormat
import Verif.Props.LostTopicTools
import Verif.Props.Ros2
import Verif.Props.Kml
/-
Property theorems: C117, continued (the tools on a log of which a format is missing).
-/
namespace PyULog
open Spec

/-- **C117**: on the log without the format, all converters and listing tools give the same result or exception -/
theorem C117_tools {n : Str} {v v' : ULog} (h : WithoutFormat n v v') :
    (∀ fmt pre delim timeS timeE, convertCsv fmt pre delim timeS timeE v' = convertCsv fmt pre delim timeS timeE v) ∧
    (∀ message timeS timeE, extractFrom v' message timeS timeE = extractFrom v message timeS timeE) ∧
    (∀ required, gpsDump v' required = gpsDump v required) ∧
    (∀ env, exportBag env v' = exportBag env v) ∧
    (∀ fmt fl verbose, showInfo fmt fl verbose v' = showInfo fmt fl verbose v) ∧
    (∀ newline name, showMessage newline v' name = showMessage newline v name) ∧
    (∀ fmt o, paramsText fmt o v' = paramsText fmt o v) := by
  subst h
  exact ⟨fun _ _ _ _ _ => rfl, fun _ _ _ => rfl, fun _ => rfl, fun _ => rfl, fun _ _ _ => rfl, fun _ _ => rfl,
    fun _ _ => rfl⟩

/-- **C117**: so does `ulog_messages`, with the events -/
theorem C117_messages {J : Type} {n : Str} {v v' : ULog} (h : WithoutFormat n v v') (env : EventEnv EventParser J) :
    messageLines v' (timedEvents env v') = messageLines v (timedEvents env v) := by
  subst h
  rfl

open Sample in
/-- the sample log and the sample log with the format `c` satisfy the hypothesis -/
example : WithoutFormat (py! "c") (get (load 20 {} (header ++ encMsgs moreDefs ++ encMsgs msgs))) (get (load 20 {} file)) := by
  unfold WithoutFormat
  decide +kernel

end PyULog
