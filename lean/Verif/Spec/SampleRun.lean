import Verif.Spec.Sample
import Verif.Spec.Messages
/-
The sample file loads; used by the examples that accompany the theorems.
-/
namespace PyULog.Sample
open PyULog Spec

/-- the object of a successful load -/
def get : LoadRes → ULog
  | .ok u => u
  | _ => {}

def loaded : ULog := get (load 20 {} file)

theorem load_file : load 20 {} file = .ok loaded := by decide +kernel

/-- messages of the data section of the sample file -/
def trace : List Tr := (fileTrace 20 {} file).flatten

end PyULog.Sample
