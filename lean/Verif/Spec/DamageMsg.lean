import Verif.Spec.Frames
import Verif.Spec.LoadError
/-
A log in which one message, parameter change or dropout is damaged.
-/
namespace PyULog.Spec
open PyULog

/-- the lists are the same, or one element is replaced by one to which it is related by `Q` -/
def OneDiffers {α : Type} (Q : α → α → Prop) (l l' : List α) : Prop :=
  l' = l ∨ ∃ (i : Nat) (x y : α), l[i]? = some x ∧ Q x y ∧ l' = l.set i y

/-- the messages of one tag differ in one, which has the same tag -/
def OneTagDiffers (t t' : Dict Nat (List TagMsg)) : Prop :=
  t' = t ∨ ∃ (tag : Nat) (l l' : List TagMsg), t.get? tag = some l ∧ OneDiffers (fun x y => y.tag = x.tag) l l' ∧
    t' = t.set tag l'

/-- the file with this message between the others -/
def fileWith (hdr : Bytes) (defs pre : List (Nat × Bytes)) (m : Nat × Bytes) (post : List (Nat × Bytes)) : Bytes :=
  hdr ++ encMsgs defs ++ encMsgs (pre ++ m :: post)

/-- the file consists of a header and complete messages, has no appended data, and can be read -/
structure PlainFile (fuel : Nat) (cfg : Cfg) (hdr : Bytes) (defs msgs : List (Nat × Bytes)) (u0 : ULog) : Prop where
  hhdr : hdr.length = 16
  header : readHeader hdr = .ok u0
  hdefs : ∀ m ∈ defs, DefFrame m
  hmsgs : ∀ m ∈ msgs, DataFrame m
  ends : ∀ m, msgs.head? = some m → m.1 = tyA ∨ m.1 = tyL ∨ m.1 = tyC
  notAppended : ∀ u, runDefs cfg defs u0 = .done u → hasDataAppended u = false
  hfuel : defs.length < fuel
  size : 16 + (encMsgs defs).length + (encMsgs msgs).length ≤ 2 ^ 50

end PyULog.Spec
