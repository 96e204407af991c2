import Verif.Lemmas.Repeated
import Verif.Props.LostKey
/-
Property theorems: C116 (a definition or subscription that is written several times in a row counts once).
-/
namespace PyULog
open Spec

theorem enc_once_le (pre : List (Nat × Bytes)) (m : Nat × Bytes) (n : Nat) (post : List (Nat × Bytes)) :
    (encMsgs (pre ++ m :: post)).length ≤ (encMsgs (pre ++ (m :: List.replicate n m ++ post))).length := by
  have h : ∀ a b : List (Nat × Bytes), (encMsgs (a ++ b)).length = (encMsgs a).length + (encMsgs b).length :=
    fun a b => by rw [encMsgs_append, List.length_append]
  rw [h, h, show m :: post = [m] ++ post from rfl,
    show m :: List.replicate n m ++ post = [m] ++ (List.replicate n m ++ post) from rfl, h, h, h]
  omega

theorem mem_once {pre post : List (Nat × Bytes)} {m x : Nat × Bytes} (n : Nat) (h : x ∈ pre ++ m :: post) :
    x ∈ pre ++ (m :: List.replicate n m ++ post) := by
  simp only [List.mem_append, List.mem_cons] at h ⊢
  rcases h with h | h | h
  · exact .inl h
  · exact .inr (.inl (.inl h))
  · exact .inr (.inr h)

/-- **C116**: a message of the definition section that is written several times in a row has the same effect as
when it is written once: the file loads to the same object, or raises the same exception. (All types but the
multi info message.) -/
theorem C116_definition {fuel : Nat} {cfg : Cfg} {hdr : Bytes} {pre post msgs : List (Nat × Bytes)} {m : Nat × Bytes}
    {n : Nat} {u0 : ULog} (hf : PlainFile fuel cfg hdr (pre ++ (m :: List.replicate n m ++ post)) msgs u0)
    (hm : m.1 ≠ tyM) :
    load fuel cfg (fileDefRep hdr pre m n post msgs) = load fuel cfg (fileDefRep hdr pre m 0 post msgs) := by
  have hrun : runDefs cfg (pre ++ (m :: List.replicate n m ++ post)) u0 = runDefs cfg (pre ++ m :: post) u0 :=
    runDefs_tail cfg (runDefs_rep cfg hm n post) pre u0
  have hs : PlainFile fuel cfg hdr (pre ++ m :: post) msgs u0 := by
    refine { hf with hdefs := fun x hx => hf.hdefs x (mem_once n hx), notAppended := ?_, hfuel := ?_, size := ?_ }
    · rw [← hrun]; exact hf.notAppended
    · have := hf.hfuel
      simp only [List.length_append, List.length_cons] at this ⊢
      omega
    · have := hf.size
      have := enc_once_le pre m n post
      omega
  show load fuel cfg (hdr ++ encMsgs (pre ++ (m :: List.replicate n m ++ post)) ++ encMsgs msgs)
    = load fuel cfg (hdr ++ encMsgs (pre ++ m :: post) ++ encMsgs msgs)
  rw [plain_load hf, plain_load hs]
  unfold loadMsgs
  rw [hrun]

/-- **C116** for a message of the data section, of the types that do not add an entry to a list: info messages,
default parameters, subscriptions and messages of unknown type -/
theorem C116_data {fuel : Nat} {cfg : Cfg} {hdr : Bytes} {defs pre post : List (Nat × Bytes)} {m : Nat × Bytes}
    {n : Nat} {u0 : ULog} (hf : PlainFile fuel cfg hdr defs (pre ++ (m :: List.replicate n m ++ post)) u0)
    (hm : ¬ addsEntry m.1) :
    load fuel cfg (fileRep hdr defs pre m n post) = load fuel cfg (fileRep hdr defs pre m 0 post) := by
  have hs : PlainFile fuel cfg hdr defs (pre ++ m :: post) u0 := by
    refine { hf with hmsgs := fun x hx => hf.hmsgs x (mem_once n hx), ends := ?_, size := ?_ }
    · intro x hx
      refine hf.ends x ?_
      cases pre with
      | nil => exact hx
      | cons y pre => exact hx
    · have := hf.size
      have := enc_once_le pre m n post
      omega
  show load fuel cfg (hdr ++ encMsgs defs ++ encMsgs (pre ++ (m :: List.replicate n m ++ post)))
    = load fuel cfg (hdr ++ encMsgs defs ++ encMsgs (pre ++ m :: post))
  rw [plain_load hf, plain_load hs]
  unfold loadMsgs
  have hrun : ∀ u, runData cfg (pre ++ (m :: List.replicate n m ++ post)) u = runData cfg (pre ++ m :: post) u :=
    runData_tail cfg (runData_rep cfg hm n post) pre
  simp only [hrun]

namespace Sample

/-- the sample file with one message of its data section written repMsg in a row -/
def repMsg (i : Nat) : Bytes := header ++ encMsgs defs ++ encMsgs (msgs.take (i + 1) ++ msgs.drop i)

/-- the sample file with one definition written repMsg in a row -/
def repDef (i : Nat) : Bytes := header ++ encMsgs (defs.take (i + 1) ++ defs.drop i) ++ encMsgs msgs

end Sample

open Sample in
/-- the excluded types do count twice: a multi info message, a parameter change, a text, a sample, a dropout, a
tagged text -/
theorem C116_entries :
    ((get (load 20 {} (repDef 3))).infoMulti ≠ (get (load 20 {} file)).infoMulti) ∧
    (get (load 20 {} (repMsg 3))).changedParams.length = (get (load 20 {} file)).changedParams.length + 1 ∧
    (get (load 20 {} (repMsg 4))).logged.length = (get (load 20 {} file)).logged.length + 1 ∧
    (get (load 20 {} (repMsg 2))).dataList ≠ (get (load 20 {} file)).dataList ∧
    (get (load 20 {} (repMsg 8))).dropouts.length = (get (load 20 {} file)).dropouts.length + 1 ∧
    (get (load 20 {} (repMsg 10))).tagged ≠ (get (load 20 {} file)).tagged := by
  decide +kernel

open Sample in
/-- **C116 needs the repetition to follow at once**: when the subscription of `a` is written again after its first
sample, this sample is lost (the file loads as if the sample had not been there, but for the timestamps) -/
theorem C116_later :
    (get (load 20 {} (header ++ encMsgs defs ++ encMsgs (msgs.take 3 ++ msgs.take 1 ++ msgs.drop 3)))).dataList
      = (get (load 20 {} (without 2))).dataList ∧
    (get (load 20 {} (without 2))).dataList ≠ (get (load 20 {} file)).dataList := by
  decide +kernel

open Sample in
/-- the sample file, with a definition or the first subscription three times in a row, satisfies the hypotheses -/
example : ∃ u0, PlainFile 20 {} header (defs.take 6 ++ (defs[6] :: List.replicate 2 defs[6] ++ defs.drop 7)) msgs u0 ∧
    PlainFile 20 {} header defs ([] ++ (msgs[0] :: List.replicate 2 msgs[0] ++ msgs.drop 1)) u0 ∧
    (defs[6]).1 ≠ tyM ∧ ¬ addsEntry (msgs[0]).1 := by
  refine ⟨_, ⟨by decide, rfl, ?_, ?_, ?_, ?_, by decide, by decide +kernel⟩,
    ⟨by decide, rfl, ?_, ?_, ?_, ?_, by decide, by decide +kernel⟩, by decide, by decide⟩
  · have : ∀ m ∈ defs.take 6 ++ (defs[6] :: List.replicate 2 defs[6] ++ defs.drop 7), Fits m ∧ isPureDefType m.1 := by
      decide +kernel
    exact fun m h => ⟨(this m h).1, Or.inl (this m h).2⟩
  · have : ∀ m ∈ Sample.msgs, Fits m ∧ isDataType m.1 := by decide +kernel
    exact fun m h => ⟨(this m h).1, Or.inl (this m h).2⟩
  · intro m h
    cases h
    exact Or.inl rfl
  · intro u h
    have : (match runDefs {} (defs.take 6 ++ (defs[6] :: List.replicate 2 defs[6] ++ defs.drop 7))
        { fileVersion := 1, startTs := 100, lastTs := 100 } with
      | .done u => hasDataAppended u
      | _ => false) = false := by decide +kernel
    rw [show runDefs {} (defs.take 6 ++ (defs[6] :: List.replicate 2 defs[6] ++ defs.drop 7))
      { fileVersion := 1, startTs := 100, lastTs := 100 } = .done u from h] at this
    exact this
  · have : ∀ m ∈ Sample.defs, Fits m ∧ isPureDefType m.1 := by decide +kernel
    exact fun m h => ⟨(this m h).1, Or.inl (this m h).2⟩
  · have : ∀ m ∈ [] ++ (msgs[0] :: List.replicate 2 msgs[0] ++ msgs.drop 1), Fits m ∧ isDataType m.1 := by decide +kernel
    exact fun m h => ⟨(this m h).1, Or.inl (this m h).2⟩
  · intro m h
    cases h
    exact Or.inl rfl
  · intro u h
    have : (match runDefs {} Sample.defs { fileVersion := 1, startTs := 100, lastTs := 100 } with
      | .done u => hasDataAppended u
      | _ => false) = false := by decide +kernel
    rw [show runDefs {} Sample.defs { fileVersion := 1, startTs := 100, lastTs := 100 } = .done u from h]
      at this
    exact this

end PyULog
