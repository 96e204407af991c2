import Verif.Lemmas.Interleave
/-
Property theorems: C81 (the interleaving of the topics does not matter).
-/
namespace PyULog
open Spec

/-- **C81**: within a data section, messages of different streams can be interleaved in any way: a run
of data and text messages that keeps the order within every stream leaves the same object. -/
theorem C81_run (cfg : Cfg) (u : ULog) (a b rest : List (Nat × Bytes)) (hu : SubsOk u)
    (ha : ∀ m ∈ a, Taken cfg u m) (hs : SameStreams a b) :
    runData cfg (a ++ rest) u = runData cfg (b ++ rest) u := by
  have hb : ∀ m ∈ b, Taken cfg u m := fun m hm => ha m (streams_mem hs hm)
  rw [runData_append, runData_append, runData_taken a hu ha, runData_taken b hu hb, foldl_streams cfg a b hs u]

/-- **C81**: a file in which a run of data and text messages is interleaved differently loads as the same
object. -/
theorem C81_file (fuel : Nat) (cfg : Cfg) (hdr : Bytes) (defs pre a b post : List (Nat × Bytes)) (u0 : ULog)
    (hh : hdr.length = 16) (hu : readHeader hdr = .ok u0)
    (hd : ∀ m ∈ defs, DefFrame m) (hm : ∀ m ∈ pre ++ a ++ post, DataFrame m) (hne : pre ≠ [])
    (hends : ∀ m, pre.head? = some m → m.1 = tyA ∨ m.1 = tyL ∨ m.1 = tyC)
    (hap : ∀ u, runDefs cfg defs u0 = .done u → hasDataAppended u = false)
    (hfuel : defs.length < fuel)
    (hlen : 16 + (encMsgs defs).length + (encMsgs (pre ++ a ++ post)).length ≤ 2 ^ 50)
    (ha : ∀ u v, runDefs cfg defs u0 = .done u → runData cfg pre u = .done v → ∀ m ∈ a, Taken cfg v m)
    (hs : SameStreams a b) :
    load fuel cfg (hdr ++ encMsgs defs ++ encMsgs (pre ++ a ++ post)) =
      load fuel cfg (hdr ++ encMsgs defs ++ encMsgs (pre ++ b ++ post)) := by
  have hlb := encMsgs_streams a b hs
  have hmb : ∀ m ∈ pre ++ b ++ post, DataFrame m := by
    intro m h
    refine hm m ?_
    simp only [List.mem_append] at h ⊢
    rcases h with (h | h) | h
    · exact Or.inl (Or.inl h)
    · exact Or.inl (Or.inr (streams_mem hs h))
    · exact Or.inr h
  have hhead : ∀ (c : List (Nat × Bytes)) m, (pre ++ c ++ post).head? = some m → m.1 = tyA ∨ m.1 = tyL ∨ m.1 = tyC := by
    intro c m h
    refine hends m ?_
    cases pre with
    | nil => exact absurd rfl hne
    | cons x pre => exact h
  rw [C18_file fuel cfg hdr defs _ u0 hh hu hd hm (hhead a) hap hfuel hlen,
    C18_file fuel cfg hdr defs _ u0 hh hu hd hmb (hhead b) hap hfuel
      (by simp only [encMsgs_append, List.length_append] at hlen ⊢; omega)]
  unfold loadMsgs
  cases hr : runDefs cfg defs u0 with
  | stopped v => rfl
  | raised e => rfl
  | done v =>
    simp only
    have hv : SubsOk v := SubsOk.empty (runDefs_subs defs u0 v hr (by rw [readHeader_init hu]))
    rw [List.append_assoc, List.append_assoc, runData_append, runData_append cfg pre (b ++ post)]
    cases hp : runData cfg pre v with
    | stopped w => rfl
    | raised e => rfl
    | done w =>
      simp only
      have hw : SubsOk w := (runData_state cfg pre v w (by rw [hp]; rfl)).2 hv
      rw [C81_run cfg w a b post hw (ha v w hr hp) hs]

namespace Sample

/-- the first two messages of the sample and three samples of two topics with a text between them -/
def woven : List (Nat × Bytes) := [da 110 7, (tyL, 54 :: leEnc 8 111 ++ asc (py! "hi")), db 120, da 115 9]

/-- the same messages, each topic in one piece -/
def blocks : List (Nat × Bytes) := [db 120, da 110 7, da 115 9, (tyL, 54 :: leEnc 8 111 ++ asc (py! "hi"))]

end Sample

open Sample in
example : SameStreams woven blocks ∧ woven ≠ blocks := by decide +kernel

/-- the state after the definitions of the sample, if they can be read -/
def Sample.afterDefs (u0 : ULog) : ULog :=
  match runDefs {} Sample.defs u0 with
  | .done u => u
  | _ => {}

/-- the state after the first two messages of the sample -/
def Sample.afterPre (u : ULog) : ULog :=
  match runData {} (Sample.msgs.take 2) u with
  | .done u => u
  | _ => {}

/-- the two files of the sample meet the hypotheses of `C81_file` and load as the same object -/
example : load 20 {} (Sample.header ++ encMsgs Sample.defs ++
      encMsgs (Sample.msgs.take 2 ++ Sample.woven ++ Sample.msgs.drop 7)) =
    load 20 {} (Sample.header ++ encMsgs Sample.defs ++
      encMsgs (Sample.msgs.take 2 ++ Sample.blocks ++ Sample.msgs.drop 7)) := by
  refine C81_file 20 {} _ _ _ _ _ _ { fileVersion := 1, startTs := 100, lastTs := 100 } (by decide)
    rfl ?_ ?_ (by decide) (by decide) ?_ (by decide) (by decide +kernel) ?_ (by decide +kernel)
  · have : ∀ m ∈ Sample.defs, Fits m ∧ isPureDefType m.1 := by decide +kernel
    exact fun m h => ⟨(this m h).1, Or.inl (this m h).2⟩
  · have : ∀ m ∈ Sample.msgs.take 2 ++ Sample.woven ++ Sample.msgs.drop 7, Fits m ∧ isDataType m.1 := by
      decide +kernel
    exact fun m h => ⟨(this m h).1, Or.inl (this m h).2⟩
  · intro u h
    have : hasDataAppended (Sample.afterDefs { fileVersion := 1, startTs := 100, lastTs := 100 }) = false := by
      decide +kernel
    unfold Sample.afterDefs at this
    rw [h] at this
    exact this
  · intro u v h1 h2 m hm
    have : ∀ m ∈ Sample.woven, takenTest {}
        (Sample.afterPre (Sample.afterDefs { fileVersion := 1, startTs := 100, lastTs := 100 })) m = true := by
      decide +kernel
    unfold Sample.afterPre Sample.afterDefs at this
    rw [h1] at this
    simp only at this
    rw [h2] at this
    exact taken_of_test (this m hm)

/-- the order within a stream matters, and so does the place of a parameter change, which carries the time
of the data before it -/
theorem C81_barriers :
    (∃ a b : Nat × Bytes, stream a = stream b ∧
      load 20 {} (Sample.header ++ encMsgs Sample.defs ++ encMsgs (Sample.msgs.take 2 ++ [a, b])) ≠
        load 20 {} (Sample.header ++ encMsgs Sample.defs ++ encMsgs (Sample.msgs.take 2 ++ [b, a]))) ∧
    (∃ a b : Nat × Bytes, a.1 = tyD ∧ b.1 = tyP ∧
      load 20 {} (Sample.header ++ encMsgs Sample.defs ++ encMsgs (Sample.msgs.take 2 ++ [a, b])) ≠
        load 20 {} (Sample.header ++ encMsgs Sample.defs ++ encMsgs (Sample.msgs.take 2 ++ [b, a]))) ∧
    (∃ a b : Nat × Bytes, a.1 = tyD ∧ b.1 = tyO ∧
      load 20 {} (Sample.header ++ encMsgs Sample.defs ++ encMsgs (Sample.msgs.take 2 ++ [a, b])) ≠
        load 20 {} (Sample.header ++ encMsgs Sample.defs ++ encMsgs (Sample.msgs.take 2 ++ [b, a]))) :=
  ⟨⟨Sample.da 110 7, Sample.da 115 9, by decide +kernel⟩,
   ⟨Sample.da 110 7, (tyP, Sample.kv (py! "int32_t K") [8, 0, 0, 0]), by decide +kernel⟩,
   ⟨Sample.da 110 7, (tyO, [20, 0]), by decide +kernel⟩⟩

end PyULog
