import Verif.Props.Limits
/-
A log that is cut inside the first message of its data section (C15): what the reader does for every such
cut.
-/
namespace PyULog
open Spec

/-- header and payload of the beginning of a message -/
theorem readAt_cut (pre : Bytes) (m : Nat × Bytes) (hm : Fits m) (j : Nat) (h3 : 3 ≤ j)
    (hj : j < 3 + m.2.length) :
    (readAt (pre ++ (encMsg m).take j) pre.length 3).length = 3 ∧
    leNat ((readAt (pre ++ (encMsg m).take j) pre.length 3).take 2) = m.2.length ∧
    leNat ((readAt (pre ++ (encMsg m).take j) pre.length 3).drop 2) = m.1 ∧
    (readAt (pre ++ (encMsg m).take j) (pre.length + 3) m.2.length).length = j - 3 := by
  obtain ⟨r1, r2, r3, _⟩ := readAt_frame pre [] m hm
  have e : readAt (pre ++ (encMsg m).take j) pre.length 3 = readAt (pre ++ (encMsg m ++ [])) pre.length 3 := by
    rw [readAt_append, readAt_append, List.take_take, Nat.min_eq_left h3, List.append_nil]
  rw [e]
  refine ⟨r1, r2, r3, ?_⟩
  unfold readAt
  rw [List.length_take, List.length_drop, List.length_append, List.length_take, encMsg_length]
  omega

/-- the step of the definition reader at a cut message of the data section: it goes back by the announced
size, not by what it has read -/
theorem defStep_cut (cfg : Cfg) (pre : Bytes) (m : Nat × Bytes) (hm : Fits m)
    (ht : m.1 = tyA ∨ m.1 = tyL ∨ m.1 = tyC) (j : Nat) (h3 : 3 ≤ j) (hj : j < 3 + m.2.length) (cur : Nat)
    (u : ULog) :
    defStep cfg (pre ++ (encMsg m).take j) { pos := pre.length, cur := cur, u := u } =
      if 3 + m.2.length ≤ pre.length + j then
        .stop { pos := pre.length + j - (3 + m.2.length), cur := cur, u := u }
      else .raise .osError := by
  obtain ⟨r1, r2, r3, r4⟩ := readAt_cut pre m hm j h3 hj
  unfold defStep
  simp only
  rw [if_neg (by rw [r1]; decide), if_neg (not_not_intro r1), r2, r3, r4]
  have hn : ∀ d, handleDef cfg u m.1 d = none := by
    intro d
    apply handleDef_none
    rcases ht with h | h | h <;> rw [h] <;> rfl
  have he : endsDefs m.1 = true := by rcases ht with h | h | h <;> rw [h] <;> rfl
  rw [hn]
  simp only [he, if_true]
  unfold seekBack
  rw [show pre.length + 3 + (j - 3) = pre.length + j by omega]
  by_cases hc : 3 + m.2.length ≤ pre.length + j
  · rw [if_pos hc, if_pos hc]
  · rw [if_neg hc, if_neg hc]

/-- **C15**, the remaining cuts, exactly: when `j` bytes of the first message are left, at least its three
byte header, the data section is read from a place before its beginning, by as many bytes as are missing
from the message; if there is no such place the constructor raises OSError. -/
theorem C15_first_cut (fuel : Nat) (cfg : Cfg) (hdr : Bytes) (defs : List (Nat × Bytes))
    (first : Nat × Bytes) (u0 u : ULog)
    (hh : hdr.length = 16) (hu : readHeader hdr = .ok u0)
    (hd : ∀ m ∈ defs, DefFrame m) (hm : Fits first)
    (hends : first.1 = tyA ∨ first.1 = tyL ∨ first.1 = tyC)
    (hr : runDefs cfg defs u0 = .done u) (hap : hasDataAppended u = false) (hfuel : defs.length < fuel)
    (j : Nat) (h3 : 3 ≤ j) (hj : j < 3 + first.2.length) :
    load fuel cfg (hdr ++ encMsgs defs ++ (encMsg first).take j) =
      let missing := 3 + first.2.length - j
      if missing ≤ 16 + (encMsgs defs).length then
        if cfg.headerOnly then .ok u
        else readData cfg (hdr ++ encMsgs defs ++ (encMsg first).take j) NO_LIMIT
          (16 + (encMsgs defs).length - missing) u
      else .raised .osError := by
  obtain ⟨n, hn⟩ := Nat.exists_eq_add_of_le hfuel
  have hdl := defLoop_frames cfg defs hd hdr ((encMsg first).take j) (n + 1) 16 u0
  rw [hh, hr, ← List.append_assoc] at hdl
  have hst := defStep_cut cfg (hdr ++ encMsgs defs) first hm hends j h3 hj 16 u
  rw [List.length_append, hh] at hst
  rw [load_eq, List.append_assoc, readHeader_append _ _ hh, hu, ← List.append_assoc]
  simp only
  rw [show fuel = defs.length + (n + 1) by omega, hdl]
  simp only
  rw [defLoop, hst]
  by_cases hc : 3 + first.2.length - j ≤ 16 + (encMsgs defs).length
  · rw [if_pos (by omega), if_pos hc]
    simp only
    by_cases ho : cfg.headerOnly = true
    · rw [if_pos ho, if_pos ho]
    · rw [if_neg ho, if_neg ho, hap]
      simp only [Bool.false_eq_true, if_false, readSections]
      congr 1
      omega
  · rw [if_neg (by omega), if_neg hc]

/-- **C15**: when the missing bytes are as many as the last definitions have, these are read a second
time, as messages of the data section; the file loads as if the data section repeated them. -/
theorem C15_read_again (fuel : Nat) (cfg : Cfg) (hdr : Bytes) (defs again : List (Nat × Bytes))
    (first : Nat × Bytes) (u0 u : ULog)
    (hh : hdr.length = 16) (hu : readHeader hdr = .ok u0)
    (hd : ∀ m ∈ defs ++ again, DefFrame m) (ha : ∀ m ∈ again, DataFrame m) (hm : Fits first)
    (hends : first.1 = tyA ∨ first.1 = tyL ∨ first.1 = tyC)
    (hr : runDefs cfg (defs ++ again) u0 = .done u) (hap : hasDataAppended u = false)
    (hfuel : (defs ++ again).length < fuel)
    (hlen : 16 + (encMsgs (defs ++ again)).length ≤ 2 ^ 50)
    (j : Nat) (h3 : 3 ≤ j) (hj : j < 3 + first.2.length)
    (hmiss : j + (encMsgs again).length = 3 + first.2.length) :
    load fuel cfg (hdr ++ encMsgs (defs ++ again) ++ (encMsg first).take j) =
      loadMsgs cfg (defs ++ again) again u0 := by
  rw [C15_first_cut fuel cfg hdr (defs ++ again) first u0 u hh hu hd hm hends hr hap hfuel j h3 hj]
  have hl : (encMsgs (defs ++ again)).length = (encMsgs defs).length + (encMsgs again).length := by
    rw [encMsgs_append, List.length_append]
  simp only
  rw [if_pos (by omega)]
  unfold loadMsgs
  rw [hr]
  simp only
  by_cases ho : cfg.headerOnly = true
  · rw [if_pos ho, if_pos ho]
  · rw [if_neg ho, if_neg ho]
    have hinc : Incomplete ((encMsg first).take j) := by
      right
      have e : leAt ((encMsg first).take j) 0 2 = first.2.length := by
        have hlj : ((encMsg first).take j).length = j := by
          rw [List.length_take, encMsg_length]; omega
        rw [leAt_eq _ _ _ (by omega)]
        have : (((encMsg first).take j).drop 0).take 2
            = [UInt8.ofNat (first.2.length % 256), UInt8.ofNat (first.2.length / 256)] := by
          rw [List.drop_zero, List.take_take, Nat.min_eq_left (by omega)]
          simp [encMsg]
        rw [this]
        exact leNat_size hm.2
      rw [e, List.length_take]
      omega
    have := readData_frames cfg NO_LIMIT again ha (hdr ++ encMsgs defs) ((encMsg first).take j) hinc
      (by rw [List.length_append, hh]; rw [hl] at hlen; unfold NO_LIMIT; omega) u
    rw [List.length_append, hh] at this
    rw [show 16 + (encMsgs (defs ++ again)).length - (3 + first.2.length - j) = 16 + (encMsgs defs).length by
      omega, ← this]
    congr 1
    rw [encMsgs_append]
    simp

/-- **C15** at the beginning of the data section: without any byte of the first message the file loads. -/
theorem C15_no_data (fuel : Nat) (cfg : Cfg) (hdr : Bytes) (defs : List (Nat × Bytes)) (u0 : ULog)
    (hh : hdr.length = 16) (hu : readHeader hdr = .ok u0) (hd : ∀ m ∈ defs, DefFrame m)
    (hap : ∀ u, runDefs cfg defs u0 = .done u → hasDataAppended u = false)
    (hfuel : defs.length < fuel) (hlen : 16 + (encMsgs defs).length ≤ 2 ^ 50) :
    load fuel cfg (hdr ++ encMsgs defs) = loadMsgs cfg defs [] u0 := by
  have := load_frames fuel cfg hdr defs [] [] u0 hh hu hd (by simp) (by simp) (Or.inl (by simp))
    (fun _ => rfl) hap hfuel (by simpa [encMsgs] using hlen)
  simpa [encMsgs] using this

/-- **C15**: one or two bytes of the first message: `struct.error`. -/
theorem C15_first_header (fuel : Nat) (cfg : Cfg) (hdr : Bytes) (defs : List (Nat × Bytes))
    (first : Nat × Bytes) (u0 u : ULog)
    (hh : hdr.length = 16) (hu : readHeader hdr = .ok u0) (hd : ∀ m ∈ defs, DefFrame m)
    (hr : runDefs cfg defs u0 = .done u) (hfuel : defs.length < fuel) (j : Nat) (hj : j = 1 ∨ j = 2) :
    load fuel cfg (hdr ++ encMsgs defs ++ (encMsg first).take j) = .raised .structError := by
  apply C48_cut_in_header_partial fuel cfg hdr defs _ u0 u hh hu hd hr _ hfuel
  rw [List.length_take, encMsg_length]
  omega

/-! ### examples -/

/-- a log with one parameter and a topic whose name has 14 characters -/
def Sample.phantomDefs : List (Nat × Bytes) :=
  [(tyF, asc (py! "vehicle_status:uint64_t timestamp;"))]

def Sample.phantomParam : List (Nat × Bytes) := [(tyP, kv (py! "int32_t K") [5, 0, 0, 0])]

def Sample.phantomSub : Nat × Bytes := (tyA, [0, 3, 0] ++ asc (py! "vehicle_status"))

/-- **C15**: a cut log that is not marked corrupt and reports a parameter change that was never logged:
the definition of the parameter is read again in the data section. -/
theorem C15_phantom_change : ∃ u,
    load 20 {} (Sample.header ++ encMsgs (Sample.phantomDefs ++ Sample.phantomParam) ++
      (encMsg Sample.phantomSub).take 3) = .ok u ∧ u.fileCorrupt = false ∧
      u.changedParams = [(100, py! "K", .int 5)] := by
  refine ⟨Sample.get (load 20 {} (Sample.header ++ encMsgs (Sample.phantomDefs ++ Sample.phantomParam) ++
      (encMsg Sample.phantomSub).take 3)), ?_⟩
  decide +kernel

/-- the hypotheses of `C15_read_again` -/
example : (∀ m ∈ Sample.phantomDefs ++ Sample.phantomParam, DefFrame m) ∧
    (∀ m ∈ Sample.phantomParam, DataFrame m) ∧ Fits Sample.phantomSub ∧
    3 + (encMsgs Sample.phantomParam).length = 3 + Sample.phantomSub.2.length := by
  refine ⟨?_, ?_, by decide, by decide⟩
  · intro m hm
    rcases (show m ∈ [(tyF, Sample.asc (py! "vehicle_status:uint64_t timestamp;")),
      (tyP, Sample.kv (py! "int32_t K") [5, 0, 0, 0])] from hm) with _ | ⟨_, _ | ⟨_, h⟩⟩
    · exact ⟨by decide, Or.inl (by decide)⟩
    · exact ⟨by decide, Or.inl (by decide)⟩
    · cases h
  · intro m hm
    rcases (show m ∈ [(tyP, Sample.kv (py! "int32_t K") [5, 0, 0, 0])] from hm) with _ | ⟨_, h⟩
    · exact ⟨by decide, Or.inl (by decide)⟩
    · cases h

/-- a subscription longer than everything before it: OSError -/
example : load 20 {} (Sample.header ++ encMsgs [] ++ (encMsg (tyA, List.replicate 40 65)).take 3) =
    .raised .osError := by decide +kernel

end PyULog
