import Verif.Props.Framing
/-
Property theorems: C46 (a malformed message loses the rest of the section), C47 (padding bytes are
not accepted), C48 (truncated definitions are not reported). The three properties are false; the
theorems show the failures and what holds instead.
-/
namespace PyULog
open Spec

/-! ### C46 -/

/-- a text message that is too short for its level and timestamp -/
def Sample.short : Nat × Bytes := (tyL, [54, 1])

def Sample.sub : Nat × Bytes := (tyA, [0, 3, 0] ++ Sample.asc (py! "a"))

/-- **C46 is false**: a text message of two bytes ends the section silently. The sample after it is
lost, and the file is not marked corrupt. -/
theorem C46_short_message_loses_rest :
    (∃ u, load 20 {} (Sample.header ++ encMsgs Sample.defs ++
        encMsgs [Sample.sub, Sample.short, Sample.da 110 7]) = .ok u ∧
      u.dataList = [] ∧ u.fileCorrupt = false) ∧
    (∃ u, load 20 {} (Sample.header ++ encMsgs Sample.defs ++
        encMsgs [Sample.sub, Sample.da 110 7]) = .ok u ∧ u.dataList ≠ []) := by
  refine ⟨⟨Sample.get (load 20 {} (Sample.header ++ encMsgs Sample.defs ++
        encMsgs [Sample.sub, Sample.short, Sample.da 110 7])), ?_⟩,
    ⟨Sample.get (load 20 {} (Sample.header ++ encMsgs Sample.defs ++
        encMsgs [Sample.sub, Sample.da 110 7])), ?_⟩⟩ <;> decide +kernel

/-- what happens in general: nothing after a message that raises `struct.error` is processed -/
theorem C46_struct_error_ends_section (cfg : Cfg) (u u' : ULog) (m : Nat × Bytes)
    (l : List (Nat × Bytes)) (h : handleData cfg u m.1 m.2 = some (.err .structError u')) :
    runData cfg (m :: l) u = .stopped u' := by
  simp only [runData, h]

/-- messages that raise `struct.error`: text messages, subscriptions and dropouts of the wrong
length, and data messages without an id -/
theorem C46_too_short (cfg : Cfg) (u : ULog) (d : Bytes) :
    (d.length < 9 → handleData cfg u tyL d = some (.err .structError u)) ∧
    (d.length < 11 → handleData cfg u tyC d = some (.err .structError u)) ∧
    (d.length < 3 → handleData cfg u tyA d = some (.err .structError u)) ∧
    (d.length < 2 → handleData cfg u tyD d = some (.err .structError u)) ∧
    (d.length ≠ 2 → handleData cfg u tyO d = some (.err .structError u)) := by
  have hu : ∀ n (b : Bytes), b.length ≠ n → unpackU n b = .error .structError := by
    intro n b h; unfold unpackU; rw [if_neg h]
  refine ⟨fun h => ?_, fun h => ?_, fun h => ?_, fun h => ?_, fun h => ?_⟩
  · rw [show tyL = MSG_TYPE_LOGGING from rfl, handleData_L]
    have : parseLogging cfg.ign d = .error .structError := by
      unfold parseLogging
      by_cases h1 : 1 ≤ d.length
      · rw [unpackU_ok (by simp; omega), ok_bind, hu 8 _ (by simp; omega)]; rfl
      · rw [hu 1 _ (by simp; omega)]; rfl
    rw [this]; rfl
  · rw [show tyC = MSG_TYPE_LOGGING_TAGGED from rfl, handleData_C]
    have : parseLoggingTagged cfg.ign d = .error .structError := by
      unfold parseLoggingTagged
      by_cases h1 : 1 ≤ d.length
      · rw [unpackU_ok (by simp; omega), ok_bind]
        by_cases h3 : 3 ≤ d.length
        · rw [unpackU_ok (by simp; omega), ok_bind, hu 8 _ (by simp; omega)]; rfl
        · rw [hu 2 _ (by simp; omega)]; rfl
      · rw [hu 1 _ (by simp; omega)]; rfl
    rw [this]; rfl
  · rw [show tyA = MSG_TYPE_ADD_LOGGED_MSG from rfl, handleData_A]
    have : parseAddLogged cfg.ign u.formats cfg.depth d = .error .structError := by
      unfold parseAddLogged
      by_cases h1 : 1 ≤ d.length
      · rw [unpackU_ok (by simp; omega), ok_bind, hu 2 _ (by simp; omega)]; rfl
      · rw [hu 1 _ (by simp; omega)]; rfl
    rw [this]; rfl
  · rw [show tyD = MSG_TYPE_DATA from rfl, handleData_D]
    unfold addData
    rw [hu 2 _ (by simp; omega)]
  · rw [show tyO = MSG_TYPE_DROPOUT from rfl, handleData_O]
    have : parseDropout d u.lastTs = .error .structError := by
      unfold parseDropout
      rw [hu 2 _ h]; rfl
    rw [this]; rfl

/-- **C46** (the part that holds): a data message of the wrong size, or for an unknown id, is left out
and marks the file corrupt; the messages after it are processed as if it were not there. -/
theorem C46_bad_data_message_partial (cfg : Cfg) (u : ULog) (d : Bytes) (l : List (Nat × Bytes))
    (hu : SubsOk u) (h : malformed (u, tyD, d)) :
    ∃ ids, runData cfg ((tyD, d) :: l) u
      = runData cfg l { u with missingIds := ids, fileCorrupt := true } := by
  obtain ⟨_, h2, h⟩ := h
  simp only at h2 h
  simp only [runData]
  rw [show tyD = MSG_TYPE_DATA from rfl, handleData_D]
  rcases addData_cases u d hu with ⟨hl, _⟩ | ⟨_, hn, ⟨hf, _⟩ | ⟨_, he⟩⟩ |
    ⟨_, s, hs, ⟨_, he⟩ | ⟨hl, _⟩⟩
  · omega
  · rcases h with ⟨_, hnf⟩ | ⟨s, hs, _⟩
    · exact absurd hf hnf
    · rw [hn] at hs; cases hs
  · rw [he]; exact ⟨_, rfl⟩
  · rw [he]; exact ⟨u.missingIds, rfl⟩
  · rcases h with ⟨hn, _⟩ | ⟨s', hs', hne⟩
    · rw [hn] at hs; cases hs
    · rw [hs] at hs'; cases hs'; exact absurd hl hne

/-- such a message occurs in the sample file -/
example : (Sample.trace.map fun x => (x.2.1, x.2.2.length))[12]? = some (tyD, 4) ∧
    Sample.loaded.fileCorrupt = true := by decide +kernel

/-! ### C47 -/

/-- **C47 is false for every format and every message**: a data message that is longer than the
columns of its subscription, for instance because it carries the trailing padding, is dropped and
marks the file corrupt. -/
theorem C47_padding_rejected (cfg : Cfg) (u : ULog) (d : Bytes) (s : Sub) (hu : SubsOk u)
    (h2 : 2 ≤ d.length) (hs : u.subs.get? (leAt d 0 2) = some s)
    (hpad : 2 + rowSize s.fields < d.length) :
    handleData cfg u tyD d = some (.ok { u with fileCorrupt := true }) := by
  rw [show tyD = MSG_TYPE_DATA from rfl, handleData_D]
  rcases addData_cases u d hu with ⟨hl, _⟩ | ⟨_, hn, _⟩ | ⟨_, s', hs', ⟨_, he⟩ | ⟨hl, _⟩⟩
  · omega
  · rw [hn] at hs; cases hs
  · rw [he]
  · rw [hs] at hs'; cases hs'; omega

def Sample.subB : Nat × Bytes := (tyA, [1, 4, 0] ++ Sample.asc (py! "b"))

/-- the format `b` of the sample file ends with `uint8_t[2] _padding0`: a sample with these two bytes
is lost, the same sample without them is loaded -/
theorem C47_padding_example :
    (∃ u, load 20 {} (Sample.header ++ encMsgs Sample.defs ++
        encMsgs [Sample.subB, (tyD, (Sample.db 120).2 ++ [0, 0])]) = .ok u ∧
      u.dataList = [] ∧ u.fileCorrupt = true) ∧
    (∃ u, load 20 {} (Sample.header ++ encMsgs Sample.defs ++
        encMsgs [Sample.subB, Sample.db 120]) = .ok u ∧
      u.dataList.length = 1 ∧ u.fileCorrupt = false) := by
  refine ⟨⟨Sample.get (load 20 {} (Sample.header ++ encMsgs Sample.defs ++
        encMsgs [Sample.subB, (tyD, (Sample.db 120).2 ++ [0, 0])])), ?_⟩,
    ⟨Sample.get (load 20 {} (Sample.header ++ encMsgs Sample.defs ++
        encMsgs [Sample.subB, Sample.db 120])), ?_⟩⟩ <;> decide +kernel

/-! ### C48 -/

/-- **C48 is false**: the sample file cut after 40 bytes, in the middle of a format message, loads
without exception and is not marked corrupt; the format is loaded with the fields that are left. -/
theorem C48_truncated_format_accepted :
    ∃ u, load 20 {} (Sample.file.take 40) = .ok u ∧ u.fileCorrupt = false ∧
      u.formats.map (fun p => (p.1, p.2.fields.map (·.name)))
        = [(py! "a", [py! "timestamp"])] := by
  refine ⟨Sample.get (load 20 {} (Sample.file.take 40)), ?_⟩
  decide +kernel

/-- **C48** (the part that holds): a file that ends inside the three-byte header of a definition
message is reported: `struct.error` leaves the constructor. -/
theorem C48_cut_in_header_partial (fuel : Nat) (cfg : Cfg) (hdr : Bytes)
    (defs : List (Nat × Bytes)) (tail : Bytes) (u0 u : ULog)
    (hh : hdr.length = 16) (hu : readHeader hdr = .ok u0) (hd : ∀ m ∈ defs, DefFrame m)
    (hr : runDefs cfg defs u0 = .done u) (ht : tail.length = 1 ∨ tail.length = 2)
    (hfuel : defs.length < fuel) :
    load fuel cfg (hdr ++ encMsgs defs ++ tail) = .raised .structError := by
  rw [List.append_assoc, load_eq, readHeader_append _ _ hh, hu]
  simp only
  obtain ⟨n, hn⟩ := Nat.exists_eq_add_of_le hfuel
  rw [show fuel = defs.length + (n + 1) by omega]
  have hdl := defLoop_frames cfg defs hd hdr tail (n + 1) 16 u0
  rw [hh, hr] at hdl
  rw [hdl]
  simp only
  have : defStep cfg (hdr ++ (encMsgs defs ++ tail))
      { pos := 16 + (encMsgs defs).length, cur := 16, u := u } = .raise .structError := by
    unfold defStep
    simp only
    have e := readAt_append (hdr ++ encMsgs defs) tail 3
    rw [List.length_append, hh, List.append_assoc] at e
    rw [e, List.length_take]
    rw [if_neg (by omega), if_pos (by omega)]
  rw [defLoop, this]

example : load 20 {} (Sample.header ++ encMsgs Sample.defs ++ [7]) = .raised .structError := by
  decide +kernel

end PyULog
