import Verif.Lemmas.Attr
import Verif.Spec.SampleRun
/-
Property theorems: C04 (last timestamp), C05 (corruption), C49 (text messages).
-/
namespace PyULog
open Spec

/-! ### C04 -/

/-- **C04.** After loading any file, `last_timestamp` is the maximum of `start_timestamp` and the
timestamps of all data messages that were accepted into a dataset. -/
theorem C04_last_timestamp (fuel : Nat) (cfg : Cfg) (bs : Bytes) (u : ULog)
    (h : load fuel cfg bs = .ok u) :
    u.lastTs = ((fileTrace fuel cfg bs).flatten.filterMap acceptedTs).foldl max u.startTs :=
  (load_tsInv h).2.1

/-- **C04**, while reading: before each processed message, `last_timestamp` is the maximum over the
messages before it; in particular it never decreases. -/
theorem C04_monotone (fuel : Nat) (cfg : Cfg) (bs : Bytes) (u : ULog)
    (h : load fuel cfg bs = .ok u) :
    let t := (fileTrace fuel cfg bs).flatten
    (∀ i (hi : i < t.length),
      t[i].1.lastTs = ((t.take i).filterMap acceptedTs).foldl max u.startTs) ∧
    (t.map fun x => x.1.lastTs).Pairwise (· ≤ ·) ∧ ∀ x ∈ t, x.1.lastTs ≤ u.lastTs := by
  intro t
  have hinv := load_tsInv h
  have hmono : ∀ (l m : List Tr), lastSeen u.startTs l ≤ lastSeen u.startTs (l ++ m) := by
    intro l m
    unfold lastSeen
    rw [List.filterMap_append, List.foldl_append]
    generalize (List.filterMap acceptedTs l).foldl max u.startTs = a
    generalize List.filterMap acceptedTs m = k
    induction k generalizing a with
    | nil => simp
    | cons x xs ih => exact Nat.le_trans (Nat.le_max_left a x) (ih _)
  refine ⟨hinv.2.2.2, ?_, ?_⟩
  · rw [List.pairwise_iff_getElem]
    intro i j hi hj hij
    simp only [List.length_map] at hi hj
    simp only [List.getElem_map]
    rw [hinv.2.2.2 i hi, hinv.2.2.2 j hj]
    have : t.take j = t.take i ++ (t.drop i).take (j - i) := by
      rw [← List.take_add]; congr 1; omega
    show lastSeen u.startTs (t.take i) ≤ lastSeen u.startTs (t.take j)
    rw [this]; exact hmono _ _
  · intro x hx
    obtain ⟨i, hi, rfl⟩ := List.getElem_of_mem hx
    rw [hinv.2.2.2 i hi, hinv.2.1]
    show lastSeen u.startTs (t.take i) ≤ lastSeen u.startTs t
    conv => rhs; rw [← List.take_append_drop i t]
    exact hmono _ _

/-- in the sample file the data goes back in time: 110, 120, 115 after the start at 100 -/
example : Sample.trace.filterMap acceptedTs = [110, 120, 115] ∧ Sample.loaded.startTs = 100 ∧
    Sample.loaded.lastTs = 120 ∧
    Sample.trace.map (·.1.lastTs)
      = [100, 100, 100, 110, 110, 110, 120, 120, 120, 120, 120, 120, 120, 120] := by
  decide +kernel

/-! ### C05 -/

/-- **C05** (effect): in any consistent state, a malformed data message only marks the file corrupt
(and records the missing id): no dataset buffer, no timestamp and nothing else changes. -/
theorem C05_malformed_data_adds_nothing (cfg : Cfg) (u : ULog) (d : Bytes) (hu : SubsOk u)
    (hm : malformed (u, tyD, d)) :
    ∃ miss, handleData cfg u tyD d
      = some (.ok { u with fileCorrupt := true, missingIds := miss }) := by
  obtain ⟨_, h2, hm⟩ := hm
  simp only at h2 hm
  rw [show tyD = MSG_TYPE_DATA from rfl, handleData_D]
  rcases addData_cases u d hu with ⟨h, _⟩ | ⟨_, hn, ⟨hf, h⟩ | ⟨hf, h⟩⟩ |
    ⟨_, s, hs, ⟨hl, h⟩ | ⟨hl, h⟩⟩
  · omega
  · rcases hm with ⟨_, hm⟩ | ⟨s, hs, _⟩
    · exact absurd hf hm
    · rw [hn] at hs; cases hs
  · exact ⟨_, by rw [h]⟩
  · exact ⟨u.missingIds, by rw [h]⟩
  · rcases hm with ⟨hm, _⟩ | ⟨s', hs', hne⟩
    · rw [hs] at hm; cases hm
    · rw [hs] at hs'; cases hs'; exact absurd hl hne

/-- **C05** (sticky, whole file): if the reader meets a malformed data message, or the object was
already marked corrupt before some message, the loaded object is marked corrupt; and every
processed message was processed in a consistent state, so the previous theorem applies to it. -/
theorem C05_corruption_sticky (fuel : Nat) (cfg : Cfg) (bs : Bytes) (u : ULog)
    (h : load fuel cfg bs = .ok u) :
    ∀ x ∈ (fileTrace fuel cfg bs).flatten,
      SubsOk x.1 ∧ (malformed x ∨ x.1.fileCorrupt = true → u.fileCorrupt = true) := by
  have key := load_inv (P := fun t v => SubsOk v ∧
      ∀ x ∈ t, SubsOk x.1 ∧ (malformed x ∨ x.1.fileCorrupt = true → v.fileCorrupt = true))
    (fun t v c hh hp => ⟨hp.1, fun x hx => ⟨(hp.2 x hx).1, fun hm => by
      simp [(hp.2 x hx).2 hm]⟩⟩)
    (fun t v d hp => ⟨SubsOk.empty rfl, hp.2⟩)
    (fun t v ty d o hp hd => by
      refine ⟨handleData_subsOk hp.1 hd, ?_⟩
      intro x hx
      have hpres := (handleData_pres _ _ _ _ _ hd).corrupt
      rcases List.mem_append.mp hx with hx | hx
      · exact ⟨(hp.2 x hx).1, fun hm => hpres ((hp.2 x hx).2 hm)⟩
      · simp at hx; subst hx
        refine ⟨hp.1, ?_⟩
        rintro (hm | hm)
        · have hty : ty = tyD := hm.1
          subst hty
          obtain ⟨miss, he⟩ := C05_malformed_data_adds_nothing cfg v d hp.1 hm
          rw [he] at hd
          cases hd; rfl
        · exact hpres hm)
    (fun s hs => ⟨SubsOk.empty (afterDefs_init hs).1, by simp⟩) h
  exact key.2

/-- executable form of `malformed` -/
def isMalformed (x : Tr) : Bool :=
  decide (x.2.1 = tyD) && decide (2 ≤ x.2.2.length) &&
    match x.1.subs.get? (leAt x.2.2 0 2) with
    | none => decide (leAt x.2.2 0 2 ∉ x.1.filteredIds)
    | some s => decide (x.2.2.length ≠ 2 + rowSize s.fields)

instance (x : Tr) : Decidable (malformed x) :=
  decidable_of_iff (isMalformed x = true) (by
    unfold malformed isMalformed
    cases x.1.subs.get? (leAt x.2.2 0 2) <;> simp [and_assoc])

/-- the sample file has one malformed data message, at position 12 -/
example : Sample.trace.map (fun x => decide (malformed x))
      = [false, false, false, false, false, false, false, false, false, false, false, false, true,
         false] ∧
    Sample.loaded.fileCorrupt = true := by decide +kernel

/-! ### C49 -/

theorem parseLogging_spec (ign : Bool) (d : Bytes) :
    (parseLogging ign d).toOption = if 9 ≤ d.length then
      (text ign (d.drop 9)).map fun m => ⟨byteAt d 0, leAt d 1 8, m⟩ else none := by
  unfold parseLogging
  by_cases h : 9 ≤ d.length
  · rw [if_pos h, unpackU_ok (by simp; omega), ok_bind, ← byteAt_zero _ (by omega),
      unpackU_ok (by simp; omega), ok_bind, ← leAt_slice _ 1 8 (by omega)]
    unfold text
    cases parseString ign (d.drop 9) <;> rfl
  · rw [if_neg h]
    by_cases h1 : 1 ≤ d.length
    · rw [unpackU_ok (by simp; omega), ok_bind]
      have : unpackU 8 (slice 1 9 d) = .error .structError := by
        unfold unpackU; rw [if_neg]; simp; omega
      rw [this]; rfl
    · have : unpackU 1 (slice 0 1 d) = .error .structError := by
        unfold unpackU; rw [if_neg]; simp; omega
      rw [this]; rfl

theorem parseLoggingTagged_spec (ign : Bool) (d : Bytes) :
    (parseLoggingTagged ign d).toOption = if 11 ≤ d.length then
      (text ign (d.drop 11)).map fun m => ⟨byteAt d 0, leAt d 1 2, leAt d 3 8, m⟩ else none := by
  unfold parseLoggingTagged
  by_cases h : 11 ≤ d.length
  · rw [if_pos h, unpackU_ok (by simp; omega), ok_bind, ← byteAt_zero _ (by omega),
      unpackU_ok (by simp; omega), ok_bind, ← leAt_slice _ 1 2 (by omega),
      unpackU_ok (by simp; omega), ok_bind, ← leAt_slice _ 3 8 (by omega)]
    unfold text
    cases parseString ign (d.drop 11) <;> rfl
  · rw [if_neg h]
    by_cases h1 : 1 ≤ d.length
    · rw [unpackU_ok (by simp; omega), ok_bind]
      by_cases h3 : 3 ≤ d.length
      · rw [unpackU_ok (by simp; omega), ok_bind]
        have : unpackU 8 (slice 3 11 d) = .error .structError := by
          unfold unpackU; rw [if_neg]; simp; omega
        rw [this]; rfl
      · have : unpackU 2 (slice 1 3 d) = .error .structError := by
          unfold unpackU; rw [if_neg]; simp; omega
        rw [this]; rfl
    · have : unpackU 1 (slice 0 1 d) = .error .structError := by
        unfold unpackU; rw [if_neg]; simp; omega
      rw [this]; rfl

/-- effect of one message on the logged text messages -/
theorem handleData_logged {cfg : Cfg} {u : ULog} {ty : Nat} {d : Bytes} {o : Out}
    (h : handleData cfg u ty d = some o) :
    o.state.logged = u.logged ++ (loggedOf cfg.ign (u, ty, d)).toList ∧
    o.state.tagged = match taggedOf cfg.ign (u, ty, d) with
      | some m => u.tagged.set m.tag ((u.tagged.get? m.tag).getD [] ++ [m])
      | none => u.tagged := by
  by_cases hL : ty = tyL
  · subst hL
    rw [show tyL = MSG_TYPE_LOGGING from rfl, handleData_L] at h
    cases h
    have ht : taggedOf cfg.ign (u, MSG_TYPE_LOGGING, d) = none := by
      unfold taggedOf; rw [if_neg]; rintro ⟨h, _⟩; exact absurd h (by simp only; decide)
    have hl : loggedOf cfg.ign (u, MSG_TYPE_LOGGING, d) = (parseLogging cfg.ign d).toOption := by
      rw [parseLogging_spec]; unfold loggedOf
      simp [show tyL = MSG_TYPE_LOGGING from rfl]
    rw [show tyL = MSG_TYPE_LOGGING from rfl, ht, hl]
    cases parseLogging cfg.ign d
    · exact ⟨(List.append_nil _).symm, rfl⟩
    · exact ⟨rfl, rfl⟩
  · by_cases hC : ty = tyC
    · subst hC
      rw [show tyC = MSG_TYPE_LOGGING_TAGGED from rfl, handleData_C] at h
      cases h
      have hl : loggedOf cfg.ign (u, MSG_TYPE_LOGGING_TAGGED, d) = none := by
        unfold loggedOf; rw [if_neg]; rintro ⟨h, _⟩; exact absurd h (by simp only; decide)
      have ht : taggedOf cfg.ign (u, MSG_TYPE_LOGGING_TAGGED, d)
          = (parseLoggingTagged cfg.ign d).toOption := by
        rw [parseLoggingTagged_spec]; unfold taggedOf
        simp [show tyC = MSG_TYPE_LOGGING_TAGGED from rfl]
      rw [show tyC = MSG_TYPE_LOGGING_TAGGED from rfl, ht, hl]
      cases parseLoggingTagged cfg.ign d
      · exact ⟨(List.append_nil _).symm, rfl⟩
      · exact ⟨(List.append_nil _).symm, rfl⟩
    · have hl : loggedOf cfg.ign (u, ty, d) = none := by simp [loggedOf, hL]
      have ht : taggedOf cfg.ign (u, ty, d) = none := by simp [taggedOf, hC]
      rw [hl, ht]
      simp only [Option.toList, List.append_nil]
      have := handleData_frame (fun u => (u.logged, u.tagged)) h (hL := fun e => absurd e hL)
        (hC := fun e => absurd e hC)
      simpa using this

/-- **C49.** After loading any file, `logged_messages` is exactly the list of the logging messages
processed in the data section, in file order, with level, timestamp and text; and
`logged_messages_tagged[tag]` is the list of the tagged ones with that tag (absent when there are
none). -/
theorem C49_logged_messages (fuel : Nat) (cfg : Cfg) (bs : Bytes) (u : ULog)
    (h : load fuel cfg bs = .ok u) :
    let t := (fileTrace fuel cfg bs).flatten
    u.logged = t.filterMap (loggedOf cfg.ign) ∧
    ∀ tag, u.tagged.get? tag
      = entry ((t.filterMap (taggedOf cfg.ign)).filter (fun m => m.tag = tag)) := by
  have key := load_inv (P := fun t v => v.logged = t.filterMap (loggedOf cfg.ign) ∧
      ∀ tag, v.tagged.get? tag
        = entry ((t.filterMap (taggedOf cfg.ign)).filter (fun m => m.tag = tag)))
    (fun t v c hh hp => hp) (fun t v d hp => hp)
    (fun t v ty d o hp hd => by
      obtain ⟨h1, h2⟩ := handleData_logged hd
      refine ⟨by rw [h1, hp.1, filterMap_snoc], ?_⟩
      intro tag
      rw [h2, filterMap_snoc, List.filter_append]
      cases ht : taggedOf cfg.ign (v, ty, d) with
      | none => simpa using hp.2 tag
      | some m =>
        simp only [Dict.get?_set, Option.toList]
        by_cases he : m.tag = tag
        · subst he
          rw [if_pos rfl, hp.2 m.tag]
          simp only [List.filter_cons, decide_true, if_true, List.filter_nil]
          exact (entry_snoc _ _).symm
        · rw [if_neg he, hp.2 tag]
          simp [he])
    (fun s hs => by
      have hi := afterDefs_init hs
      refine ⟨by rw [hi.2.2.1]; rfl, ?_⟩
      intro tag; rw [hi.2.2.2.1]; rfl) h
  exact key

example : Sample.loaded.logged = [⟨54, 111, py! "hi"⟩] ∧
    Sample.loaded.tagged.get? 9 = some [⟨54, 9, 121, py! "ho"⟩] ∧
    Sample.loaded.tagged.get? 8 = none := by decide +kernel

end PyULog
