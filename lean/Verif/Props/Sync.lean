import Verif.Lemmas.Attr
import Verif.Spec.SampleRun
/-
Giving up on sync sequences (C13) and the number of sync messages (C67).
-/
namespace PyULog
open Spec

/-- **C13**, after a failed search: once the reader has given up on sync sequences, no message of
the data section makes it search again. The flag stays off, a message of unknown type with a bad
header is followed by the next byte, and every other complete message by the byte after it, even
when there is a sync sequence in its payload. -/
theorem C13_stays_off (cfg : Cfg) (bs : Bytes) (readUntil : Nat) (s s' : RS)
    (hoff : s.u.hasSync = false) :
    (dataStep cfg bs readUntil s = .stop s' → s'.u.hasSync = false) ∧
    (dataStep cfg bs readUntil s = .cont s' →
      s'.u.hasSync = false ∧
      s'.pos = if ¬ isDataType (byteAt bs (s.pos + 2)) ∧
          badHeader (byteAt bs (s.pos + 2)) (leAt bs s.pos 2)
        then s.pos + 1 else s.pos + 3 + leAt bs s.pos 2) := by
  unfold dataStep
  simp only
  by_cases hh : (readAt bs s.pos 3).length = 3
  · obtain ⟨h3, hsz, hty⟩ := readAt_facts hh
    rw [if_neg (by simpa using hh), hsz, hty]
    by_cases hd : (readAt bs (s.pos + 3) (leAt bs s.pos 2)).length < leAt bs s.pos 2
    · rw [if_pos hd]
      exact ⟨fun h => (by cases h; exact hoff), fun h => by cases h⟩
    · rw [if_neg hd]
      have hlen : (readAt bs (s.pos + 3) (leAt bs s.pos 2)).length = leAt bs s.pos 2 := by
        have : (readAt bs (s.pos + 3) (leAt bs s.pos 2)).length ≤ leAt bs s.pos 2 := by
          simp [readAt]; omega
        omega
      rw [hlen]
      by_cases hr : s.cur + 3 + leAt bs s.pos 2 > readUntil
      · rw [if_pos hr]
        exact ⟨fun h => (by cases h; exact hoff), fun h => by cases h⟩
      · rw [if_neg hr]
        cases hdata : handleData cfg s.u (byteAt bs (s.pos + 2))
            (readAt bs (s.pos + 3) (leAt bs s.pos 2)) with
        | none =>
          have hk : knownData (byteAt bs (s.pos + 2)) = false := by
            cases hk : knownData (byteAt bs (s.pos + 2)) with
            | false => rfl
            | true =>
              rcases known_cases hk with e | e | e | e | e | e | e | e | e | e <;>
                (rw [e] at hdata; cases hdata)
          have hunk : ¬ isDataType (byteAt bs (s.pos + 2)) := by
            rw [isDataType_iff]; simp [hk]
          simp only
          refine ⟨fun h => (by cases h), fun h => ?_⟩
          cases h
          unfold handleUnknown
          simp only [hoff, Bool.false_eq_true, if_false]
          by_cases hb : badHeader (byteAt bs (s.pos + 2)) (leAt bs s.pos 2)
          · have hpc : packetCorrupt (byteAt bs (s.pos + 2)) (leAt bs s.pos 2) = true := by
              simpa [packetCorrupt, badHeader, or_assoc] using hb
            rw [if_pos hpc, if_pos ⟨hunk, hb⟩]
            exact ⟨rfl, by simp only; omega⟩
          · have hpc : packetCorrupt (byteAt bs (s.pos + 2)) (leAt bs s.pos 2) = false := by
              simpa [packetCorrupt, badHeader, not_or, and_assoc] using hb
            rw [if_neg (by simp [hpc]), if_neg (fun hc => hb hc.2)]
            exact ⟨hoff, rfl⟩
        | some o =>
          have hkn : isDataType (byteAt bs (s.pos + 2)) := by
            rw [isDataType_iff]
            cases hk : knownData (byteAt bs (s.pos + 2)) with
            | true => rfl
            | false => rw [handleData_none _ _ _ _ hk] at hdata; cases hdata
          have hs : o.state.hasSync = false := by
            rw [handleData_frame (fun u => u.hasSync) hdata]; exact hoff
          rw [if_neg (fun hc => hc.1 hkn)]
          cases o with
          | ok u => exact ⟨fun h => (by cases h), fun h => by cases h; exact ⟨hs, rfl⟩⟩
          | err e u =>
            cases e <;> first
              | exact ⟨fun h => (by cases h), fun h => by cases h; exact ⟨hs, rfl⟩⟩
              | exact ⟨fun h => (by cases h; exact hs), fun h => by cases h⟩
              | exact ⟨fun h => (by cases h), fun h => by cases h⟩
  · rw [if_pos (by simpa using hh)]
    exact ⟨fun h => (by cases h; exact hoff), fun h => by cases h⟩

/-- **C13** over whole sections: a section that starts after the reader gave up ends like this. -/
theorem C13_stays_off_section (cfg : Cfg) (bs : Bytes) (readUntil pos : Nat) (u v : ULog)
    (hoff : u.hasSync = false) (h : readData cfg bs readUntil pos u = .ok v) :
    v.hasSync = false := by
  have loop : ∀ (n : Nat) (s s' : RS), s.u.hasSync = false →
      dataLoop cfg bs readUntil n s = .done s' → s'.u.hasSync = false := by
    intro n
    induction n with
    | zero => intro s s' _ h; cases h
    | succ n ih =>
      intro s s' hs h
      simp only [dataLoop] at h
      cases hd : dataStep cfg bs readUntil s with
      | cont t => rw [hd] at h; exact ih t s' ((C13_stays_off cfg bs readUntil s t hs).2 hd).1 h
      | stop t => rw [hd] at h; cases h; exact (C13_stays_off cfg bs readUntil s _ hs).1 hd
      | raise e => rw [hd] at h; cases h
  unfold readData at h
  cases hl : dataLoop cfg bs readUntil (bs.length + 1) { pos := pos, cur := pos, u := u } with
  | outOfFuel => rw [hl] at h; cases h
  | raised e => rw [hl] at h; cases h
  | done s =>
    rw [hl] at h
    have hs := loop _ _ _ hoff hl
    simp only [finalize, bind, Except.bind] at h
    split at h
    · cases h
    · cases h; exact hs

/-- non-vacuity: garbage without a later sync sequence makes the reader give up; the sync sequence
inside the following unknown message is then skipped, while a reader that has not given up stops
right after it -/
example :
    let u : ULog := { hasSync := false }
    let bs : Bytes := [12, 0, 120, 1, 1] ++ syncMagic ++ [3, 3, 0, 0, 83]
    dataStep {} bs 100 { pos := 0, cur := 0, u := u } = .cont { pos := 15, cur := 15, u := u } ∧
    dataStep {} bs 100 { pos := 0, cur := 0, u := { u with hasSync := true } }
      = .cont { pos := 13, cur := 15, u := { u with hasSync := true, fileCorrupt := true } } := by
  decide +kernel

/-! ### C67 -/

/-- **C67.** After loading any file the number of sync packets is the number of complete sync
messages processed in the data section, of whatever payload. -/
theorem C67_sync_count (fuel : Nat) (cfg : Cfg) (bs : Bytes) (u : ULog)
    (h : load fuel cfg bs = .ok u) :
    u.syncCnt = ((fileTrace fuel cfg bs).flatten.filter (fun t => t.2.1 = 83)).length := by
  have key := load_inv (P := fun t v => v.syncCnt = (t.filter (fun t => t.2.1 = 83)).length)
    (fun t v c hh hp => hp) (fun t v d hp => hp)
    (fun t v ty d o hp hd => by
      rw [List.filter_append, List.length_append, ← hp]
      by_cases hS : ty = 83
      · subst hS
        rw [show (83 : Nat) = MSG_TYPE_SYNC from rfl, handleData_S] at hd
        cases hd
        rfl
      · have := handleData_frame (fun u => u.syncCnt) hd (hS := fun e => absurd e hS)
        simp [this, hS])
    (fun s hs => by rw [(afterDefs_init hs).2.2.2.2.2.2.2.2.2]; rfl) h
  exact key

/-- non-vacuity: two sync messages, one of them without the sync bytes -/
example :
    let bs := Sample.file ++ encMsgs [(tyS, syncMagic), (tyS, [1])]
    ∃ u, load 20 {} bs = .ok u ∧ u.syncCnt = 2 :=
  ⟨Sample.get (load 20 {} (Sample.file ++ encMsgs [(tyS, syncMagic), (tyS, [1])])),
    by decide +kernel, by decide +kernel⟩

end PyULog
