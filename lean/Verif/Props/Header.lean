import Verif.Lemmas.SpecBridge
/-
C01 (header gate), C02 (the data section terminates), C03 (the definition section does not
always terminate), C12 (incompatible flags), C13 (sync search).
-/
namespace PyULog
open Spec

/-! ### C01 -/

theorem readHeader_ok_iff (bs : Bytes) (u : ULog) :
    readHeader bs = .ok u ↔
      HeaderOk bs ∧ u = { fileVersion := byteAt bs 7, startTs := leAt bs 8 8,
                          lastTs := leAt bs 8 8 } := by
  unfold readHeader HeaderOk
  have hm : magic = HEADER_BYTES := rfl
  simp only [readAt, List.drop_zero, List.length_take]
  by_cases h16 : 16 ≤ bs.length
  · have h1 : min 16 bs.length = 16 := by omega
    have h2 : slice 0 7 (bs.take 16) = bs.take 7 := by simp [slice, List.take_take]
    have h3 : slice 7 8 (bs.take 16) = (bs.drop 7).take 1 := by
      simp [slice, List.take_take, List.drop_take]
    have h4 : (bs.take 16).drop 8 = (bs.drop 8).take 8 := by simp [List.drop_take]
    simp only [h1, ne_eq, not_true_eq_false, if_false, h2, h3, h4, hm, h16, true_and,
      leAt_eq bs 8 8 (by omega), byteAt_eq bs 7 (by omega)]
    split
    · rename_i h; simp [h]
    · rename_i h
      simp only [Classical.not_not] at h
      simp only [h, true_and, Except.ok.injEq]
      exact eq_comm
  · have h1 : ¬ min 16 bs.length = 16 := by omega
    simp [h1, h16]

theorem readHeader_err_iff (bs : Bytes) (e : PyErr) :
    readHeader bs = .error e ↔ ¬ HeaderOk bs ∧ e = .typeError := by
  constructor
  · intro h
    have hno : ¬ HeaderOk bs := by
      intro hk
      have := (readHeader_ok_iff bs _).mpr ⟨hk, rfl⟩
      rw [this] at h; cases h
    refine ⟨hno, ?_⟩
    unfold readHeader at h
    simp only at h
    split at h
    · cases h; rfl
    · split at h <;> cases h
      rfl
  · rintro ⟨h, rfl⟩
    cases hr : readHeader bs with
    | ok u => exact absurd ((readHeader_ok_iff bs u).mp hr).1 h
    | error e =>
      unfold readHeader at hr
      simp only at hr
      split at hr
      · cases hr; rfl
      · split at hr <;> cases hr
        rfl

/-- **C01.** Loading raises `TypeError` exactly for the files that do not start with a complete
ULog header (whatever the options), and every file that loads has the version and the start
timestamp of its header. -/
theorem C01_header_gate (fuel : Nat) (cfg : Cfg) (bs : Bytes) :
    (load fuel cfg bs = .raised .typeError ↔ ¬ HeaderOk bs) ∧
    (∀ u, load fuel cfg bs = .ok u →
      u.fileVersion = byteAt bs 7 ∧ u.startTs = leAt bs 8 8) := by
  rw [load_eq]
  constructor
  · constructor
    · intro h
      split at h
      · rename_i e heq
        exact ((readHeader_err_iff bs e).mp heq).1
      · split at h
        · rename_i e heq
          cases h
          rcases defLoop_err heq with h | ⟨h, _⟩ | h | h | h <;> cases h
        · cases h
        · split at h
          · cases h
          · rcases readSections_err h with ⟨h, _⟩ | h | h | h | h <;> cases h
    · intro h
      rw [(readHeader_err_iff bs _).mpr ⟨h, rfl⟩]
  · intro u h
    split at h
    · cases h
    · rename_i u0 heq
      obtain ⟨_, rfl⟩ := (readHeader_ok_iff bs u0).mp heq
      split at h
      · cases h
      · cases h
      · rename_i s hd
        have hp := defLoop_presD hd
        split at h
        · cases h
          exact ⟨hp.fileVersion, hp.startTs⟩
        · have hs := readSections_presS h
          exact ⟨hs.fileVersion.trans hp.fileVersion, hs.startTs.trans hp.startTs⟩

/-- non-vacuity: a minimal log passes the gate and loads with version 1 and start time 0x0201;
flipping one magic byte is refused -/
example :
    let f : Bytes := [0x55, 0x4c, 0x6f, 0x67, 0x01, 0x12, 0x35, 0x01, 1, 2, 0, 0, 0, 0, 0, 0]
    (∃ u, load 5 {} f = .ok u ∧ u.startTs = 0x0201) ∧
      load 5 {} (f.set 4 0) = .raised .typeError := by
  refine ⟨⟨_, rfl, rfl⟩, by decide⟩

/-! ### C02 -/

/-- **C02.** The data section of every file is read in at most one iteration per remaining byte
plus one: no start state, filter or read-until offset makes the reader loop. Consequently `load`
can only run forever inside the definition section. -/
theorem C02_data_section_terminates (cfg : Cfg) (bs : Bytes) (readUntil : Nat) (s : RS) (n : Nat)
    (hn : bs.length - s.pos < n) : dataLoop cfg bs readUntil n s ≠ .outOfFuel :=
  dataLoop_terminates cfg bs readUntil n s (by omega) (by omega)

/-- **C02** (per iteration): the file position strictly increases and stays within the file. -/
theorem C02_iteration_consumes (cfg : Cfg) (bs : Bytes) (readUntil : Nat) (s s' : RS)
    (h : dataStep cfg bs readUntil s = .cont s') : s.pos < s'.pos ∧ s'.pos ≤ bs.length :=
  dataStep_progress cfg bs readUntil s s' h

/-- **C02** (whole load): with a definition section that ends, the load ends. -/
theorem C02_load_ends (fuel : Nat) (cfg : Cfg) (bs : Bytes)
    (h : ∀ s, defLoop cfg bs fuel s ≠ .outOfFuel) : load fuel cfg bs ≠ .outOfFuel := by
  rw [load_eq]
  split
  · simp
  · split
    · simp
    · rename_i heq; exact absurd heq (h _)
    · split
      · simp
      · exact readSections_ne_outOfFuel _ _ _ _ _

/-- non-vacuity: a data section made of garbage takes the slow path (three iterations, advancing
one byte at a time) and still ends -/
example :
    dataLoop {} [1, 0, 0, 9, 1, 0, 0, 7] NO_LIMIT 2 ⟨0, 0, {}⟩ = .outOfFuel ∧
    dataLoop {} [1, 0, 0, 9, 1, 0, 0, 7] NO_LIMIT 3 ⟨0, 0, {}⟩
      = .done ⟨8, 8, { fileCorrupt := true, hasSync := false }⟩ := by decide

/-! ### C03 -/

/-- a file that ends in a message header of type 0 announcing one byte of payload -/
def hangFile : Bytes :=
  [0x55, 0x4c, 0x6f, 0x67, 0x01, 0x12, 0x35, 0x01, 0, 0, 0, 0, 0, 0, 0, 0, 1, 0, 0]

/-- **C03 is false.** For the 19-byte file `hangFile` the reader never leaves the definition
section: no number of iterations ends the load. -/
theorem C03_definitions_can_diverge :
    ¬ ∀ (cfg : Cfg) (bs : Bytes), ∃ fuel, load fuel cfg bs ≠ .outOfFuel := by
  intro h
  obtain ⟨fuel, hf⟩ := h {} hangFile
  apply hf
  have hstep : ∀ u : ULog, defStep {} hangFile ⟨16, 16, u⟩
      = .cont ⟨16, 16, { u with fileCorrupt := true }⟩ := by
    intro u; rfl
  have hloop : ∀ (n : Nat) (u : ULog), defLoop {} hangFile n ⟨16, 16, u⟩ = .outOfFuel := by
    intro n
    induction n with
    | zero => intro u; rfl
    | succ n ih => intro u; simp only [defLoop, hstep]; exact ih _
  rw [load_eq]
  have : readHeader hangFile = .ok { fileVersion := 1 } := by rfl
  rw [this]
  simp only [hloop]

/-- offsets at which a reader of the definition section that starts at `p` can look for a message:
after each message (or at the end of file if it is cut), and one byte after an invalid header -/
inductive Reach (bs : Bytes) (p : Nat) : Nat → Prop
  | start : Reach bs p p
  | next : Reach bs p q → q + 3 ≤ bs.length → Reach bs p (min (q + 3 + leAt bs q 2) bs.length)
  | skip : Reach bs p q → q + 3 + leAt bs q 2 ≤ bs.length →
      badHeader (byteAt bs (q + 2)) (leAt bs q 2) → Reach bs p (q + 1)

/-- a header at offset `p` that claims an invalid unknown message running past the end of file -/
def CutGarbageAt (bs : Bytes) (p : Nat) : Prop :=
  p + 3 ≤ bs.length ∧ bs.length < p + 3 + leAt bs p 2 ∧ ¬ isDefType (byteAt bs (p + 2)) ∧
    badHeader (byteAt bs (p + 2)) (leAt bs p 2)

theorem not_isDefType {cfg : Cfg} {u : ULog} {ty : Nat} {d : Bytes}
    (h1 : handleDef cfg u ty d = none) (h2 : ¬ endsDefs ty = true) : ¬ isDefType ty := by
  intro hm
  simp only [isDefType, List.mem_cons, List.not_mem_nil, or_false] at hm
  rcases hm with h | h | h | h | h | h | h | h | h <;> subst h
  all_goals first | (exact absurd rfl h2) | skip
  · exact absurd h1 (by rw [show tyI = MSG_TYPE_INFO from rfl, handleDef_I]; simp)
  · exact absurd h1 (by rw [show tyM = MSG_TYPE_INFO_MULTIPLE from rfl, handleDef_M]; simp)
  · exact absurd h1 (by rw [show tyF = MSG_TYPE_FORMAT from rfl, handleDef_F]; simp)
  · exact absurd h1 (by rw [show tyP = MSG_TYPE_PARAMETER from rfl, handleDef_P]; simp)
  · exact absurd h1 (by rw [show tyQ = MSG_TYPE_PARAMETER_DEFAULT from rfl, handleDef_Q]; simp)
  · exact absurd h1 (by rw [show tyB = MSG_TYPE_FLAG_BITS from rfl, handleDef_B]; simp)

theorem defStep_progress {cfg : Cfg} {bs : Bytes} {s s' : RS}
    (hg : ¬ CutGarbageAt bs s.pos) (h : defStep cfg bs s = .cont s') :
    s.pos < s'.pos ∧ s'.pos ≤ bs.length ∧ Reach bs s.pos s'.pos := by
  unfold defStep at h
  simp only at h
  split at h
  · cases h
  · split at h
    · cases h
    · rename_i h0 h3
      have h3 : (readAt bs s.pos 3).length = 3 := by simpa using h3
      have hpos : s.pos + 3 ≤ bs.length := by simp [readAt] at h3; omega
      have hsize : leNat ((readAt bs s.pos 3).take 2) = leAt bs s.pos 2 := by
        rw [leAt_eq _ _ _ (by omega)]; simp [readAt, List.take_take]
      have hty : leNat ((readAt bs s.pos 3).drop 2) = byteAt bs (s.pos + 2) := by
        rw [byteAt_eq _ _ (by omega)]; simp [readAt, List.drop_take]
      rw [hsize, hty] at h
      have hlen : (readAt bs (s.pos + 3) (leAt bs s.pos 2)).length
          = min (leAt bs s.pos 2) (bs.length - (s.pos + 3)) := by simp [readAt]
      have hnext : Reach bs s.pos
          (s.pos + 3 + (readAt bs (s.pos + 3) (leAt bs s.pos 2)).length) := by
        have := Reach.next (Reach.start (bs := bs) (p := s.pos)) hpos
        rw [hlen]
        rwa [show s.pos + 3 + min (leAt bs s.pos 2) (bs.length - (s.pos + 3))
          = min (s.pos + 3 + leAt bs s.pos 2) bs.length by omega]
      split at h
      · cases h; exact ⟨by simp; omega, by simp; omega, hnext⟩
      · cases h; exact ⟨by simp; omega, by simp; omega, hnext⟩
      · cases h
      · rename_i hnone
        split at h
        · split at h <;> cases h
        · rename_i hne
          split at h
          · rename_i hpc
            have hb : badHeader (byteAt bs (s.pos + 2)) (leAt bs s.pos 2) := by
              simpa [badHeader, packetCorrupt, or_assoc] using hpc
            have hfit : s.pos + 3 + leAt bs s.pos 2 ≤ bs.length := by
              rcases Nat.lt_or_ge bs.length (s.pos + 3 + leAt bs s.pos 2) with hl | hl
              · exact absurd ⟨hpos, hl, not_isDefType hnone hne, hb⟩ hg
              · exact hl
            have hfull : (readAt bs (s.pos + 3) (leAt bs s.pos 2)).length = leAt bs s.pos 2 := by
              omega
            split at h
            · rename_i p hp
              cases h
              simp only [seekBack, hfull] at hp
              split at hp
              · cases hp
                have : s.pos + 3 + leAt bs s.pos 2 - (2 + leAt bs s.pos 2) = s.pos + 1 := by omega
                simp only [this]
                exact ⟨by omega, by omega, Reach.skip Reach.start hfit hb⟩
              · cases hp
            · cases h
          · cases h; exact ⟨by simp; omega, by simp; omega, hnext⟩

theorem Reach.trans {bs : Bytes} {p q r : Nat} (h1 : Reach bs p q) (h2 : Reach bs q r) :
    Reach bs p r := by
  induction h2 with
  | start => exact h1
  | next _ hl ih => exact .next ih hl
  | skip _ hl hb ih => exact .skip ih hl hb

/-- **C03, partial.** What is proved: the definition section ends for every file in which no
message offset of the section holds the header of an invalid unknown message (type 0 or size above
10000) that runs past the end of the file. Missing from the full claim: exactly those files; it is
false for some of them (`C03_definitions_can_diverge`). -/
theorem C03_definitions_terminate_partial (cfg : Cfg) (bs : Bytes) (s : RS) (fuel : Nat)
    (hg : ∀ q, Reach bs s.pos q → ¬ CutGarbageAt bs q) (hf : bs.length - s.pos < fuel) :
    defLoop cfg bs fuel s ≠ .outOfFuel := by
  induction fuel generalizing s with
  | zero => omega
  | succ fuel ih =>
    simp only [defLoop]
    split
    · rename_i s' heq
      obtain ⟨h1, h2, h3⟩ := defStep_progress (hg _ .start) heq
      exact ih s' (fun p hp => hg p (h3.trans hp)) (by omega)
    · simp
    · simp

/-- non-vacuity: a log with an info message and a message of unknown type in its definitions, cut
inside the latter, meets the hypothesis at the start of the section (offset 16) -/
example :
    let f : Bytes := [0x55, 0x4c, 0x6f, 0x67, 0x01, 0x12, 0x35, 0x01, 1, 2, 0, 0, 0, 0, 0, 0]
      ++ encMsg (tyI, [6, 0x69, 0x6e, 0x74, 0x20, 0x61, 0x62]) ++ [2, 0, 60, 7]
    ∀ q, Reach f 16 q → ¬ CutGarbageAt f q := by
  intro f q h
  have hq : q = 16 ∨ q = 26 ∨ q = 30 := by
    induction h with
    | start => simp
    | next _ hl ih =>
      rcases ih with h | h | h <;> subst h
      · right; left; decide
      · right; right; decide
      · exact absurd hl (by decide)
    | skip _ hl hb ih =>
      unfold badHeader at hb
      rcases ih with h | h | h <;> subst h
      · exact absurd hb (by decide)
      · exact absurd hb (by decide)
      · exact absurd hl (by decide)
  unfold CutGarbageAt isDefType badHeader
  rcases hq with h | h | h <;> subst h <;> decide

/-! ### C12 -/

/-- bytes `a .. a+7` of a payload as numbers -/
def flagBytes (d : Bytes) (a : Nat) : List Nat := (List.range 8).map fun i => byteAt d (a + i)

/-- the three stored offsets -/
def storedOffsets (d : Bytes) : List Nat := [leAt d 16 8, leAt d 24 8, leAt d 32 8]

theorem dropTrailingZeros_spec (l : List Nat) :
    (∃ k, dropTrailingZeros l ++ List.replicate k 0 = l) ∧
      (dropTrailingZeros l).getLast? ≠ some 0 := by
  unfold dropTrailingZeros
  constructor
  · refine ⟨(l.reverse.takeWhile (· = 0)).length, ?_⟩
    have h1 : l.reverse = l.reverse.takeWhile (· = 0) ++ l.reverse.dropWhile (· = 0) := by
      rw [List.takeWhile_append_dropWhile]
    have h2 : l.reverse.takeWhile (· = 0)
        = List.replicate (l.reverse.takeWhile (· = 0)).length 0 := by
      apply List.eq_replicate_of_mem
      intro b hb
      have : ∀ m : List Nat, b ∈ m.takeWhile (· = 0) → b = 0 := by
        intro m
        induction m with
        | nil => simp
        | cons x xs ih =>
          simp only [List.takeWhile_cons]
          split
          · rename_i hx
            intro hm
            rcases List.mem_cons.mp hm with h | h
            · rw [h]; simpa using hx
            · exact ih h
          · simp
      exact this _ hb
    have h3 := congrArg List.reverse h1
    rw [List.reverse_reverse, List.reverse_append] at h3
    conv => rhs; rw [h3]
    congr 1
    conv => rhs; rw [h2]
    rw [List.reverse_replicate]
  · rw [List.getLast?_reverse]
    intro h
    have := List.head?_dropWhile_not (p := fun x => decide (x = 0)) (l := l.reverse)
    rw [h] at this
    simp at this

theorem unpackBytes_flag (d : Bytes) (a : Nat) (h : a + 8 ≤ d.length) :
    unpackBytes 8 (slice a (a + 8) d) = .ok (flagBytes d a) := by
  have hl : (slice a (a + 8) d).length = 8 := by simp; omega
  unfold unpackBytes
  rw [if_pos hl]
  congr 1
  apply List.ext_getElem
  · simp [flagBytes]; omega
  · intro i h1 h2
    simp only [flagBytes, List.getElem_map, List.getElem_range]
    have hi : i < 8 := by simpa [flagBytes] using h2
    simp [slice, byteAt, List.getD_eq_getElem?_getD]
    rw [List.getElem?_eq_getElem (by omega)]
    rfl

/-- **C12.** Processing of a flag message with payload `d`, in any state: too short raises
`struct.error`; any incompatible bit other than bit 0 of byte 0 is refused (`ValueError` for the
first byte, `NotImplementedError` for the others); every other message is accepted, and the object
then holds the stored flags and the stored offsets without trailing zeros. -/
theorem C12_incompatible_flags (cfg : Cfg) (u : ULog) (d : Bytes) :
    ∃ o, handleDef cfg u tyB d = some o ∧
      (d.length < 40 → o = .err .structError u) ∧
      (40 ≤ d.length →
        (byteAt d 8 ≥ 2 → ∃ u', o = .err .valueError u') ∧
        (byteAt d 8 < 2 → (∃ i, 9 ≤ i ∧ i < 16 ∧ byteAt d i ≠ 0) →
          ∃ u', o = .err .notImplemented u') ∧
        (byteAt d 8 < 2 → (∀ i, 9 ≤ i → i < 16 → byteAt d i = 0) →
          ∃ offs, o = .ok { u with compat := flagBytes d 0, incompat := flagBytes d 8,
                                   appendedOffsets := offs } ∧
            (∃ k, offs ++ List.replicate k 0 = storedOffsets d) ∧ offs.getLast? ≠ some 0)) := by
  refine ⟨_, handleDef_B cfg u d, ?_, ?_⟩
  · intro h
    have : parseFlagBits d = .error .structError := by
      cases hp : parseFlagBits d with
      | error e => rw [parseFlagBits_err hp]
      | ok f =>
        unfold parseFlagBits at hp
        obtain ⟨_, _, hp⟩ := except_bind_ok.mp hp
        obtain ⟨_, _, hp⟩ := except_bind_ok.mp hp
        obtain ⟨_, h3, _⟩ := except_bind_ok.mp hp
        unfold unpack3Q at h3
        split at h3
        · rename_i hl; simp at hl; omega
        · cases h3
    rw [this]
  · intro h
    have hp : parseFlagBits d =
        .ok (flagBytes d 0, flagBytes d 8, dropTrailingZeros (storedOffsets d)) := by
      unfold parseFlagBits
      rw [show slice 0 8 d = slice 0 (0 + 8) d from rfl, unpackBytes_flag d 0 (by omega)]
      rw [show slice 8 16 d = slice 8 (8 + 8) d from rfl, unpackBytes_flag d 8 (by omega)]
      have h3 : unpack3Q (slice 16 (16 + 24) d) = .ok (storedOffsets d) := by
        unfold unpack3Q
        rw [if_pos (by simp; omega)]
        unfold storedOffsets
        rw [leAt_eq _ _ _ (by omega), leAt_eq _ _ _ (by omega), leAt_eq _ _ _ (by omega)]
        simp [slice, List.drop_take, List.drop_drop, List.take_take]
      rw [h3]; rfl
    rw [hp]
    have hget : (flagBytes d 8).getD 0 0 = byteAt d 8 := rfl
    have hdrop : (flagBytes d 8).drop 1 = (List.range 7).map fun i => byteAt d (9 + i) := rfl
    have hany : ((flagBytes d 8).drop 1).any (fun x => decide (x ≠ 0)) = true ↔
        ∃ i, 9 ≤ i ∧ i < 16 ∧ byteAt d i ≠ 0 := by
      rw [hdrop]
      simp only [List.any_map, List.any_eq_true, List.mem_range, Function.comp,
        decide_eq_true_eq]
      constructor
      · rintro ⟨i, hi, hne⟩; exact ⟨9 + i, by omega, by omega, hne⟩
      · rintro ⟨i, h1, h2, hne⟩
        exact ⟨i - 9, by omega, by rw [show 9 + (i - 9) = i by omega]; exact hne⟩
    simp only [applyFlagBits, hget]
    refine ⟨?_, ?_, ?_⟩
    · intro hb
      rw [if_pos (by omega)]
      exact ⟨_, rfl⟩
    · intro hb hex
      rw [if_neg (by omega), if_pos (hany.mpr hex)]
      exact ⟨_, rfl⟩
    · intro hb hall
      rw [if_neg (by omega), if_neg]
      · obtain ⟨h1, h2⟩ := dropTrailingZeros_spec (storedOffsets d)
        exact ⟨_, rfl, h1, h2⟩
      · rw [hany]
        rintro ⟨i, h1, h2, h3⟩
        exact h3 (hall i h1 h2)

/-- **C12** at file level: when the flag message is the first message of the file, a refused flag
set makes the whole load fail with that exception. -/
theorem C12_load_refuses (fuel : Nat) (cfg : Cfg) (hdr d rest : Bytes)
    (hh : hdr.length = 16) (hm : hdr.take 7 = magic) (hd : 40 ≤ d.length) (hd2 : d.length < 65536) :
    (byteAt d 8 ≥ 2 →
      load (fuel + 1) cfg (hdr ++ encMsg (tyB, d) ++ rest) = .raised .valueError) ∧
    (byteAt d 8 < 2 → (∃ i, 9 ≤ i ∧ i < 16 ∧ byteAt d i ≠ 0) →
      load (fuel + 1) cfg (hdr ++ encMsg (tyB, d) ++ rest) = .raised .notImplemented) := by
  have hok : HeaderOk (hdr ++ encMsg (tyB, d) ++ rest) := by
    refine ⟨by simp; omega, ?_⟩
    rw [List.append_assoc, List.take_append_of_le_length (by omega), hm]
  obtain ⟨o, ho, _, h40⟩ := C12_incompatible_flags cfg
    { fileVersion := byteAt (hdr ++ encMsg (tyB, d) ++ rest) 7,
      startTs := leAt (hdr ++ encMsg (tyB, d) ++ rest) 8 8,
      lastTs := leAt (hdr ++ encMsg (tyB, d) ++ rest) 8 8 } d
  have hstep : ∀ e u', o = .err e u' → e ≠ .indexError →
      load (fuel + 1) cfg (hdr ++ encMsg (tyB, d) ++ rest) = .raised e := by
    intro e u' he hne
    rw [load_eq, (readHeader_ok_iff _ _).mpr ⟨hok, rfl⟩]
    simp only
    have hread := readAt_frame_hdr hdr d rest tyB hd2
    have hpay := readAt_frame_payload hdr d rest tyB hd2
    rw [hh] at hread hpay
    have : defStep cfg (hdr ++ encMsg (tyB, d) ++ rest) ⟨16, 16, 
        { fileVersion := byteAt (hdr ++ encMsg (tyB, d) ++ rest) 7,
          startTs := leAt (hdr ++ encMsg (tyB, d) ++ rest) 8 8,
          lastTs := leAt (hdr ++ encMsg (tyB, d) ++ rest) 8 8 }⟩ = .raise e := by
      unfold defStep
      simp only [hread]
      have h1 := leNat_frame_size d.length tyB hd2
      have h2 := leNat_frame_type d.length tyB (by decide)
      simp only [h1, h2, hpay, ho, he]
      cases e <;> first | rfl | contradiction
    simp only [defLoop, this]
  obtain ⟨hv, hn, _⟩ := h40 hd
  constructor
  · intro hb
    obtain ⟨u', he⟩ := hv hb
    exact hstep _ _ he (by decide)
  · intro hb hex
    obtain ⟨u', he⟩ := hn hb hex
    exact hstep _ _ he (by decide)

/-- non-vacuity: a flag message with only the appended bit, and one with an unknown bit -/
example :
    let d : Bytes := List.replicate 8 0 ++ [1] ++ List.replicate 7 0 ++ leEnc 8 500
      ++ List.replicate 16 0
    d.length = 40 ∧ byteAt d 8 < 2 ∧ (∀ i, i < 16 → 9 ≤ i → byteAt d i = 0) ∧
      byteAt (d.set 8 2) 8 ≥ 2 ∧ storedOffsets d = [500, 0, 0] := by
  decide

/-! ### C13 -/

/-- **C13.** When the reader meets, at `s.pos`, the complete message of an unknown type whose header
is invalid (type 0, empty, or more than 10000 bytes) and has not given up on sync sequences, it
continues right after the first occurrence of the 8 sync bytes at or after the next byte, wherever
that is in the file; if there is none it continues at the next byte and never searches again. In
both cases the file is marked corrupt. -/
theorem C13_resync (cfg : Cfg) (bs : Bytes) (readUntil : Nat) (s : RS)
    (h3 : s.pos + 3 + leAt bs s.pos 2 ≤ bs.length)
    (hunk : ¬ isDataType (byteAt bs (s.pos + 2)))
    (hbad : badHeader (byteAt bs (s.pos + 2)) (leAt bs s.pos 2))
    (hsync : s.u.hasSync = true)
    (hru : s.cur + 3 + leAt bs s.pos 2 ≤ readUntil) :
    (∀ i, FirstAt syncMagic bs (s.pos + 1) i →
      ∃ cur, dataStep cfg bs readUntil s
        = .cont { pos := i + 8, cur := cur, u := { s.u with fileCorrupt := true } }) ∧
    ((∀ i, s.pos + 1 ≤ i → ¬ OccursAt syncMagic bs i) →
      dataStep cfg bs readUntil s
        = .cont { pos := s.pos + 1, cur := s.pos + 1,
                  u := { s.u with fileCorrupt := true, hasSync := false } }) := by
  have hstep : dataStep cfg bs readUntil s = .cont (handleUnknown bs (byteAt bs (s.pos + 2))
      (leAt bs s.pos 2) ⟨s.pos + 3 + leAt bs s.pos 2, s.cur + 3 + leAt bs s.pos 2, s.u⟩) := by
    have hh : (readAt bs s.pos 3).length = 3 := by simp [readAt]; omega
    have hsize : leNat ((readAt bs s.pos 3).take 2) = leAt bs s.pos 2 := by
      rw [leAt_eq _ _ _ (by omega)]; simp [readAt, List.take_take]
    have hty : leNat ((readAt bs s.pos 3).drop 2) = byteAt bs (s.pos + 2) := by
      rw [byteAt_eq _ _ (by omega)]; simp [readAt, List.drop_take]
    have hlen : (readAt bs (s.pos + 3) (leAt bs s.pos 2)).length = leAt bs s.pos 2 := by
      simp [readAt]; omega
    have hk : knownData (byteAt bs (s.pos + 2)) = false := by
      rw [isDataType_iff] at hunk; simpa using hunk
    unfold dataStep
    simp only [hh, hsize, hty, hlen, handleData_none _ _ _ _ hk]
    rw [if_neg (by simp), if_neg (by omega), if_neg (by omega)]
  rw [hstep]
  have hpc : packetCorrupt (byteAt bs (s.pos + 2)) (leAt bs s.pos 2) = true := by
    simpa [packetCorrupt, badHeader, or_assoc] using hbad
  have hp : s.pos + 3 + leAt bs s.pos 2 - 2 - leAt bs s.pos 2 = s.pos + 1 := by omega
  have hsp := findSyncFwd_spec bs (bs.length + 1) (s.pos + 1) (by omega)
  unfold handleUnknown
  simp only [hpc, if_true, hsync, hp]
  constructor
  · rintro i ⟨h1, h2, h3⟩
    split
    · rename_i q heq
      rw [heq] at hsp
      obtain ⟨i', hq, hi1, hi2, hi3⟩ := hsp
      have : i' = i := by
        rw [occursAt_iff] at h2
        rcases Nat.lt_trichotomy i' i with hlt | heq | hgt
        · exact absurd ((occursAt_iff _ _).mpr hi2) (h3 i' hi1 hlt)
        · exact heq
        · exact absurd h2 (hi3 i h1 hgt)
      subst this; subst hq
      exact ⟨_, rfl⟩
    · rename_i heq
      rw [heq] at hsp
      exact absurd ((occursAt_iff _ _).mp h2) (hsp i h1)
  · intro hno
    split
    · rename_i q heq
      rw [heq] at hsp
      obtain ⟨i', hq, hi1, hi2, hi3⟩ := hsp
      exact absurd ((occursAt_iff _ _).mpr hi2) (hno i' hi1)
    · rfl

/-- non-vacuity: a sync sequence that starts 3 bytes before the first 512-byte search boundary is
found (test of the hypotheses on a concrete file) -/
example :
    let bs : Bytes := [0, 0, 0] ++ List.replicate 507 1 ++ syncMagic ++ [5, 5]
    FirstAt syncMagic bs 1 510 := by
  refine ⟨by omega, by decide +kernel, ?_⟩
  intro j h1 h2
  have : ∀ k, k < 510 → ¬ OccursAt syncMagic
      ([0, 0, 0] ++ List.replicate 507 1 ++ syncMagic ++ [5, 5]) k := by
    unfold OccursAt
    decide +kernel
  exact this j h2

/-- **C13** for sync sequences inside the payload of a message of unknown type with a plausible
header: the reader restarts right after the first one contained in the payload, and otherwise
skips the message without marking the file corrupt. -/
theorem C13_resync_in_payload (cfg : Cfg) (bs : Bytes) (readUntil : Nat) (s : RS)
    (h3 : s.pos + 3 + leAt bs s.pos 2 ≤ bs.length)
    (hunk : ¬ isDataType (byteAt bs (s.pos + 2)))
    (hgood : ¬ badHeader (byteAt bs (s.pos + 2)) (leAt bs s.pos 2))
    (hsync : s.u.hasSync = true)
    (hru : s.cur + 3 + leAt bs s.pos 2 ≤ readUntil) :
    (∀ i, FirstAt syncMagic bs (s.pos + 3) i → i + 8 ≤ s.pos + 3 + leAt bs s.pos 2 →
      dataStep cfg bs readUntil s
        = .cont { pos := i + 8, cur := s.cur + 3 + leAt bs s.pos 2,
                  u := { s.u with fileCorrupt := true } }) ∧
    ((∀ i, s.pos + 3 ≤ i → i + 8 ≤ s.pos + 3 + leAt bs s.pos 2 → ¬ OccursAt syncMagic bs i) →
      dataStep cfg bs readUntil s
        = .cont { pos := s.pos + 3 + leAt bs s.pos 2, cur := s.cur + 3 + leAt bs s.pos 2,
                  u := s.u }) := by
  have hstep : dataStep cfg bs readUntil s = .cont (handleUnknown bs (byteAt bs (s.pos + 2))
      (leAt bs s.pos 2) ⟨s.pos + 3 + leAt bs s.pos 2, s.cur + 3 + leAt bs s.pos 2, s.u⟩) := by
    have hh : (readAt bs s.pos 3).length = 3 := by simp [readAt]; omega
    have hsize : leNat ((readAt bs s.pos 3).take 2) = leAt bs s.pos 2 := by
      rw [leAt_eq _ _ _ (by omega)]; simp [readAt, List.take_take]
    have hty : leNat ((readAt bs s.pos 3).drop 2) = byteAt bs (s.pos + 2) := by
      rw [byteAt_eq _ _ (by omega)]; simp [readAt, List.drop_take]
    have hlen : (readAt bs (s.pos + 3) (leAt bs s.pos 2)).length = leAt bs s.pos 2 := by
      simp [readAt]; omega
    have hk : knownData (byteAt bs (s.pos + 2)) = false := by
      rw [isDataType_iff] at hunk; simpa using hunk
    unfold dataStep
    simp only [hh, hsize, hty, hlen, handleData_none _ _ _ _ hk]
    rw [if_neg (by simp), if_neg (by omega), if_neg (by omega)]
  rw [hstep]
  have hpc : packetCorrupt (byteAt bs (s.pos + 2)) (leAt bs s.pos 2) = false := by
    simpa [packetCorrupt, badHeader, not_or, and_assoc] using hgood
  have hsp := findSyncBack_spec bs (s.pos + 3 + leAt bs s.pos 2) (leAt bs s.pos 2) (by omega) h3
  have hp : s.pos + 3 + leAt bs s.pos 2 - leAt bs s.pos 2 = s.pos + 3 := by omega
  rw [hp] at hsp
  unfold handleUnknown
  simp only [hpc, if_false, hsync, if_true, Bool.false_eq_true]
  constructor
  · rintro i ⟨h1, h2, h3⟩ hin
    split
    · rename_i q heq
      rw [heq] at hsp
      obtain ⟨i', hq, hi1, hi4, hi2, hi3⟩ := hsp
      have : i' = i := by
        rw [occursAt_iff] at h2
        rcases Nat.lt_trichotomy i' i with hlt | heq | hgt
        · exact absurd ((occursAt_iff _ _).mpr hi2) (h3 i' hi1 hlt)
        · exact heq
        · exact absurd h2 (hi3 i h1 hgt)
      subst this; subst hq
      rfl
    · rename_i heq
      rw [heq] at hsp
      exact absurd ((occursAt_iff _ _).mp h2) (hsp i h1 hin)
  · intro hno
    split
    · rename_i q heq
      rw [heq] at hsp
      obtain ⟨i', hq, hi1, hi4, hi2, hi3⟩ := hsp
      exact absurd ((occursAt_iff _ _).mpr hi2) (hno i' hi1 (by omega))
    · rfl

end PyULog
