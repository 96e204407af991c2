import Verif.Lemmas.Notices
import Verif.Lemmas.Attr
/-
C99: what the reader prints while it loads a file.
-/
namespace PyULog
open Spec

theorem defStates_trace (cfg : Cfg) (bs : Bytes) (n : Nat) (s : RS) :
    (defStates cfg bs n s).flatMap (defAt bs) = defsTrace cfg bs n s := by
  induction n generalizing s with
  | zero => rfl
  | succ n ih =>
    simp only [defStates, defsTrace, List.flatMap_cons]
    congr 1
    cases defStep cfg bs s with
    | cont s' => exact ih s'
    | stop s' => rfl
    | raise e => rfl

theorem defStates_reach {cfg : Cfg} {bs : Bytes} {n : Nat} {s s' : RS} (h : DefReach cfg bs s)
    (hs : s' ∈ defStates cfg bs n s) : DefReach cfg bs s' := by
  induction n generalizing s with
  | zero => cases hs
  | succ n ih =>
    simp only [defStates] at hs
    rcases List.mem_cons.mp hs with rfl | hs
    · exact h
    · split at hs
      · rename_i s1 h1
        exact ih (.step h h1) hs
      · cases hs

theorem defStates_next {cfg : Cfg} {bs : Bytes} {n : Nat} {s s1 s2 e : RS} (h : defLoop cfg bs n s = .done e)
    (h1 : s1 ∈ defStates cfg bs n s) (h2 : defStep cfg bs s1 = .cont s2) : s2 ∈ defStates cfg bs n s := by
  induction n generalizing s with
  | zero => cases h
  | succ n ih =>
    simp only [defLoop] at h
    simp only [defStates] at h1 ⊢
    rcases List.mem_cons.mp h1 with rfl | h1
    · rw [h2] at h ⊢
      cases n with
      | zero => cases h
      | succ n => exact List.mem_cons_of_mem _ (List.mem_cons_self ..)
    · apply List.mem_cons_of_mem
      split at h1
      · rename_i s3 h3
        rw [h3] at h
        exact ih h h1
      · cases h1

theorem loadStates_iff {fuel : Nat} {cfg : Cfg} {bs : Bytes} {s e : RS} (h : afterDefs fuel cfg bs = some e) :
    s ∈ loadStates fuel cfg bs ↔ DefReach cfg bs s := by
  obtain ⟨u0, hh, _, hl⟩ := afterDefs_presD h
  unfold loadStates
  rw [hh]
  constructor
  · exact defStates_reach (.start hh)
  · intro hr
    induction hr with
    | start h1 =>
      rw [hh] at h1
      cases h1
      cases fuel with
      | zero => cases hl
      | succ n => exact List.mem_cons_self ..
    | step _ h2 ih => exact defStates_next hl ih h2

/-- **C99.** The lines that are printed: a line for a version that is not known, then the lines of the definition
messages (flag bits, messages of the wrong form), then those of the messages of the data sections. -/
theorem C99_lines_any (fuel : Nat) (cfg : Cfg) (bs : Bytes)
    (ho : ∀ s, afterDefs fuel cfg bs = some s → ∀ off ∈ s.u.appendedOffsets, off < 2 ^ 63) :
    loadNotices fuel cfg bs =
      (if 1 < byteAt bs 7 ∧ 16 ≤ bs.length ∧ bs.take 7 = magic then [.version] else []) ++
      ((loadStates fuel cfg bs).flatMap fun s => saidFlags bs s.pos ++ (defAt bs s).flatMap (saidDef cfg)) ++
      (fileTrace fuel cfg bs).flatten.flatMap (said cfg) := by
  unfold loadNotices headerNotices loadStates fileTrace
  unfold afterDefs at ho ⊢
  cases hh : readHeader bs with
  | error e =>
    have := ((readHeader_err_iff bs e).mp hh).1
    rw [if_neg (fun h => this h.2)]
    rfl
  | ok u0 =>
    obtain ⟨h1, h2⟩ := (readHeader_ok_iff bs u0).mp hh
    simp only [hh] at ho ⊢
    rw [List.append_assoc]
    have hv : u0.fileVersion = byteAt bs 7 := by rw [h2]
    congr 1
    · by_cases h : 1 < byteAt bs 7
      · rw [if_pos (by omega), if_pos ⟨h, h1⟩]
      · rw [if_neg (by omega), if_neg (fun h' => h h'.1)]
    · rw [defLoopNotices_eq]
      congr 1
      cases hl : defLoop cfg bs fuel { pos := 16, cur := 16, u := u0 } with
      | raised e => rfl
      | outOfFuel => rfl
      | done s =>
        simp only [hl] at ho
        simp only
        split
        · rfl
        · apply sectionsNotices_eq
          intro off hoff
          exact ho s rfl off (appended_if hoff).2

/-- **C99.** The lines of a load that succeeds. -/
theorem C99_lines {fuel : Nat} {cfg : Cfg} {bs : Bytes} {u : ULog} (h : load fuel cfg bs = .ok u) :
    loadNotices fuel cfg bs =
      (if 1 < byteAt bs 7 then [.version] else []) ++
      ((loadStates fuel cfg bs).flatMap fun s => saidFlags bs s.pos ++ (defAt bs s).flatMap (saidDef cfg)) ++
      (fileTrace fuel cfg bs).flatten.flatMap (said cfg) := by
  rw [load_eq] at h
  unfold loadNotices headerNotices loadStates fileTrace afterDefs
  cases hh : readHeader bs with
  | error e => rw [hh] at h; cases h
  | ok u0 =>
    obtain ⟨h1, h2⟩ := (readHeader_ok_iff bs u0).mp hh
    simp only [hh] at h ⊢
    rw [List.append_assoc]
    have hv : u0.fileVersion = byteAt bs 7 := by rw [h2]
    congr 1
    · rw [hv]
    · rw [defLoopNotices_eq]
      congr 1
      cases hl : defLoop cfg bs fuel { pos := 16, cur := 16, u := u0 } with
      | raised e => rfl
      | outOfFuel => rfl
      | done s =>
        simp only [hl] at h ⊢
        split
        · rfl
        · rename_i hn
          rw [if_neg hn] at h
          exact sectionsNotices_eq _ _ _ _ _ (readSections_offs h)

theorem said_cases {cfg : Cfg} {x : Tr} {n : Notice} (h : n ∈ said cfg x) :
    (∃ id, n = .noSub id ∧ NoSubscription x id ∧ id ∉ x.1.missingIds) ∨
    (n = .badData ∧ DataObstacle cfg x.1 x.2.2 x.2.1 .indexError ∧ x.1.fileCorrupt = false) := by
  unfold said at h
  split at h
  · rename_i h1
    exact Or.inl ⟨_, List.mem_singleton.mp h, h1⟩
  · split at h
    · rename_i h1
      exact Or.inr ⟨List.mem_singleton.mp h, h1⟩
    · cases h

theorem saidDef_cases {cfg : Cfg} {x : Tr} {n : Notice} :
    n ∈ saidDef cfg x ↔ n = .badDefs ∧ DefObstacle cfg x.2.2 x.2.1 .indexError ∧ x.1.fileCorrupt = false := by
  unfold saidDef
  split
  · rename_i h1
    exact ⟨fun h => ⟨List.mem_singleton.mp h, h1⟩, fun h => List.mem_singleton.mpr h.1⟩
  · rename_i h1
    exact ⟨fun h => (by cases h), fun h => absurd h.2 h1⟩

theorem saidFlags_cases {bs : Bytes} {p : Nat} {n : Notice} :
    n ∈ saidFlags bs p ↔ p + 3 ≤ bs.length ∧ byteAt bs (p + 2) = tyB ∧
      ((n = .flagsLate (min (p + 3 + leAt bs p 2) bs.length) ∧
        min (p + 3 + leAt bs p 2) bs.length ≠ 19 + leAt bs p 2) ∨ (n = .flagsLong ∧ 40 < leAt bs p 2)) := by
  unfold saidFlags
  split
  · rename_i h1
    simp only [List.mem_append, h1, true_and]
    apply or_congr
    · split
      · rename_i h2; simp [h2]
      · rename_i h2; simp only [List.not_mem_nil, false_iff]; exact fun h => h2 h.2
    · split
      · rename_i h2; simp [h2]
      · rename_i h2; simp only [List.not_mem_nil, false_iff]; exact fun h => h2 h.2
  · rename_i h1
    simp only [List.not_mem_nil, false_iff]
    exact fun h => h1 ⟨h.1, h.2.1⟩

/-- a line of a load that succeeds, and where it comes from -/
theorem notice_mem {fuel : Nat} {cfg : Cfg} {bs : Bytes} {u : ULog} (h : load fuel cfg bs = .ok u) (n : Notice) :
    n ∈ loadNotices fuel cfg bs ↔
      (n = .version ∧ 1 < byteAt bs 7) ∨ (∃ s, DefReach cfg bs s ∧ n ∈ saidFlags bs s.pos) ∨
      (∃ x ∈ defTrace fuel cfg bs, n ∈ saidDef cfg x) ∨ (∃ x ∈ (fileTrace fuel cfg bs).flatten, n ∈ said cfg x) := by
  obtain ⟨s, hs⟩ := load_afterDefs h
  have htr : ∀ x, x ∈ defTrace fuel cfg bs ↔ ∃ s ∈ loadStates fuel cfg bs, x ∈ defAt bs s := by
    intro x
    unfold defTrace loadStates
    cases readHeader bs with
    | error e => simp
    | ok u0 => simp only [← defStates_trace, List.mem_flatMap]
  rw [C99_lines h, List.append_assoc, List.mem_append, List.mem_append, List.mem_flatMap, List.mem_flatMap]
  apply or_congr
  · split
    · rename_i h1; simp [h1]
    · rename_i h1; simp [h1]
  · rw [← or_assoc]
    apply or_congr
    · simp only [List.mem_append, List.mem_flatMap, htr]
      constructor
      · rintro ⟨s', h1, h2 | ⟨x, h2, h3⟩⟩
        · exact Or.inl ⟨s', (loadStates_iff hs).mp h1, h2⟩
        · exact Or.inr ⟨x, ⟨s', h1, h2⟩, h3⟩
      · rintro (⟨s', h1, h2⟩ | ⟨x, ⟨s', h1, h2⟩, h3⟩)
        · exact ⟨s', (loadStates_iff hs).mpr h1, Or.inl h2⟩
        · exact ⟨s', h1, Or.inr ⟨x, h2, h3⟩⟩
    · exact Iff.rfl

/-- **C99.** The version is reported when it is above 1, before everything else and once. -/
theorem C99_version {fuel : Nat} {cfg : Cfg} {bs : Bytes} {u : ULog} (h : load fuel cfg bs = .ok u) :
    ∃ rest, Notice.version ∉ rest ∧
      loadNotices fuel cfg bs = (if 1 < u.fileVersion then [.version] else []) ++ rest := by
  obtain ⟨u0, hh, h2⟩ : ∃ u0, readHeader bs = .ok u0 ∧ u.fileVersion = u0.fileVersion := by
    have hf := load_inv (P := fun _ v => v.fileVersion = byteAt bs 7) (fun _ _ _ _ h => h) (fun _ _ _ h => h)
      (fun t v ty d o h1 h2 => by rw [(handleData_pres _ _ _ _ _ h2).fileVersion]; exact h1)
      (fun s hs => by
        obtain ⟨u0, hh, hp, _⟩ := afterDefs_presD hs
        rw [hp.fileVersion, ((readHeader_ok_iff bs u0).mp hh).2]) h
    obtain ⟨s, hs⟩ := load_afterDefs h
    obtain ⟨u0, hh, _, _⟩ := afterDefs_presD hs
    exact ⟨u0, hh, by rw [hf, ((readHeader_ok_iff bs u0).mp hh).2]⟩
  have hv : u.fileVersion = byteAt bs 7 := by rw [h2, ((readHeader_ok_iff bs u0).mp hh).2]
  refine ⟨_, ?_, by rw [C99_lines h, List.append_assoc, hv]⟩
  simp only [List.mem_append, List.mem_flatMap, not_or, not_exists, not_and]
  refine ⟨fun s _ => ⟨fun h => ?_, fun x _ h => ?_⟩, fun x _ h => ?_⟩
  · rcases saidFlags_cases.mp h with ⟨_, _, ⟨h, _⟩ | ⟨h, _⟩⟩ <;> cases h
  · cases (saidDef_cases.mp h).1
  · rcases said_cases h with ⟨_, h, _⟩ | ⟨h, _⟩ <;> cases h

/-- **C99.** Flag bits: the reader complains that they are not the first message when the message does not end where a
first message with this size would end (also when it is the first one but the file ends within it), and that they are
long when more than forty bytes are announced. -/
theorem C99_flags {fuel : Nat} {cfg : Cfg} {bs : Bytes} {u : ULog} (h : load fuel cfg bs = .ok u) :
    (∀ p, Notice.flagsLate p ∈ loadNotices fuel cfg bs ↔
      ∃ s, DefReach cfg bs s ∧ s.pos + 3 ≤ bs.length ∧ byteAt bs (s.pos + 2) = tyB ∧
        p = min (s.pos + 3 + leAt bs s.pos 2) bs.length ∧ p ≠ 19 + leAt bs s.pos 2) ∧
    (Notice.flagsLong ∈ loadNotices fuel cfg bs ↔
      ∃ s, DefReach cfg bs s ∧ s.pos + 3 ≤ bs.length ∧ byteAt bs (s.pos + 2) = tyB ∧ 40 < leAt bs s.pos 2) := by
  constructor
  · intro p
    rw [notice_mem h]
    constructor
    · rintro (⟨h, _⟩ | ⟨s, h1, h2⟩ | ⟨x, _, h⟩ | ⟨x, _, h⟩)
      · cases h
      · obtain ⟨h3, h4, ⟨h5, h6⟩ | ⟨h5, _⟩⟩ := saidFlags_cases.mp h2
        · cases h5
          exact ⟨s, h1, h3, h4, rfl, h6⟩
        · cases h5
      · cases (saidDef_cases.mp h).1
      · rcases said_cases h with ⟨_, h, _⟩ | ⟨h, _⟩ <;> cases h
    · rintro ⟨s, h1, h3, h4, rfl, h6⟩
      exact Or.inr (Or.inl ⟨s, h1, saidFlags_cases.mpr ⟨h3, h4, Or.inl ⟨rfl, h6⟩⟩⟩)
  · rw [notice_mem h]
    constructor
    · rintro (⟨h, _⟩ | ⟨s, h1, h2⟩ | ⟨x, _, h⟩ | ⟨x, _, h⟩)
      · cases h
      · obtain ⟨h3, h4, ⟨h5, h6⟩ | ⟨h5, h6⟩⟩ := saidFlags_cases.mp h2
        · cases h5
        · exact ⟨s, h1, h3, h4, h6⟩
      · cases (saidDef_cases.mp h).1
      · rcases said_cases h with ⟨_, h, _⟩ | ⟨h, _⟩ <;> cases h
    · rintro ⟨s, h1, h3, h4, h6⟩
      exact Or.inr (Or.inl ⟨s, h1, saidFlags_cases.mpr ⟨h3, h4, Or.inr ⟨rfl, h6⟩⟩⟩)

/-- **C99.** Messages that have not the form they should have (a key without a space, a format without a colon or a
field without a name): the first one is reported, if the file was not known to be corrupt before; together there is at
most one such line. -/
theorem C99_corruption {fuel : Nat} {cfg : Cfg} {bs : Bytes} {u : ULog} (h : load fuel cfg bs = .ok u) :
    (Notice.badDefs ∈ loadNotices fuel cfg bs ↔
      ∃ x ∈ defTrace fuel cfg bs, DefObstacle cfg x.2.2 x.2.1 .indexError ∧ x.1.fileCorrupt = false) ∧
    (Notice.badData ∈ loadNotices fuel cfg bs ↔
      ∃ x ∈ (fileTrace fuel cfg bs).flatten, DataObstacle cfg x.1 x.2.2 x.2.1 .indexError ∧ x.1.fileCorrupt = false) ∧
    (loadNotices fuel cfg bs).count .badDefs + (loadNotices fuel cfg bs).count .badData ≤ 1 := by
  refine ⟨?_, ?_, ?_⟩
  · rw [notice_mem h]
    constructor
    · rintro (⟨h, _⟩ | ⟨s, h1, h2⟩ | ⟨x, h1, h⟩ | ⟨x, _, h⟩)
      · cases h
      · obtain ⟨_, _, ⟨h5, _⟩ | ⟨h5, _⟩⟩ := saidFlags_cases.mp h2 <;> cases h5
      · exact ⟨x, h1, (saidDef_cases.mp h).2⟩
      · rcases said_cases h with ⟨_, h, _⟩ | ⟨h, _⟩ <;> cases h
    · rintro ⟨x, h1, h2⟩
      exact Or.inr (Or.inr (Or.inl ⟨x, h1, saidDef_cases.mpr ⟨rfl, h2⟩⟩))
  · rw [notice_mem h]
    constructor
    · rintro (⟨h, _⟩ | ⟨s, h1, h2⟩ | ⟨x, h1, h⟩ | ⟨x, h1, h⟩)
      · cases h
      · obtain ⟨_, _, ⟨h5, _⟩ | ⟨h5, _⟩⟩ := saidFlags_cases.mp h2 <;> cases h5
      · cases (saidDef_cases.mp h).1
      · rcases said_cases h with ⟨_, h, _⟩ | ⟨_, h⟩
        · cases h
        · exact ⟨x, h1, h⟩
    · rintro ⟨x, h1, h2⟩
      refine Or.inr (Or.inr (Or.inr ⟨x, h1, ?_⟩))
      unfold said
      rw [if_neg, if_pos h2]
      · exact List.mem_singleton.mpr rfl
      · rintro ⟨⟨hd, _⟩, _⟩
        have ho := h2.1
        rw [hd] at ho
        generalize hT : tyD = T at ho
        cases ho <;> cases hT
  · have hb := (load_reported h).bad
    have := flagOf_le u
    have hc : ∀ l : List Notice, l.count .badDefs + l.count .badData = l.countP badLine := by
      intro l
      induction l with
      | nil => rfl
      | cons n l ih =>
        rw [List.count_cons, List.count_cons, List.countP_cons, ← ih]
        cases n <;> simp [badLine] <;> omega
    rw [hc]
    omega

/-- **C99.** Data messages without a subscription: every id is reported once, in the order of their first messages. -/
theorem C99_missing {fuel : Nat} {cfg : Cfg} {bs : Bytes} {u : ULog} (h : load fuel cfg bs = .ok u) :
    (loadNotices fuel cfg bs).filterMap subjectOf = u.missingIds ∧ u.missingIds.Nodup ∧
    ∀ id, id ∈ u.missingIds ↔ ∃ x ∈ (fileTrace fuel cfg bs).flatten, NoSubscription x id := by
  have h0 := (load_reported h).missing
  refine ⟨by rw [h0]; rfl, ?_⟩
  refine load_inv (P := fun t v => v.missingIds.Nodup ∧ ∀ id, id ∈ v.missingIds ↔ ∃ x ∈ t, NoSubscription x id)
    (fun _ _ _ _ h => h) (fun _ _ _ h => h) ?_ ?_ h
  · rintro t v ty d o ⟨h1, h2⟩ ho
    rcases handleData_missing ho with ⟨hu, w, rfl, hm, _⟩ | ⟨hu, hm⟩
    · simp only [Out.state, hm]
      constructor
      · unfold setAdd
        split
        · exact h1
        · rename_i hn
          rw [List.nodup_append]
          exact ⟨h1, by simp, fun a ha b hb hab => hn (by rw [← List.mem_singleton.mp hb, ← hab]; exact ha)⟩
      · intro id
        have hs : id ∈ setAdd v.missingIds (leAt d 0 2) ↔ id ∈ v.missingIds ∨ id = leAt d 0 2 := by
          unfold setAdd
          split
          · rename_i hi
            exact ⟨Or.inl, fun h => h.elim (fun h => h) (fun h => h ▸ hi)⟩
          · simp
        rw [hs, h2 id]
        constructor
        · rintro (⟨x, hx, hu'⟩ | rfl)
          · exact ⟨x, by simp [hx], hu'⟩
          · exact ⟨_, by simp, hu⟩
        · rintro ⟨x, hx, hu'⟩
          rcases List.mem_append.mp hx with hx | hx
          · exact Or.inl ⟨x, hx, hu'⟩
          · rw [List.mem_singleton.mp hx] at hu'
            exact Or.inr hu'.2.2.1.symm
    · rw [hm]
      refine ⟨h1, fun id => ?_⟩
      rw [h2 id]
      constructor
      · rintro ⟨x, hx, hu'⟩
        exact ⟨x, by simp [hx], hu'⟩
      · rintro ⟨x, hx, hu'⟩
        rcases List.mem_append.mp hx with hx | hx
        · exact ⟨x, hx, hu'⟩
        · rw [List.mem_singleton.mp hx] at hu'
          exact absurd hu' (hu id)
  · intro s hs
    obtain ⟨u0, hh, hp, _⟩ := afterDefs_presD hs
    have : s.u.missingIds = [] := by rw [hp.missingIds, readHeader_init hh]
    simp [this]

/-- **C99.** A log that is not marked as corrupt is loaded without a word, except about the version and the flags. -/
theorem C99_quiet {fuel : Nat} {cfg : Cfg} {bs : Bytes} {u : ULog} (h : load fuel cfg bs = .ok u)
    (hc : u.fileCorrupt = false) : ∀ n ∈ loadNotices fuel cfg bs, n = .version ∨ n = .flagsLong ∨ ∃ p, n = .flagsLate p := by
  intro n hn
  have : hintLine n = true := by
    cases hh : hintLine n with
    | true => rfl
    | false =>
      have := (load_reported h).loud ⟨n, hn, hh⟩
      rw [hc] at this
      cases this
  cases n <;> simp [hintLine] at this ⊢

/-- **C99.** Two lines with the same text report the same. -/
theorem C99_text {n m : Notice} (h : n.line = m.line) : n = m := by
  cases n <;> cases m <;> first
    | rfl
    | (exfalso; revert h; simp only [Notice.line]; intro h; have := congrArg (List.take 12) h; revert this; simp <;> decide)
    | (exfalso; revert h; decide)
    | skip
  · simp only [Notice.line] at h
    rw [natDec_inj (List.append_cancel_left h)]
  · simp only [Notice.line] at h
    rw [natDec_inj (List.append_cancel_left (List.append_cancel_right h))]

/-! ### examples -/

namespace NoticeSample

/-- a file with the version, the messages -/
def file (version : UInt8) (l : List (Nat × Bytes)) : Bytes :=
  Sample.header.take 7 ++ [version] ++ Sample.header.drop 8 ++ encMsgs l

/-- flag bits with `n` bytes after the known ones -/
def flags (n : Nat) : Nat × Bytes := (tyB, List.replicate (40 + n) 0)

/-- a format and its subscription -/
def fmt : Nat × Bytes := (tyF, Sample.asc (py! "a:uint64_t timestamp;"))
def sub : Nat × Bytes := (tyA, [0, 3, 0] ++ Sample.asc (py! "a"))

/-- a sample -/
def row (id t : Nat) : Nat × Bytes := (tyD, leEnc 2 id ++ leEnc 8 t)

/-- an info message whose key has no space -/
def bare : Nat × Bytes := (tyI, Sample.kv (py! "bare") [1])

/-- everything at once: an unknown version, flags that are not first and too long, two keys without a space, messages of
two subscriptions that are missing -/
def noisy : Bytes := file 2 [bare, flags 1, fmt, sub, row 7 1, row 3 2, bare, row 9 3, row 7 4]

/-- the same with the first key in the data section; then the file is not known to be corrupt -/
def late : Bytes := file 1 [flags 0, fmt, sub, bare, row 3 2, row 7 1]

/-- a sample that is too short -/
def short : Bytes := file 1 [flags 0, fmt, sub, (tyD, [3, 0, 1])]

end NoticeSample

open NoticeSample

example : loadNotices 20 {} noisy =
    [.version, .badDefs, .flagsLate 69, .flagsLong, .noSub 7, .noSub 9] ∧
    (match load 20 {} noisy with | .ok u => decide (u.fileCorrupt = true ∧ u.missingIds = [7, 9]) | _ => false) = true := by
  decide +kernel

example : loadNotices 20 {} late = [.badData, .noSub 7] ∧
    (match load 20 {} late with | .ok u => decide (u.fileCorrupt = true ∧ u.missingIds = [7]) | _ => false) = true := by
  decide +kernel

/-- the flag bits are first, but the file ends within them: the definitions raise after the complaint -/
example : loadNotices 20 {} ((file 1 [flags 0]).take 40) = [.flagsLate 40] ∧
    load 20 {} ((file 1 [flags 0]).take 40) = .raised .structError := by decide +kernel

/-- a file that raises while an id was missing -/
example : loadNotices 20 {} (file 1 [fmt, sub, row 7 1, (tyA, [0, 4, 0] ++ Sample.asc (py! "b"))]) = [.noSub 7] ∧
    load 20 {} (file 1 [fmt, sub, row 7 1, (tyA, [0, 4, 0] ++ Sample.asc (py! "b"))]) = .raised .keyError := by
  decide +kernel

/-- a log that is not corrupt -/
example : loadNotices 20 {} Sample.file = [] := by decide +kernel

example : (Notice.noSub 12).line =
    py! "Warning: no subscription found for message id 12. Continuing, but file is most likely corrupt" ∧
    (Notice.flagsLate 72).line = py! "Error: FLAGS_BITS message must be first message. Offset: 72" := by decide +kernel

/-- **C99, violated part.** A corrupt file need not be reported: the samples of a wrong size are dropped, the log is
marked as corrupt, and nothing is printed. -/
theorem C99_silent : ∃ (bs : Bytes) (u : ULog), load 20 {} bs = .ok u ∧ u.fileCorrupt = true ∧ u.dataList = [] ∧
    loadNotices 20 {} bs = [] := by
  have h : (match load 20 {} short with
      | .ok u => decide (u.fileCorrupt = true ∧ u.dataList = [])
      | _ => false) = true := by decide +kernel
  have h2 : loadNotices 20 {} short = [] := by decide +kernel
  split at h
  · rename_i u hu
    have h := of_decide_eq_true h
    exact ⟨short, u, hu, h.1, h.2, h2⟩
  · cases h

end PyULog
