import Verif.Lemmas.Frames
import Verif.Spec.SampleRun
/-
Property theorems: C24 (logs with appended data).
-/
namespace PyULog
open Spec

/-- a message that begins before the end of the section and reaches past it is not read -/
theorem scan_crossing (pre tail rest : Bytes) (h : Incomplete tail) (ru n cur : Nat) (hs : Bool)
    (hru : ru = cur + tail.length) :
    scan (pre ++ (tail ++ rest)) ru n pre.length cur hs = [] := by
  cases n with
  | zero => rfl
  | succ n =>
    simp only [scan]
    rw [readAt_append]
    by_cases h3 : ((tail ++ rest).take 3).length = 3
    · rw [if_neg (not_not_intro h3)]
      generalize hsz : leNat (((tail ++ rest).take 3).take 2) = size
      by_cases hd : (readAt (pre ++ (tail ++ rest)) (pre.length + 3) size).length < size
      · rw [if_pos hd]
      · rw [if_neg hd, if_pos]
        by_cases ht : tail.length < 3
        · omega
        · have : size = leAt tail 0 2 := by
            rw [leAt_eq _ _ _ (by omega), ← hsz]
            congr 1
            rw [List.take_take, List.take_append_of_le_length (by omega), List.drop_zero]
            rfl
          rcases h with h | h <;> omega
    · rw [if_pos h3]

/-- one section with appended data after it -/
theorem readData_section_frames (cfg : Cfg) (l : List (Nat × Bytes)) (hl : ∀ m ∈ l, DataFrame m)
    (pre tail rest : Bytes) (ht : Incomplete tail) (u : ULog) :
    readData cfg (pre ++ (encMsgs l ++ tail ++ rest)) (pre.length + (encMsgs l ++ tail).length)
        pre.length u
      = finish (runData cfg l u) := by
  rw [readData_eq]
  have hb : pre ++ (encMsgs l ++ tail ++ rest) = pre ++ (encMsgs l ++ (tail ++ rest)) := by simp
  rw [hb]
  have hlen : l.length ≤ (pre ++ (encMsgs l ++ (tail ++ rest))).length := by
    have := encMsgs_length l
    simp; omega
  obtain ⟨n, hn⟩ := Nat.exists_eq_add_of_le (Nat.le_succ_of_le hlen)
  rw [show (pre ++ (encMsgs l ++ (tail ++ rest))).length + 1 = l.length + n from hn,
    scan_frames _ _ l hl pre (tail ++ rest) n _ (by simp),
    replay_frames cfg _ l _ u rfl]
  have : scan (pre ++ (encMsgs l ++ (tail ++ rest))) (pre.length + (encMsgs l ++ tail).length) n
      (pre.length + (encMsgs l).length) (pre.length + (encMsgs l).length) u.hasSync = [] := by
    have := scan_crossing (pre ++ encMsgs l) tail rest ht
      (pre.length + (encMsgs l ++ tail).length) n (pre.length + (encMsgs l).length) u.hasSync
      (by simp; omega)
    simpa using this
  rw [this]
  cases runData cfg l u <;> rfl

theorem readSections_frames (cfg : Cfg) (secs : List (List (Nat × Bytes) × Bytes))
    (last : List (Nat × Bytes)) (tail : Bytes)
    (hs : ∀ s ∈ secs, (∀ m ∈ s.1, DataFrame m) ∧ Incomplete s.2) (hl : ∀ m ∈ last, DataFrame m)
    (ht : Incomplete tail) (pre : Bytes) (u : ULog)
    (hlen : pre.length + (encSections secs).length + (encMsgs last).length ≤ 2 ^ 50) :
    readSections cfg (pre ++ (encSections secs ++ (encMsgs last ++ tail)))
        (sectionEnds pre.length secs) pre.length u
      = runSections cfg (secs.map (·.1) ++ [last]) u := by
  induction secs generalizing pre u with
  | nil =>
    simp only [encSections, List.flatMap_nil, List.nil_append, sectionEnds, readSections, List.map_nil,
      runSections]
    rw [readData_frames cfg NO_LIMIT last hl pre tail ht (by
      simp only [encSections, List.flatMap_nil, List.length_nil, Nat.add_zero] at hlen
      exact hlen) u]
    cases finish (runData cfg last u) <;> rfl
  | cons s secs ih =>
    have hsec : encSections (s :: secs) = encMsgs s.1 ++ s.2 ++ encSections secs := by
      simp [encSections]
    have hb : pre ++ (encSections (s :: secs) ++ (encMsgs last ++ tail))
        = pre ++ (encMsgs s.1 ++ s.2 ++ (encSections secs ++ (encMsgs last ++ tail))) := by
      rw [hsec]; simp
    have hb' : pre ++ (encSections (s :: secs) ++ (encMsgs last ++ tail))
        = (pre ++ (encMsgs s.1 ++ s.2)) ++ (encSections secs ++ (encMsgs last ++ tail)) := by
      rw [hsec]; simp
    rw [hsec] at hlen
    simp only [List.length_append] at hlen
    have h1 := readData_section_frames cfg s.1 (hs s (List.mem_cons_self ..)).1 pre s.2
      (encSections secs ++ (encMsgs last ++ tail)) (hs s (List.mem_cons_self ..)).2 u
    rw [← hb] at h1
    simp only [sectionEnds, readSections, h1, List.map_cons, List.cons_append, runSections]
    cases hf : finish (runData cfg s.1 u) with
    | raised e => rfl
    | outOfFuel => rfl
    | ok v =>
      simp only
      rw [if_neg (by simp only [List.length_append]; omega)]
      have := ih (fun s h => hs s (List.mem_cons_of_mem _ h)) (pre ++ (encMsgs s.1 ++ s.2)) v
        (by simp only [List.length_append]; omega)
      rw [← hb'] at this
      simp only [List.length_append] at this ⊢
      exact this

/-- **C24**, partial: in a log with appended data whose sections consist of complete messages, each
followed by the (possibly empty) beginning of a message that the offset cuts, every section is
processed exactly up to its offset and the next one starts exactly there; the cut messages are not
processed.

Missing: sections with corrupt bytes. There the statement is false
(`C24_resync_reads_past_offset`). -/
theorem C24_appended_partial (fuel : Nat) (cfg : Cfg) (hdr : Bytes) (defs : List (Nat × Bytes))
    (sec0 : List (Nat × Bytes) × Bytes) (secs : List (List (Nat × Bytes) × Bytes))
    (last : List (Nat × Bytes)) (tail : Bytes) (u0 u1 : ULog) (hh : hdr.length = 16)
    (hu : readHeader hdr = .ok u0) (hd : ∀ m ∈ defs, DefFrame m)
    (hs : ∀ s ∈ sec0 :: secs, (∀ m ∈ s.1, DataFrame m) ∧ Incomplete s.2)
    (hl : ∀ m ∈ last, DataFrame m) (ht : Incomplete tail)
    (hends : ∃ m, sec0.1.head? = some m ∧ (m.1 = tyA ∨ m.1 = tyL ∨ m.1 = tyC))
    (h1 : runDefs cfg defs u0 = .done u1) (hap : u1.incompat.getD 0 0 % 2 = 1)
    (hoff : u1.appendedOffsets = sectionEnds (16 + (encMsgs defs).length) (sec0 :: secs))
    (hfuel : defs.length < fuel) (ho : cfg.headerOnly = false)
    (hlen : 16 + (encMsgs defs).length + (encSections (sec0 :: secs)).length
      + (encMsgs last).length ≤ 2 ^ 50) :
    load fuel cfg (hdr ++ encMsgs defs ++ encSections (sec0 :: secs) ++ encMsgs last ++ tail)
      = runSections cfg ((sec0 :: secs).map (·.1) ++ [last]) u1 := by
  have e0 : hdr ++ encMsgs defs ++ encSections (sec0 :: secs) ++ encMsgs last ++ tail
      = hdr ++ (encMsgs defs ++ (encSections (sec0 :: secs) ++ (encMsgs last ++ tail))) := by simp
  rw [e0, load_eq, readHeader_append _ _ hh, hu]
  simp only
  obtain ⟨n, hn⟩ := Nat.exists_eq_add_of_le hfuel
  rw [show fuel = defs.length + (n + 1) by omega]
  have hdl := defLoop_frames cfg defs hd hdr
    (encSections (sec0 :: secs) ++ (encMsgs last ++ tail)) (n + 1) 16 u0
  rw [hh] at hdl
  rw [hdl, h1]
  simp only
  obtain ⟨m, hm, hty⟩ := hends
  obtain ⟨ms, hms⟩ : ∃ ms, sec0.1 = m :: ms := by
    cases h : sec0.1 with
    | nil => rw [h] at hm; cases hm
    | cons a as => rw [h] at hm; cases hm; exact ⟨as, rfl⟩
  have hstop : defStep cfg
      (hdr ++ (encMsgs defs ++ (encSections (sec0 :: secs) ++ (encMsgs last ++ tail))))
      { pos := 16 + (encMsgs defs).length, cur := 16, u := u1 }
      = .stop { pos := 16 + (encMsgs defs).length, cur := 16, u := u1 } := by
    have hf : Fits m := ((hs sec0 (List.mem_cons_self ..)).1 m (by rw [hms]; exact List.mem_cons_self ..)).1
    have := defStep_ends cfg (hdr ++ encMsgs defs)
      (encMsgs ms ++ sec0.2 ++ (encSections secs ++ (encMsgs last ++ tail))) m hf hty 16 u1
    rw [List.length_append, hh] at this
    have e : hdr ++ (encMsgs defs ++ (encSections (sec0 :: secs) ++ (encMsgs last ++ tail)))
        = hdr ++ encMsgs defs ++ (encMsg m ++ (encMsgs ms ++ sec0.2
            ++ (encSections secs ++ (encMsgs last ++ tail)))) := by
      have : encSections (sec0 :: secs) = encMsgs sec0.1 ++ sec0.2 ++ encSections secs := by
        simp [encSections]
      rw [this, hms, encMsgs_cons]; simp
    rw [e]; exact this
  rw [defLoop, hstop]
  simp only
  have hho : ¬ cfg.headerOnly = true := by rw [ho]; decide
  rw [if_neg hho]
  have hha : hasDataAppended u1 = true := by
    unfold hasDataAppended; exact decide_eq_true hap
  rw [if_pos hha, hoff]
  have hmem : ∀ s ∈ sec0 :: secs, (∀ m ∈ s.1, DataFrame m) ∧ Incomplete s.2 := hs
  have := readSections_frames cfg (sec0 :: secs) last tail hmem hl ht (hdr ++ encMsgs defs) u1
    (by rw [List.length_append, hh]; exact hlen)
  rw [List.length_append, hh] at this
  rw [← this]
  simp

namespace Sample

/-- flag bits message with the appended-data flag and one offset -/
def flagMsg (off : Nat) : Nat × Bytes :=
  (tyB, leEnc 8 0 ++ leEnc 8 1 ++ leEnc 8 off ++ leEnc 8 0 ++ leEnc 8 0)

def appDefs (off : Nat) : List (Nat × Bytes) :=
  [flagMsg off, (tyF, asc (py! "a:uint64_t timestamp;int16_t x;"))]

/-- first section: a subscription, a sample, and the beginning of a second sample -/
def sec0 : List (Nat × Bytes) × Bytes :=
  ([(tyA, [0, 3, 0] ++ asc (py! "a")), da 110 7], (encMsg (da 120 8)).take 9)

/-- appended section -/
def sec1 : List (Nat × Bytes) :=
  [(tyL, 54 :: leEnc 8 111 ++ asc (py! "hi")), (tyA, [0, 3, 0] ++ asc (py! "a")), da 130 9]

def appOff : Nat := 16 + (encMsgs (appDefs 0)).length + (encMsgs sec0.1 ++ sec0.2).length

def appFile : Bytes :=
  header ++ encMsgs (appDefs appOff) ++ encSections [sec0] ++ encMsgs sec1 ++ []

end Sample

/-- the hypotheses hold for a log with one appended section and a cut message -/
example : load 20 {} Sample.appFile
    = runSections {} [Sample.sec0.1, Sample.sec1]
        (match runDefs {} (Sample.appDefs Sample.appOff) { startTs := 100, lastTs := 100, fileVersion := 1 } with
         | .done u => u | _ => {}) := by
  have hd : ∀ m ∈ Sample.appDefs Sample.appOff, DefFrame m := by
    intro m hm
    refine ⟨?_, Or.inl ?_⟩
    · revert m; decide +kernel
    · revert m; decide +kernel
  have hs : ∀ s ∈ [Sample.sec0], (∀ m ∈ s.1, DataFrame m) ∧ Incomplete s.2 := by
    intro s hs
    rw [List.mem_singleton] at hs
    subst hs
    refine ⟨fun m hm => ⟨?_, Or.inl ?_⟩, Or.inr ?_⟩
    · revert m; decide +kernel
    · revert m; unfold isDataType; decide +kernel
    · decide +kernel
  have hl : ∀ m ∈ Sample.sec1, DataFrame m := by
    intro m hm
    refine ⟨?_, Or.inl ?_⟩
    · revert m; decide +kernel
    · revert m; unfold isDataType; decide +kernel
  exact C24_appended_partial 20 {} Sample.header _ Sample.sec0 [] Sample.sec1 []
    { startTs := 100, lastTs := 100, fileVersion := 1 } _ rfl rfl hd hs hl (Or.inl (by decide))
    ⟨_, rfl, Or.inl rfl⟩ rfl (by decide +kernel) (by decide +kernel) (by decide +kernel) rfl
    (by decide +kernel)

/-- the appended section is read, the cut sample is not -/
example : (Sample.get (load 20 {} Sample.appFile)).dataList.map (fun d => d.data.map (·.2))
    = [[[.int 110], [.int 7]], [[.int 130], [.int 9]]] := by decide +kernel

namespace Sample

/-- first section that ends with a corrupt header; the appended section contains a sync message -/
def badSec0 : List (Nat × Bytes) × Bytes :=
  ([(tyA, [0, 3, 0] ++ asc (py! "a")), da 110 7, (0, List.replicate 60 0)], [])

def badSec1 : List (Nat × Bytes) := [(tyS, syncMagic), da 130 9]

def badOff : Nat := 16 + (encMsgs (appDefs 0)).length + (encMsgs badSec0.1).length

def badFile : Bytes :=
  header ++ encMsgs (appDefs badOff) ++ encMsgs badSec0.1 ++ encMsgs badSec1

end Sample

/-- **C24**, finding: after a corrupt message the search for a sync message runs past the offset, and
the position compared with the offset is not updated: a message of the appended section is read as
part of the first section (here a sample that is attributed to the subscription of the first
section, although the appended section has none). -/
theorem C24_resync_reads_past_offset :
    (Sample.get (load 20 {} Sample.badFile)).dataList.map (fun d => d.data.map (·.2))
      = [[[.int 110, .int 130], [.int 7, .int 9]]] ∧
    Sample.badOff + 3 + 8 < Sample.badFile.length ∧
    (Sample.badFile.drop (Sample.badOff + 11)) = encMsg (Sample.da 130 9) := by
  decide +kernel

namespace Sample

/-- a first section with a message of an unknown type that has a sync sequence and a sample in its payload, followed
by a complete sample -/
def earlySec0 : List (Nat × Bytes) × Bytes :=
  ([(tyA, [0, 3, 0] ++ asc (py! "a")), da 110 7, (99, syncMagic ++ encMsg (da 111 8)), da 112 9], [])

def earlyOff : Nat := 16 + (encMsgs (appDefs 0)).length + (encMsgs earlySec0.1).length

def earlyFile : Bytes :=
  header ++ encMsgs (appDefs earlyOff) ++ encMsgs earlySec0.1 ++ encMsgs [da 130 1]

end Sample

/-- **C24**, finding: after a sync sequence within a message the position compared with the offset is ahead of the
one that is read, so that complete messages before the offset are lost (here the sample at 112; the sample at 111
was within the message). -/
theorem C24_resync_stops_early :
    (Sample.get (load 20 {} Sample.earlyFile)).dataList.map (fun d => d.data.map (·.2))
      = [[[.int 110, .int 111], [.int 7, .int 8]]] ∧
    (Sample.earlyFile.drop (Sample.earlyOff - (encMsg (Sample.da 112 9)).length)).take (encMsg (Sample.da 112 9)).length
      = encMsg (Sample.da 112 9) := by
  decide +kernel

/-! ### sections of any bytes -/

theorem readAt_take {bs : Bytes} {off pos n : Nat} (h : pos + n ≤ off) : readAt (bs.take off) pos n = readAt bs pos n := by
  unfold readAt
  rw [List.drop_take, List.take_take, Nat.min_eq_left (by omega)]

theorem readAt_take_length {bs : Bytes} {off pos n : Nat} :
    (readAt (bs.take off) pos n).length = min (readAt bs pos n).length (off - pos) := by
  simp [readAt]
  omega

theorem skim_no_sync {bs : Bytes} {ty size pos cur : Nat} {hs : Bool} (hl : pos + 3 + size ≤ bs.length)
    (h : hs = false ∨ ∀ i, pos ≤ i → ¬ SyncAt bs i) :
    skim bs ty size (pos + 3 + size) cur hs
      = if packetCorrupt ty size then (pos + 1, pos + 1, false, true) else (pos + 3 + size, cur, hs, false) := by
  have hp : pos + 3 + size - 2 - size = pos + 1 := by omega
  unfold skim
  simp only [hp]
  split
  · cases hs with
    | false => rfl
    | true =>
      rcases h with h | h
      · cases h
      · have := findSyncFwd_spec bs (bs.length + 1) (pos + 1) (by omega)
        split at this
        · obtain ⟨i, -, h2, h3, -⟩ := this
          exact absurd h3 (h i (by omega))
        · rename_i heq
          rw [heq]
          rfl
  · cases hs with
    | false => rfl
    | true =>
      rcases h with h | h
      · cases h
      · have := findSyncBack_spec bs (pos + 3 + size) size (by omega) hl
        split at this
        · obtain ⟨i, -, h2, -, h3, -⟩ := this
          exact absurd h3 (h i (by omega))
        · rename_i heq
          rw [heq]
          rfl

theorem scan_local {bs : Bytes} {off lim : Nat} (hlim : min off bs.length ≤ lim) (n : Nat) :
    ∀ (m pos : Nat) (hs : Bool), bs.length < pos + n → (bs.take off).length < pos + m →
      (hs = false ∨ ∀ i, pos ≤ i → ¬ SyncAt bs i) →
      scan bs off n pos pos hs = scan (bs.take off) lim m pos pos hs := by
  induction n with
  | zero =>
    intro m pos hs hn _ _
    cases m with
    | zero => rfl
    | succ m =>
      simp only [scan]
      rw [if_pos]
      rw [readAt_take_length]
      simp [readAt]
      omega
  | succ n ih =>
    intro m pos hs hn hm h
    by_cases h3 : (readAt bs pos 3).length = 3
    · obtain ⟨hlen, -, -⟩ := readAt_facts h3
      simp only [scan]
      rw [if_neg (not_not_intro h3)]
      generalize hsz : leNat ((readAt bs pos 3).take 2) = size
      generalize hty : leNat ((readAt bs pos 3).drop 2) = ty
      by_cases hd : (readAt bs (pos + 3) size).length < size
      · rw [if_pos hd]
        cases m with
        | zero => rfl
        | succ m =>
          simp only [scan]
          by_cases h3' : (readAt (bs.take off) pos 3).length = 3
          · have ho : pos + 3 ≤ off := by
              rw [readAt_take_length] at h3'
              omega
            rw [if_neg (not_not_intro h3'), readAt_take ho, hsz, if_pos]
            rw [readAt_take_length]
            omega
          · rw [if_pos h3']
      · rw [if_neg hd]
        have hfull : (readAt bs (pos + 3) size).length = size := by
          have : (readAt bs (pos + 3) size).length ≤ size := by simp [readAt]; omega
          omega
        have hin : pos + 3 + size ≤ bs.length := by
          simp [readAt] at hfull
          omega
        rw [hfull]
        by_cases ho : pos + 3 + size > off
        · rw [if_pos ho]
          cases m with
          | zero => rfl
          | succ m =>
            simp only [scan]
            by_cases h3' : (readAt (bs.take off) pos 3).length = 3
            · have ho3 : pos + 3 ≤ off := by
                rw [readAt_take_length] at h3'
                omega
              rw [if_neg (not_not_intro h3'), readAt_take ho3, hsz, if_pos]
              rw [readAt_take_length, hfull]
              omega
            · rw [if_pos h3']
        · rw [if_neg ho]
          obtain ⟨m', rfl⟩ : ∃ m', m = m' + 1 := by
            cases m with
            | zero =>
              rw [List.length_take] at hm
              omega
            | succ m' => exact ⟨m', rfl⟩
          have hin' : pos + 3 + size ≤ (bs.take off).length := by
            rw [List.length_take]
            omega
          simp only [scan]
          rw [readAt_take (bs := bs) (off := off) (pos := pos) (n := 3) (by omega), if_neg (not_not_intro h3), hsz, hty,
            readAt_take (bs := bs) (off := off) (pos := pos + 3) (n := size) (by omega), if_neg hd, hfull,
            if_neg (show ¬ pos + 3 + size > lim by omega)]
          split
          · rw [ih m' (pos + 3 + size) hs (by omega) (by omega)
              (h.imp id fun hx i hi => hx i (by omega))]
          · have h' : hs = false ∨ ∀ i, pos ≤ i → ¬ SyncAt (bs.take off) i := by
              refine h.imp id fun hx i hi hsync => hx i hi ?_
              unfold SyncAt at hsync ⊢
              rw [List.drop_take] at hsync
              exact hsync.trans (List.take_prefix _ _)
            rw [skim_no_sync hin h, skim_no_sync hin' h']
            split
            · show _ :: scan bs off n (pos + 1) (pos + 1) false = _ :: scan (bs.take off) lim m' (pos + 1) (pos + 1) false
              rw [ih m' (pos + 1) false (by omega) (by omega) (.inl rfl)]
            · show _ :: scan bs off n (pos + 3 + size) (pos + 3 + size) hs
                = _ :: scan (bs.take off) lim m' (pos + 3 + size) (pos + 3 + size) hs
              rw [ih m' (pos + 3 + size) hs (by omega) (by omega) (h.imp id fun hx i hi => hx i (by omega))]
    · simp only [scan]
      rw [if_pos h3]
      cases m with
      | zero => rfl
      | succ m =>
        simp only [scan]
        rw [if_pos]
        rw [readAt_take_length]
        have : (readAt bs pos 3).length ≤ 3 := by simp [readAt]; omega
        omega

/-- **C24** for a section of any bytes, also corrupt ones: if the reader has given up the search for sync sequences,
or if there is none behind the begin of the section, the section is read as if the file ended at its offset. -/
theorem C24_section_partial (cfg : Cfg) (bs : Bytes) (off pos : Nat) (u : ULog) (hb : bs.length ≤ 2 ^ 50)
    (h : u.hasSync = false ∨ ∀ i, pos ≤ i → ¬ syncMagic <+: bs.drop i) :
    readData cfg bs off pos u = readData cfg (bs.take off) NO_LIMIT pos u := by
  rw [readData_eq, readData_eq, scan_local (lim := NO_LIMIT) _ (bs.length + 1) ((bs.take off).length + 1) pos u.hasSync
    (by omega) (by omega)]
  · exact h
  · unfold NO_LIMIT
    omega

/-- a file that is read in pieces: up to each offset as if the file ended there, then on from the offset -/
def Spec.piecewise (read : Bytes → Nat → ULog → LoadRes) (bs : Bytes) : List Nat → Nat → ULog → LoadRes
  | [], pos, u => read bs pos u
  | off :: offs, pos, u =>
    match read (bs.take off) pos u with
    | .ok v => if off < 2 ^ 63 then piecewise read bs offs off v else .raised .valueError
    | r => r

/-- **C24** for every file without a sync sequence behind its definitions, whatever else its sections hold: the file
is read in pieces. -/
theorem C24_pieces_partial (fuel : Nat) (cfg : Cfg) (bs : Bytes) (hb : bs.length ≤ 2 ^ 50) (ho : cfg.headerOnly = false)
    {u0 : ULog} {s : RS} (hu : readHeader bs = .ok u0)
    (hd : defLoop cfg bs fuel { pos := 16, cur := 16, u := u0 } = .done s) (hap : s.u.incompat.getD 0 0 % 2 = 1)
    (hns : ∀ i, ¬ syncMagic <+: bs.drop i) :
    load fuel cfg bs = piecewise (fun b pos u => readData cfg b NO_LIMIT pos u) bs s.u.appendedOffsets s.pos s.u := by
  have hha : hasDataAppended s.u = true := by
    unfold hasDataAppended; exact decide_eq_true hap
  rw [load_eq, hu]
  dsimp only
  rw [hd]
  dsimp only
  rw [if_neg (by rw [ho]; decide), if_pos hha]
  generalize s.u.appendedOffsets = offs
  generalize s.pos = pos
  generalize s.u = u
  induction offs generalizing pos u with
  | nil => rfl
  | cons off offs ih =>
    unfold readSections piecewise
    rw [C24_section_partial cfg bs off pos u hb (.inr fun i _ => hns i)]
    cases readData cfg (bs.take off) NO_LIMIT pos u with
    | raised e => rfl
    | outOfFuel => rfl
    | ok v =>
      dsimp only
      by_cases h63 : off < 2 ^ 63
      · rw [if_pos h63, if_neg (by omega), ih]
      · rw [if_neg h63, if_pos (by omega)]

namespace Sample

/-- a first section that ends with garbage without a sync sequence, and an appended section -/
def garbledSec0 : List (Nat × Bytes) × Bytes :=
  ([(tyA, [0, 3, 0] ++ asc (py! "a")), da 110 7, (0, List.replicate 60 0)], [1, 2, 3, 4, 5])

def garbledOff : Nat := 16 + (encMsgs (appDefs 0)).length + (encMsgs garbledSec0.1 ++ garbledSec0.2).length

def garbledFile : Bytes :=
  header ++ encMsgs (appDefs garbledOff) ++ encSections [garbledSec0] ++ encMsgs sec1

end Sample

/-- the hypotheses hold for a file with a corrupt first section; both sections are read -/
example : Sample.garbledFile.length ≤ 2 ^ 50 ∧ (∃ u0, readHeader Sample.garbledFile = .ok u0 ∧
      ∃ s, defLoop {} Sample.garbledFile 20 { pos := 16, cur := 16, u := u0 } = .done s ∧
        s.u.incompat.getD 0 0 % 2 = 1 ∧ s.u.appendedOffsets = [Sample.garbledOff]) ∧
    (∀ i, ¬ syncMagic <+: Sample.garbledFile.drop i) ∧
    (Sample.get (load 20 {} Sample.garbledFile)).fileCorrupt = true ∧
    (Sample.get (load 20 {} Sample.garbledFile)).dataList.map (fun d => d.data.map (·.2))
      = [[[.int 110], [.int 7]], [[.int 130], [.int 9]]] := by
  refine ⟨by decide +kernel, ⟨_, rfl, ?_⟩, ?_, by decide +kernel, by decide +kernel⟩
  · have h : (match defLoop {} Sample.garbledFile 20
        { pos := 16, cur := 16, u := { startTs := 100, lastTs := 100, fileVersion := 1 } } with
      | .done s => some (decide (s.u.incompat.getD 0 0 % 2 = 1 ∧ s.u.appendedOffsets = [Sample.garbledOff]))
      | _ => none) = some true := by decide +kernel
    split at h
    · rename_i s hs
      exact ⟨s, hs, of_decide_eq_true (Option.some.inj h)⟩
    · cases h
  · intro i
    by_cases hi : i < Sample.garbledFile.length
    · have : ∀ i, i < Sample.garbledFile.length → ¬ syncMagic <+: Sample.garbledFile.drop i := by decide +kernel
      exact this i hi
    · rw [List.drop_eq_nil_of_le (by omega)]
      decide

end PyULog
