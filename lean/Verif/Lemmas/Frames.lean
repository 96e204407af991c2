import Verif.Spec.Frames
import Verif.Lemmas.Trace
import Verif.Lemmas.SpecBridge
/-
Reading the bytes of a list of messages = processing the list.
-/
namespace PyULog
open Spec

theorem encMsg_length (m : Nat × Bytes) : (encMsg m).length = 3 + m.2.length := by
  simp [encMsg]; omega

theorem encMsgs_cons (m : Nat × Bytes) (l : List (Nat × Bytes)) :
    encMsgs (m :: l) = encMsg m ++ encMsgs l := by simp [encMsgs]

theorem encMsgs_append (l l' : List (Nat × Bytes)) :
    encMsgs (l ++ l') = encMsgs l ++ encMsgs l' := by simp [encMsgs]

theorem encMsgs_length (l : List (Nat × Bytes)) : 3 * l.length ≤ (encMsgs l).length := by
  induction l with
  | nil => simp
  | cons m l ih => rw [encMsgs_cons, List.length_append, encMsg_length, List.length_cons]; omega

theorem readAt_append (pre rest : Bytes) (n : Nat) :
    readAt (pre ++ rest) pre.length n = rest.take n := by
  simp [readAt]

theorem leNat_size {n : Nat} (h : n < 65536) :
    leNat [UInt8.ofNat (n % 256), UInt8.ofNat (n / 256)] = n := by
  have h1 : n / 256 < 256 := by omega
  simp [leNat, Nat.mod_eq_of_lt h1]
  omega

/-- the three facts that reading a frame relies on -/
theorem readAt_frame (pre rest : Bytes) (m : Nat × Bytes) (hm : Fits m) :
    (readAt (pre ++ (encMsg m ++ rest)) pre.length 3).length = 3 ∧
    leNat ((readAt (pre ++ (encMsg m ++ rest)) pre.length 3).take 2) = m.2.length ∧
    leNat ((readAt (pre ++ (encMsg m ++ rest)) pre.length 3).drop 2) = m.1 ∧
    readAt (pre ++ (encMsg m ++ rest)) (pre.length + 3) m.2.length = m.2 := by
  obtain ⟨h1, h2⟩ := hm
  have e3 : readAt (pre ++ (encMsg m ++ rest)) pre.length 3
      = [UInt8.ofNat (m.2.length % 256), UInt8.ofNat (m.2.length / 256), UInt8.ofNat m.1] := by
    rw [readAt_append]; simp [encMsg]
  rw [e3]
  refine ⟨rfl, ?_, ?_, ?_⟩
  · exact leNat_size h2
  · simp [leNat, Nat.mod_eq_of_lt h1]
  · have : pre ++ (encMsg m ++ rest)
        = (pre ++ [UInt8.ofNat (m.2.length % 256), UInt8.ofNat (m.2.length / 256), UInt8.ofNat m.1])
          ++ (m.2 ++ rest) := by simp [encMsg]
    rw [this]
    have hl : pre.length + 3 = (pre ++ [UInt8.ofNat (m.2.length % 256),
      UInt8.ofNat (m.2.length / 256), UInt8.ofNat m.1]).length := by simp
    rw [hl, readAt_append]
    simp

theorem knownData_iff (ty : Nat) : knownData ty = true ↔ isDataType ty := (isDataType_iff ty).symm

theorem packetCorrupt_iff (ty n : Nat) : packetCorrupt ty n = true ↔ badHeader ty n := by
  simp [packetCorrupt, badHeader, or_assoc]

/-! ### data section -/

/-- event of a frame -/
def toEv (hs : Bool) (m : Nat × Bytes) : SEv :=
  if knownData m.1 then .msg m.1 m.2 else .unknown false hs

theorem findSyncBack_noSync (pre rest : Bytes) (m : Nat × Bytes) (h : NoSync m.2) :
    findSyncBack (pre ++ (encMsg m ++ rest)) (pre.length + 3 + m.2.length) m.2.length = none := by
  unfold findSyncBack
  simp only
  have hp : pre.length + 3 + m.2.length - m.2.length = pre.length + 3 := by omega
  have hr : readAt (pre ++ (encMsg m ++ rest)) (pre.length + 3) m.2.length = m.2 := by
    unfold readAt
    rw [← List.drop_drop, List.drop_left]
    simp [encMsg]
  rw [hp, hr]
  split
  · rfl
  · cases hf : findSub SYNC_BYTES m.2 with
    | none => rfl
    | some i =>
      exact absurd ((occursAt_iff _ _).mpr (findSub_some _ _ _ hf).1) (h i)

theorem scan_frames (ru : Nat) (hs : Bool) (l : List (Nat × Bytes)) (hl : ∀ m ∈ l, DataFrame m)
    (pre rest : Bytes) (n cur : Nat) (hru : cur + (encMsgs l).length ≤ ru) :
    scan (pre ++ (encMsgs l ++ rest)) ru (l.length + n) pre.length cur hs
      = l.map (toEv hs) ++ scan (pre ++ (encMsgs l ++ rest)) ru n
          (pre.length + (encMsgs l).length) (cur + (encMsgs l).length) hs := by
  induction l generalizing pre cur with
  | nil => simp [encMsgs]
  | cons m l ih =>
    obtain ⟨hfit, hty⟩ := hl m (List.mem_cons_self ..)
    rw [encMsgs_cons] at hru
    rw [List.length_append, encMsg_length] at hru
    have hb : pre ++ (encMsgs (m :: l) ++ rest) = pre ++ (encMsg m ++ (encMsgs l ++ rest)) := by
      rw [encMsgs_cons]; simp
    have hb' : pre ++ (encMsgs (m :: l) ++ rest) = (pre ++ encMsg m) ++ (encMsgs l ++ rest) := by
      rw [encMsgs_cons]; simp
    have ih' := ih (fun m hm => hl m (List.mem_cons_of_mem _ hm)) (pre ++ encMsg m)
      (cur + 3 + m.2.length) (by omega)
    rw [← hb'] at ih'
    obtain ⟨r1, r2, r3, r4⟩ := readAt_frame pre (encMsgs l ++ rest) m hfit
    rw [← hb] at r1 r2 r3 r4
    have hadd : (m :: l).length + n = (l.length + n) + 1 := by simp; omega
    rw [hadd]
    rw [List.length_append, encMsg_length] at ih'
    have e1 : pre.length + (encMsgs (m :: l)).length
        = pre.length + (3 + m.2.length) + (encMsgs l).length := by
      rw [encMsgs_cons, List.length_append, encMsg_length]; omega
    have e2 : cur + (encMsgs (m :: l)).length = cur + 3 + m.2.length + (encMsgs l).length := by
      rw [encMsgs_cons, List.length_append, encMsg_length]; omega
    rw [e1, e2, List.map_cons, List.cons_append, ← ih']
    simp only [scan]
    rw [if_neg (not_not_intro r1), r2, r3, r4, if_neg (Nat.lt_irrefl _), if_neg (by omega)]
    unfold toEv
    by_cases hk : knownData m.1 = true
    · rw [if_pos hk, if_pos hk, show pre.length + 3 + m.2.length = pre.length + (3 + m.2.length) by omega]
    · rw [if_neg hk, if_neg hk]
      have hnd : ¬ isDataType m.1 := fun h => hk ((knownData_iff _).mpr h)
      rcases hty with hty | ⟨_, hbad, hns⟩
      · exact absurd hty hnd
      · have hc : ¬ packetCorrupt m.1 m.2.length = true := fun h => hbad ((packetCorrupt_iff _ _).mp h)
        have hsk : skim (pre ++ (encMsgs (m :: l) ++ rest)) m.1 m.2.length
            (pre.length + 3 + m.2.length) (cur + 3 + m.2.length) hs
            = (pre.length + (3 + m.2.length), cur + 3 + m.2.length, hs, false) := by
          unfold skim
          rw [if_neg hc]
          cases hs with
          | false => simp; omega
          | true =>
            rw [if_pos rfl, hb, findSyncBack_noSync _ _ _ hns]
            simp; omega
        rw [hsk]

theorem scan_incomplete (pre tail : Bytes) (h : Incomplete tail) (ru n cur : Nat) (hs : Bool) :
    scan (pre ++ tail) ru n pre.length cur hs = [] := by
  cases n with
  | zero => rfl
  | succ n =>
    simp only [scan]
    rw [readAt_append]
    by_cases h3 : (tail.take 3).length = 3
    · rw [if_neg (not_not_intro h3)]
      have hl3 : 3 ≤ tail.length := by simp at h3; omega
      have hsz : leNat ((tail.take 3).take 2) = leAt tail 0 2 := by
        rw [leAt_eq _ _ _ (by omega)]
        simp [List.take_take]
      rw [hsz, if_pos]
      have : (readAt (pre ++ tail) (pre.length + 3) (leAt tail 0 2)).length
          = min (leAt tail 0 2) (tail.length - 3) := by
        unfold readAt
        rw [← List.drop_drop]; simp
      rw [this]
      rcases h with h | h
      · omega
      · omega
    · rw [if_pos h3]

theorem replay_frames (cfg : Cfg) (hs : Bool) (l : List (Nat × Bytes)) (evs : List SEv) (u : ULog)
    (hu : u.hasSync = hs) :
    replay cfg (l.map (toEv hs) ++ evs) u = match runData cfg l u with
      | .done u => replay cfg evs u
      | .stopped u => .done u
      | .raised e => .raised e := by
  induction l generalizing u with
  | nil => rfl
  | cons m l ih =>
    rw [List.map_cons, List.cons_append]
    simp only [replay, runData]
    by_cases hk : knownData m.1 = true
    · have : toEv hs m = .msg m.1 m.2 := by simp [toEv, hk]
      rw [this]
      have hsync := applyEv_hasSync cfg u
      obtain ⟨o, ho⟩ := handleData_some cfg u m.1 m.2 hk
      have hpres := (handleData_pres _ _ _ _ _ ho).hasSync
      simp only [applyEv, ho]
      cases o with
      | ok u' => exact ih u' (hpres.trans hu)
      | err e u' =>
        cases e
        case indexError => exact ih { u' with fileCorrupt := true } (hpres.trans hu)
        all_goals rfl
    · have hk' : knownData m.1 = false := by simpa using hk
      have : toEv hs m = .unknown false hs := by simp [toEv, hk']
      rw [this, handleData_none _ _ _ _ hk']
      simp only [applyEv]
      have hid : { u with hasSync := hs, fileCorrupt := u.fileCorrupt || false } = u := by
        cases u; simp at hu; simp [hu]
      rw [hid]
      exact ih u hu

/-- reading the bytes of a list of messages followed by an incomplete message -/
theorem readData_frames (cfg : Cfg) (ru : Nat) (l : List (Nat × Bytes)) (hl : ∀ m ∈ l, DataFrame m)
    (pre tail : Bytes) (ht : Incomplete tail) (hru : pre.length + (encMsgs l).length ≤ ru) (u : ULog) :
    readData cfg (pre ++ (encMsgs l ++ tail)) ru pre.length u = finish (runData cfg l u) := by
  rw [readData_eq]
  have hlen : l.length ≤ (pre ++ (encMsgs l ++ tail)).length := by
    have := encMsgs_length l
    simp; omega
  obtain ⟨n, hn⟩ := Nat.exists_eq_add_of_le (Nat.le_succ_of_le hlen)
  rw [show (pre ++ (encMsgs l ++ tail)).length + 1 = l.length + n from hn, scan_frames ru _ l hl pre tail n _ hru,
    replay_frames cfg _ l _ u rfl]
  have : scan (pre ++ (encMsgs l ++ tail)) ru n (pre.length + (encMsgs l).length)
      (pre.length + (encMsgs l).length) u.hasSync = [] := by
    have := scan_incomplete (pre ++ encMsgs l) tail ht ru n (pre.length + (encMsgs l).length) u.hasSync
    simpa using this
  rw [this]
  cases runData cfg l u <;> rfl

/-! ### definition section -/

theorem defLoop_frames (cfg : Cfg) (l : List (Nat × Bytes)) (hl : ∀ m ∈ l, DefFrame m)
    (pre rest : Bytes) (n cur : Nat) (u : ULog) :
    defLoop cfg (pre ++ (encMsgs l ++ rest)) (l.length + n) { pos := pre.length, cur := cur, u := u }
      = match runDefs cfg l u with
        | .done u => defLoop cfg (pre ++ (encMsgs l ++ rest)) n
            { pos := pre.length + (encMsgs l).length, cur := cur, u := u }
        | .stopped u => .done { pos := pre.length, cur := cur, u := u }
        | .raised e => .raised e := by
  induction l generalizing pre u with
  | nil => simp [encMsgs, runDefs]
  | cons m l ih =>
    obtain ⟨hfit, hty⟩ := hl m (List.mem_cons_self ..)
    have hb : pre ++ (encMsgs (m :: l) ++ rest) = pre ++ (encMsg m ++ (encMsgs l ++ rest)) := by
      rw [encMsgs_cons]; simp
    have hb' : pre ++ (encMsgs (m :: l) ++ rest) = (pre ++ encMsg m) ++ (encMsgs l ++ rest) := by
      rw [encMsgs_cons]; simp
    have ih' := ih (fun m hm => hl m (List.mem_cons_of_mem _ hm)) (pre ++ encMsg m)
    rw [← hb'] at ih'
    obtain ⟨r1, r2, r3, r4⟩ := readAt_frame pre (encMsgs l ++ rest) m hfit
    rw [← hb] at r1 r2 r3 r4
    have hadd : (m :: l).length + n = (l.length + n) + 1 := by simp; omega
    rw [hadd]
    have e0 : (pre ++ encMsg m).length = pre.length + 3 + m.2.length := by
      rw [List.length_append, encMsg_length]; omega
    rw [e0] at ih'
    have e1 : pre.length + (encMsgs (m :: l)).length
        = pre.length + 3 + m.2.length + (encMsgs l).length := by
      rw [encMsgs_cons, List.length_append, encMsg_length]; omega
    rw [e1]
    have hns : ∀ (l : List (Nat × Bytes)) u u', runDefs cfg l u ≠ .stopped u' := by
      intro l
      induction l with
      | nil => intro u u' h; cases h
      | cons m l ih =>
        intro u u' h
        simp only [runDefs] at h
        split at h
        · exact ih _ _ h
        · exact ih _ _ h
        · exact ih _ _ h
        · cases h
    have ih2 : ∀ u, defLoop cfg (pre ++ (encMsgs (m :: l) ++ rest)) (l.length + n)
        { pos := pre.length + 3 + m.2.length, cur := cur, u := u } = match runDefs cfg l u with
        | .done u => defLoop cfg (pre ++ (encMsgs (m :: l) ++ rest)) n
            { pos := pre.length + 3 + m.2.length + (encMsgs l).length, cur := cur, u := u }
        | .stopped u => .done { pos := pre.length, cur := cur, u := u }
        | .raised e => .raised e := by
      intro u
      rw [ih' u]
      cases h : runDefs cfg l u with
      | stopped u' => exact absurd h (hns _ _ _)
      | _ => rfl
    rw [defLoop]
    unfold defStep
    simp only
    rw [if_neg (by rw [r1]; decide), if_neg (not_not_intro r1), r2, r3, r4]
    simp only [runDefs]
    cases hd : handleDef cfg u m.1 m.2 with
    | some o =>
      cases o with
      | ok u' => exact ih2 u'
      | err e u' =>
        cases e
        case indexError => exact ih2 _
        all_goals rfl
    | none =>
      have hkd : ¬ isPureDefType m.1 := by
        intro h
        have : knownDef m.1 = true := (knownDef_mem _).mp h
        obtain ⟨o, ho⟩ := handleDef_some cfg u m.1 m.2 this
        rw [hd] at ho; cases ho
      rcases hty with hty | ⟨hnd, hbad⟩
      · exact absurd hty hkd
      · have he : ¬ endsDefs m.1 = true := by
          intro h
          apply hnd
          simp only [endsDefs, Bool.or_eq_true, decide_eq_true_eq] at h
          rcases h with (h | h) | h <;> rw [h] <;> decide
        have hc : ¬ packetCorrupt m.1 m.2.length = true :=
          fun h => hbad ((packetCorrupt_iff _ _).mp h)
        rw [if_neg he, if_neg hc]
        exact ih2 u

theorem runDefs_ne_stopped (cfg : Cfg) (l : List (Nat × Bytes)) (u u' : ULog) :
    runDefs cfg l u ≠ .stopped u' := by
  induction l generalizing u with
  | nil => intro h; cases h
  | cons m l ih =>
    intro h
    simp only [runDefs] at h
    split at h
    · exact ih _ h
    · exact ih _ h
    · exact ih _ h
    · cases h

/-- the definition section ends at the end of the file -/
theorem defStep_eof (cfg : Cfg) (bs : Bytes) (cur : Nat) (u : ULog) :
    defStep cfg bs { pos := bs.length, cur := cur, u := u } = .stop { pos := bs.length, cur := cur, u := u } := by
  unfold defStep
  simp only
  rw [if_pos (by simp [readAt])]

/-- the definition section ends at a message of a data section, which is read again -/
theorem defStep_ends (cfg : Cfg) (pre rest : Bytes) (m : Nat × Bytes) (hm : Fits m)
    (ht : m.1 = tyA ∨ m.1 = tyL ∨ m.1 = tyC) (cur : Nat) (u : ULog) :
    defStep cfg (pre ++ (encMsg m ++ rest)) { pos := pre.length, cur := cur, u := u }
      = .stop { pos := pre.length, cur := cur, u := u } := by
  obtain ⟨r1, r2, r3, r4⟩ := readAt_frame pre rest m hm
  unfold defStep
  simp only
  rw [if_neg (by rw [r1]; decide), if_neg (not_not_intro r1), r2, r3, r4]
  have hn : handleDef cfg u m.1 m.2 = none := by
    apply handleDef_none
    rcases ht with h | h | h <;> rw [h] <;> rfl
  have he : endsDefs m.1 = true := by rcases ht with h | h | h <;> rw [h] <;> rfl
  rw [hn]
  simp only [he, if_true]
  unfold seekBack
  rw [if_pos (by omega)]
  simp only [Step.stop.injEq, RS.mk.injEq, and_self, and_true]
  omega

theorem readHeader_append (hdr rest : Bytes) (h : hdr.length = 16) :
    readHeader (hdr ++ rest) = readHeader hdr := by
  unfold readHeader readAt
  simp only [List.drop_zero]
  rw [List.take_append_of_le_length (by omega)]

/-- loading the bytes of a list of definition messages and a list of data section messages, followed
by an incomplete message -/
theorem load_frames (fuel : Nat) (cfg : Cfg) (hdr : Bytes) (defs msgs : List (Nat × Bytes))
    (tail : Bytes) (u0 : ULog) (hh : hdr.length = 16) (hu : readHeader hdr = .ok u0)
    (hd : ∀ m ∈ defs, DefFrame m) (hm : ∀ m ∈ msgs, DataFrame m)
    (hends : ∀ m, msgs.head? = some m → m.1 = tyA ∨ m.1 = tyL ∨ m.1 = tyC)
    (ht : Incomplete tail) (hnil : msgs = [] → tail = [])
    (hap : ∀ u, runDefs cfg defs u0 = .done u → hasDataAppended u = false)
    (hfuel : defs.length < fuel)
    (hlen : 16 + (encMsgs defs).length + (encMsgs msgs).length ≤ 2 ^ 50) :
    load fuel cfg (hdr ++ (encMsgs defs ++ (encMsgs msgs ++ tail)))
      = loadMsgs cfg defs msgs u0 := by
  rw [load_eq, readHeader_append _ _ hh, hu]
  simp only
  obtain ⟨n, hn⟩ := Nat.exists_eq_add_of_le hfuel
  rw [show fuel = defs.length + (n + 1) by omega]
  have hdl := defLoop_frames cfg defs hd hdr (encMsgs msgs ++ tail) (n + 1) 16 u0
  rw [hh] at hdl
  rw [hdl]
  unfold loadMsgs
  cases hr : runDefs cfg defs u0 with
  | stopped u => exact absurd hr (runDefs_ne_stopped _ _ _ _)
  | raised e => rfl
  | done u =>
    simp only
    -- the definitions loop stops at the end of the definitions
    have hstop : defStep cfg (hdr ++ (encMsgs defs ++ (encMsgs msgs ++ tail)))
        { pos := 16 + (encMsgs defs).length, cur := 16, u := u }
        = .stop { pos := 16 + (encMsgs defs).length, cur := 16, u := u } := by
      cases msgs with
      | nil =>
        rw [hnil rfl]
        have := defStep_eof cfg (hdr ++ (encMsgs defs ++ (encMsgs [] ++ []))) 16 u
        have hl : (hdr ++ (encMsgs defs ++ (encMsgs [] ++ []))).length
            = 16 + (encMsgs defs).length := by simp [encMsgs, hh]
        rw [hl] at this
        exact this
      | cons m ms =>
        have := defStep_ends cfg (hdr ++ encMsgs defs) (encMsgs ms ++ tail) m
          (hm m (List.mem_cons_self ..)).1 (hends m rfl) 16 u
        rw [List.length_append, hh] at this
        have e : hdr ++ (encMsgs defs ++ (encMsgs (m :: ms) ++ tail))
            = hdr ++ encMsgs defs ++ (encMsg m ++ (encMsgs ms ++ tail)) := by
          rw [encMsgs_cons]; simp
        rw [e]; exact this
    rw [defLoop, hstop]
    simp only
    by_cases ho : cfg.headerOnly = true
    · rw [if_pos ho, if_pos ho]
    · rw [if_neg ho, if_neg ho]
      rw [hap u hr]
      simp only [Bool.false_eq_true, if_false, readSections]
      have := readData_frames cfg NO_LIMIT msgs hm (hdr ++ encMsgs defs) tail ht
        (by rw [List.length_append, hh]; exact hlen) u
      rw [List.length_append, hh] at this
      rw [← this]
      simp

end PyULog
