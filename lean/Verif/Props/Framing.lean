import Verif.Lemmas.Frames
import Verif.Lemmas.Datasets
import Verif.Spec.SampleRun
/-
Property theorems: C18 (framing), C14 (unknown message types are skipped), C15 (a cut log loads as
its prefix).
-/
namespace PyULog
open Spec

theorem incomplete_nil : Incomplete [] := Or.inl (by simp)

/-! ### C18 -/

/-- **C18**: a data section that consists of complete messages is read by processing exactly these
messages, once each and in order. -/
theorem C18_data_section (cfg : Cfg) (l : List (Nat × Bytes)) (hl : ∀ m ∈ l, DataFrame m)
    (pre : Bytes) (hlen : pre.length + (encMsgs l).length ≤ 2 ^ 50) (u : ULog) :
    readData cfg (pre ++ encMsgs l) (2 ^ 50) pre.length u = finish (runData cfg l u) := by
  have := readData_frames cfg (2 ^ 50) l hl pre [] incomplete_nil hlen u
  simpa using this

/-- **C18**: a file that consists of a header and complete messages is loaded by processing exactly
these messages, once each and in order. -/
theorem C18_file (fuel : Nat) (cfg : Cfg) (hdr : Bytes) (defs msgs : List (Nat × Bytes)) (u0 : ULog)
    (hh : hdr.length = 16) (hu : readHeader hdr = .ok u0)
    (hd : ∀ m ∈ defs, DefFrame m) (hm : ∀ m ∈ msgs, DataFrame m)
    (hends : ∀ m, msgs.head? = some m → m.1 = tyA ∨ m.1 = tyL ∨ m.1 = tyC)
    (hap : ∀ u, runDefs cfg defs u0 = .done u → hasDataAppended u = false)
    (hfuel : defs.length < fuel)
    (hlen : 16 + (encMsgs defs).length + (encMsgs msgs).length ≤ 2 ^ 50) :
    load fuel cfg (hdr ++ encMsgs defs ++ encMsgs msgs) = loadMsgs cfg defs msgs u0 := by
  have := load_frames fuel cfg hdr defs msgs [] u0 hh hu hd hm hends incomplete_nil (fun _ => rfl)
    hap hfuel hlen
  simpa using this

/-! ### C14 -/

theorem runData_filter (cfg : Cfg) (l : List (Nat × Bytes)) (u : ULog) :
    runData cfg (l.filter fun m => decide (isDataType m.1)) u = runData cfg l u := by
  induction l generalizing u with
  | nil => rfl
  | cons m l ih =>
    by_cases h : isDataType m.1
    · rw [List.filter_cons_of_pos (by simpa using h)]
      simp only [runData, ih]
    · rw [List.filter_cons_of_neg (by simpa using h), ih]
      have : handleData cfg u m.1 m.2 = none :=
        handleData_none _ _ _ _ (by
          cases hk : knownData m.1 with
          | false => rfl
          | true => exact absurd ((knownData_iff _).mp hk) h)
      simp only [runData, this]

theorem runDefs_filter (cfg : Cfg) (l : List (Nat × Bytes)) (u : ULog) :
    runDefs cfg (l.filter fun m => decide (isPureDefType m.1)) u = runDefs cfg l u := by
  induction l generalizing u with
  | nil => rfl
  | cons m l ih =>
    by_cases h : isPureDefType m.1
    · rw [List.filter_cons_of_pos (by simpa using h)]
      simp only [runDefs, ih]
    · rw [List.filter_cons_of_neg (by simpa using h), ih]
      have : handleDef cfg u m.1 m.2 = none :=
        handleDef_none _ _ _ _ (by
          cases hk : knownDef m.1 with
          | false => rfl
          | true => exact absurd ((knownDef_mem _).mpr hk) h)
      simp only [runDefs, this]

/-- **C14**: messages of unknown types (1 to 10000 bytes of payload without the sync sequence)
anywhere in the definition or data section do not change the result of loading: the file loads like
the file without them. -/
theorem C14_unknown_skipped (fuel : Nat) (cfg : Cfg) (hdr : Bytes) (defs msgs : List (Nat × Bytes))
    (u0 : ULog) (hh : hdr.length = 16) (hu : readHeader hdr = .ok u0)
    (hd : ∀ m ∈ defs, DefFrame m) (hm : ∀ m ∈ msgs, DataFrame m)
    (hends : ∀ m, msgs.head? = some m → m.1 = tyA ∨ m.1 = tyL ∨ m.1 = tyC)
    (hap : ∀ u, runDefs cfg defs u0 = .done u → hasDataAppended u = false)
    (hfuel : defs.length < fuel)
    (hlen : 16 + (encMsgs defs).length + (encMsgs msgs).length ≤ 2 ^ 50) :
    load fuel cfg (hdr ++ encMsgs defs ++ encMsgs msgs)
      = load fuel cfg (hdr ++ encMsgs (known (fun t => decide (isPureDefType t)) defs)
          ++ encMsgs (known (fun t => decide (isDataType t)) msgs)) := by
  have hsub : ∀ (p : Nat × Bytes → Bool) (l : List (Nat × Bytes)),
      (encMsgs (l.filter p)).length ≤ (encMsgs l).length := by
    intro p l
    induction l with
    | nil => simp
    | cons m l ih =>
      by_cases h : p m = true
      · rw [List.filter_cons_of_pos h, encMsgs_cons, encMsgs_cons, List.length_append,
          List.length_append]; omega
      · rw [List.filter_cons_of_neg h, encMsgs_cons, List.length_append]; omega
  rw [C18_file fuel cfg hdr defs msgs u0 hh hu hd hm hends hap hfuel hlen]
  rw [C18_file fuel cfg hdr (known _ defs) (known _ msgs) u0 hh hu
    (fun m h => hd m (List.mem_filter.mp h).1) (fun m h => hm m (List.mem_filter.mp h).1)]
  · unfold loadMsgs known
    rw [runDefs_filter cfg defs]
    cases runDefs cfg defs u0 with
    | done u => simp only [runData_filter cfg msgs]
    | stopped u => rfl
    | raised e => rfl
  · intro m h
    cases msgs with
    | nil => cases h
    | cons x xs =>
      have hx : isDataType x.1 := by
        rcases hends x rfl with h | h | h <;> rw [h] <;> decide
      unfold known at h
      rw [List.filter_cons_of_pos (by simpa using hx)] at h
      exact hends m (by simpa using h)
  · intro u h
    unfold known at h
    rw [runDefs_filter] at h
    exact hap u h
  · exact Nat.lt_of_le_of_lt (List.length_filter_le ..) hfuel
  · have h1 := hsub (fun m => decide (isPureDefType m.1)) defs
    have h2 := hsub (fun m => decide (isDataType m.1)) msgs
    simp only [known]
    omega

/-- **C14** for arbitrary surroundings: wherever the data section reader meets a message of unknown
type, with 1 to 10000 bytes of payload that do not contain the sync sequence, it moves on to the byte
after it and leaves the object alone. -/
theorem C14_step (cfg : Cfg) (pre rest : Bytes) (m : Nat × Bytes) (ru cur : Nat) (u : ULog)
    (hf : Fits m) (ht : ¬ isDataType m.1) (hb : ¬ badHeader m.1 m.2.length) (hs : NoSync m.2)
    (hru : cur + 3 + m.2.length ≤ ru) :
    dataStep cfg (pre ++ (encMsg m ++ rest)) ru { pos := pre.length, cur := cur, u := u }
      = .cont { pos := pre.length + 3 + m.2.length, cur := cur + 3 + m.2.length, u := u } := by
  obtain ⟨r1, r2, r3, r4⟩ := readAt_frame pre rest m hf
  unfold dataStep
  simp only
  rw [if_neg (not_not_intro r1), r2, r3, r4, if_neg (Nat.lt_irrefl _), if_neg (by omega)]
  have hk : knownData m.1 = false := by
    cases hk : knownData m.1 with
    | false => rfl
    | true => exact absurd ((knownData_iff _).mp hk) ht
  rw [handleData_none _ _ _ _ hk]
  simp only
  unfold handleUnknown
  have hc : ¬ packetCorrupt m.1 m.2.length = true := fun h => hb ((packetCorrupt_iff _ _).mp h)
  rw [if_neg hc]
  simp only
  rw [findSyncBack_noSync _ _ _ hs]
  split <;> rfl

/-! ### C15 -/

theorem completeIn_prefix (k : Nat) (l : List (Nat × Bytes)) : completeIn k l <+: l := by
  induction l generalizing k with
  | nil => simp [completeIn]
  | cons m l ih =>
    unfold completeIn
    split
    · obtain ⟨r, hr⟩ := ih (k - (3 + m.2.length))
      exact ⟨r, by rw [List.cons_append, hr]⟩
    · exact List.nil_prefix

theorem take_frames (k : Nat) (l : List (Nat × Bytes)) (hl : ∀ m ∈ l, Fits m) :
    ∃ tail, Incomplete tail ∧ (encMsgs l).take k = encMsgs (completeIn k l) ++ tail := by
  induction l generalizing k with
  | nil => exact ⟨[], incomplete_nil, by simp [encMsgs, completeIn]⟩
  | cons m l ih =>
    unfold completeIn
    rw [encMsgs_cons]
    by_cases h : 3 + m.2.length ≤ k
    · rw [if_pos h]
      obtain ⟨tail, h1, h2⟩ := ih (k - (3 + m.2.length)) fun m hm => hl m (List.mem_cons_of_mem _ hm)
      refine ⟨tail, h1, ?_⟩
      rw [encMsgs_cons, List.append_assoc, ← h2, List.take_append, encMsg_length,
        List.take_of_length_le (by rw [encMsg_length]; exact h)]
    · rw [if_neg h]
      refine ⟨(encMsg m ++ encMsgs l).take k, ?_, by simp [encMsgs]⟩
      have hl : ((encMsg m ++ encMsgs l).take k).length = k := by
        rw [List.length_take, List.length_append, encMsg_length]; omega
      by_cases h3 : k < 3
      · left; omega
      · right
        rw [hl]
        have : leAt ((encMsg m ++ encMsgs l).take k) 0 2 = m.2.length := by
          rw [leAt_eq _ _ _ (by omega)]
          have hf := hl
          have : (((encMsg m ++ encMsgs l).take k).drop 0).take 2
              = [UInt8.ofNat (m.2.length % 256), UInt8.ofNat (m.2.length / 256)] := by
            rw [List.drop_zero, List.take_take, Nat.min_eq_left (by omega)]
            simp [encMsg]
          rw [this]
          exact leNat_size (‹∀ m' ∈ m :: l, Fits m'› m (List.mem_cons_self ..)).2
        omega

/-- **C15** (for a cut after the first message of the data section): the cut file loads like the file
that consists of the messages completely contained in it. -/
theorem C15_cut_partial (fuel : Nat) (cfg : Cfg) (hdr : Bytes) (defs msgs : List (Nat × Bytes))
    (first : Nat × Bytes) (u0 : ULog)
    (hh : hdr.length = 16) (hu : readHeader hdr = .ok u0)
    (hd : ∀ m ∈ defs, DefFrame m) (hm : ∀ m ∈ first :: msgs, DataFrame m)
    (hends : first.1 = tyA ∨ first.1 = tyL ∨ first.1 = tyC)
    (hap : ∀ u, runDefs cfg defs u0 = .done u → hasDataAppended u = false)
    (hfuel : defs.length < fuel)
    (hlen : 16 + (encMsgs defs).length + (encMsgs (first :: msgs)).length ≤ 2 ^ 50)
    (k : Nat) (hk : 16 + (encMsgs defs).length + (encMsg first).length ≤ k) :
    load fuel cfg ((hdr ++ encMsgs defs ++ encMsgs (first :: msgs)).take k)
      = load fuel cfg (hdr ++ encMsgs defs ++
          encMsgs (completeIn (k - (16 + (encMsgs defs).length)) (first :: msgs))) := by
  have hpre : (hdr ++ encMsgs defs).length = 16 + (encMsgs defs).length := by simp [hh]
  obtain ⟨tail, ht, htake⟩ := take_frames (k - (16 + (encMsgs defs).length)) (first :: msgs)
    fun m h => (hm m h).1
  obtain ⟨rest, hrest⟩ := completeIn_prefix (k - (16 + (encMsgs defs).length)) (first :: msgs)
  have hne : completeIn (k - (16 + (encMsgs defs).length)) (first :: msgs) ≠ [] := by
    unfold completeIn
    rw [encMsg_length] at hk
    rw [if_pos (by omega)]
    simp
  have hmem : ∀ m ∈ completeIn (k - (16 + (encMsgs defs).length)) (first :: msgs), DataFrame m := by
    intro m h
    exact hm m (by rw [← hrest]; exact List.mem_append_left _ h)
  have hhead : ∀ m, (completeIn (k - (16 + (encMsgs defs).length)) (first :: msgs)).head? = some m →
      m.1 = tyA ∨ m.1 = tyL ∨ m.1 = tyC := by
    intro m h
    have : (first :: msgs).head? = some m := by
      rw [← hrest]
      cases hc : completeIn (k - (16 + (encMsgs defs).length)) (first :: msgs) with
      | nil => exact absurd hc hne
      | cons a as => rw [hc] at h; exact h
    simp only [List.head?_cons, Option.some.injEq] at this
    rw [← this]; exact hends
  have hle : (encMsgs (completeIn (k - (16 + (encMsgs defs).length)) (first :: msgs))).length
      ≤ (encMsgs (first :: msgs)).length := by
    rw (occs := .pos [2]) [← hrest]
    rw [encMsgs_append, List.length_append]; omega
  rw [List.take_append, hpre, List.take_of_length_le (by rw [hpre]; omega), htake]
  have h1 := load_frames fuel cfg hdr defs
    (completeIn (k - (16 + (encMsgs defs).length)) (first :: msgs)) tail u0 hh hu hd hmem hhead ht
    (fun h => absurd h hne) hap hfuel (by omega)
  rw [C18_file fuel cfg hdr defs _ u0 hh hu hd hmem hhead hap hfuel (by omega), ← h1]
  simp

theorem runData_append (cfg : Cfg) (a b : List (Nat × Bytes)) (u : ULog) :
    runData cfg (a ++ b) u = match runData cfg a u with
      | .done u => runData cfg b u
      | .stopped u => .stopped u
      | .raised e => .raised e := by
  induction a generalizing u with
  | nil => rfl
  | cons m a ih =>
    simp only [List.cons_append, runData]
    cases handleData cfg u m.1 m.2 with
    | none => exact ih u
    | some o =>
      cases o with
      | ok u' => exact ih u'
      | err e u' =>
        cases e
        case indexError => exact ih _
        all_goals rfl

/-- state of the object after processing -/
def Run.state? : Run → Option ULog
  | .done u => some u
  | .stopped u => some u
  | .raised _ => none

theorem runData_state (cfg : Cfg) (l : List (Nat × Bytes)) (u v : ULog)
    (h : Run.state? (runData cfg l u) = some v) : Pres u v ∧ (SubsOk u → SubsOk v) := by
  induction l generalizing u with
  | nil => cases h; exact ⟨Pres.refl _, id⟩
  | cons m l ih =>
    simp only [runData] at h
    cases ho : handleData cfg u m.1 m.2 with
    | none => rw [ho] at h; exact ih u h
    | some o =>
      have hp := handleData_pres _ _ _ _ _ ho
      have hs : SubsOk u → SubsOk o.state := fun hu => handleData_subsOk hu ho
      rw [ho] at h
      cases o with
      | ok u' =>
        obtain ⟨h1, h2⟩ := ih u' h
        exact ⟨hp.trans h1, fun hu => h2 (hs hu)⟩
      | err e u' =>
        cases e
        case indexError =>
          obtain ⟨h1, h2⟩ := ih { u' with fileCorrupt := true } h
          refine ⟨hp.trans (Pres.trans ?_ h1), fun hu => h2 (hs hu)⟩
          constructor <;> simp [Out.state]
        case structError => cases h; exact ⟨hp, hs⟩
        all_goals cases h

/-- **C15** (continued): if the whole file loads, so does the cut file; the corruption flag is set
only if it is set for the whole file; text messages, dropouts and parameter changes are those of the
prefix of the log. -/
theorem C15_cut_loads_partial (fuel : Nat) (cfg : Cfg) (hdr : Bytes) (defs msgs : List (Nat × Bytes))
    (first : Nat × Bytes) (u0 : ULog)
    (hh : hdr.length = 16) (hu : readHeader hdr = .ok u0)
    (hd : ∀ m ∈ defs, DefFrame m) (hm : ∀ m ∈ first :: msgs, DataFrame m)
    (hends : first.1 = tyA ∨ first.1 = tyL ∨ first.1 = tyC)
    (hap : ∀ u, runDefs cfg defs u0 = .done u → hasDataAppended u = false)
    (hfuel : defs.length < fuel)
    (hlen : 16 + (encMsgs defs).length + (encMsgs (first :: msgs)).length ≤ 2 ^ 50)
    (k : Nat) (hk : 16 + (encMsgs defs).length + (encMsg first).length ≤ k) (u : ULog)
    (hfull : load fuel cfg (hdr ++ encMsgs defs ++ encMsgs (first :: msgs)) = .ok u) :
    ∃ u', load fuel cfg ((hdr ++ encMsgs defs ++ encMsgs (first :: msgs)).take k) = .ok u' ∧
      (u'.fileCorrupt = true → u.fileCorrupt = true) ∧
      u'.logged <+: u.logged ∧ u'.dropouts <+: u.dropouts ∧ u'.changedParams <+: u.changedParams ∧
      u'.formats = u.formats ∧ u'.initialParams = u.initialParams := by
  rw [C15_cut_partial fuel cfg hdr defs msgs first u0 hh hu hd hm hends hap hfuel hlen k hk]
  have hfull' := hfull
  rw [C18_file fuel cfg hdr defs (first :: msgs) u0 hh hu hd hm
    (fun m h => by cases h; exact hends) hap hfuel hlen] at hfull'
  obtain ⟨rest, hrest⟩ := completeIn_prefix (k - (16 + (encMsgs defs).length)) (first :: msgs)
  generalize hc : completeIn (k - (16 + (encMsgs defs).length)) (first :: msgs) = c at hrest ⊢
  have hmem : ∀ m ∈ c, DataFrame m := fun m h => hm m (by rw [← hrest]; exact List.mem_append_left _ h)
  have hle : (encMsgs c).length ≤ (encMsgs (first :: msgs)).length := by
    rw [← hrest, encMsgs_append, List.length_append]; omega
  rw [C18_file fuel cfg hdr defs c u0 hh hu hd hmem ?_ hap hfuel (by omega)]
  · unfold loadMsgs at hfull' ⊢
    -- the object after the definitions
    have hsubs0 : u0.subs = [] := by rw [readHeader_init hu]
    cases hr : runDefs cfg defs u0 with
    | stopped v => exact absurd hr (runDefs_ne_stopped _ _ _ _)
    | raised e => rw [hr] at hfull'; cases hfull'
    | done v =>
      rw [hr] at hfull'
      simp only at hfull' ⊢
      by_cases ho : cfg.headerOnly = true
      · rw [if_pos ho] at hfull' ⊢
        cases hfull'
        exact ⟨_, rfl, id, List.prefix_refl _, List.prefix_refl _, List.prefix_refl _, rfl, rfl⟩
      · rw [if_neg ho] at hfull' ⊢
        have hsv : SubsOk v := by
          have : ∀ (l : List (Nat × Bytes)) u v, runDefs cfg l u = .done v → u.subs = [] →
              v.subs = [] := by
            intro l
            induction l with
            | nil => intro u v h hs; cases h; exact hs
            | cons m l ih =>
              intro u v h hs
              simp only [runDefs] at h
              cases hod : handleDef cfg u m.1 m.2 with
              | none => rw [hod] at h; exact ih u v h hs
              | some o =>
                have hf : o.state.subs = u.subs := (handleDef_presD _ _ _ _ _ hod).subs
                rw [hod] at h
                cases o with
                | ok u' => exact ih u' v h (hf.trans hs)
                | err e u' =>
                  cases e
                  case indexError => exact ih { u' with fileCorrupt := true } v h (hf.trans hs)
                  all_goals cases h
          exact SubsOk.empty (this defs u0 v hr hsubs0)
        -- facts about the end of a section
        have hfin : ∀ (w w' : ULog), finalize w = .ok w' →
            w'.fileCorrupt = w.fileCorrupt ∧ w'.logged = w.logged ∧ w'.dropouts = w.dropouts ∧
            w'.changedParams = w.changedParams ∧ w'.formats = w.formats ∧
            w'.initialParams = w.initialParams := by
          intro w w' h
          obtain ⟨new, _, he⟩ := finalize_ok h
          rw [he]; exact ⟨rfl, rfl, rfl, rfl, rfl, rfl⟩
        have hst : ∀ w, Run.state? (runData cfg c v) = some w →
            ∃ w', finish (runData cfg c v) = .ok w' ∧ finalize w = .ok w' := by
          intro w hw
          have hok := (runData_state cfg c v w hw).2 hsv
          obtain ⟨w', hw'⟩ := finalize_total w hok
          refine ⟨w', ?_, hw'⟩
          cases hrc : runData cfg c v with
          | done x => rw [hrc] at hw; cases hw; simp [finish, hw', LoadRes.ofExcept]
          | stopped x => rw [hrc] at hw; cases hw; simp [finish, hw', LoadRes.ofExcept]
          | raised e => rw [hrc] at hw; cases hw
        rw [← hrest, runData_append] at hfull'
        -- the state after the prefix, and after the whole log
        obtain ⟨w, x, hw, hx, hwx⟩ : ∃ w x, Run.state? (runData cfg c v) = some w ∧
            finalize x = .ok u ∧ Pres w x := by
          cases hrc : runData cfg c v with
          | raised e => rw [hrc] at hfull'; cases hfull'
          | stopped w =>
            rw [hrc] at hfull'
            simp only [finish, LoadRes.ofExcept] at hfull'
            split at hfull'
            · rename_i y hy; cases hfull'; exact ⟨w, w, rfl, hy, Pres.refl _⟩
            · cases hfull'
          | done w =>
            rw [hrc] at hfull'
            simp only at hfull'
            cases hrr : runData cfg rest w with
            | raised e => rw [hrr] at hfull'; cases hfull'
            | done x =>
              rw [hrr] at hfull'
              simp only [finish, LoadRes.ofExcept] at hfull'
              split at hfull'
              · rename_i y hy
                cases hfull'
                exact ⟨w, x, rfl, hy, (runData_state cfg rest w x (by rw [hrr]; rfl)).1⟩
              · cases hfull'
            | stopped x =>
              rw [hrr] at hfull'
              simp only [finish, LoadRes.ofExcept] at hfull'
              split at hfull'
              · rename_i y hy
                cases hfull'
                exact ⟨w, x, rfl, hy, (runData_state cfg rest w x (by rw [hrr]; rfl)).1⟩
              · cases hfull'
        obtain ⟨w', hw1, hw2⟩ := hst w hw
        obtain ⟨a1, a2, a3, a4, a5, a6⟩ := hfin w w' hw2
        obtain ⟨b1, b2, b3, b4, b5, b6⟩ := hfin x u hx
        refine ⟨w', hw1, ?_, ?_, ?_, ?_, ?_, ?_⟩
        · rw [a1, b1]; exact hwx.corrupt
        · rw [a2, b2]; exact hwx.logged
        · rw [a3, b3]; exact hwx.dropouts
        · rw [a4, b4]; exact hwx.changedParams
        · rw [a5, b5]; exact hwx.formats.symm
        · rw [a6, b6]; exact hwx.initialParams.symm
  · intro m h
    have : (first :: msgs).head? = some m := by
      rw [← hrest]
      cases c with
      | nil => cases h
      | cons a as => exact h
    cases this; exact hends

/-! ### the sample file -/

/-- the sample file is covered by `C18_file`, `C14_unknown_skipped` and `C15_cut_partial` -/
example : Sample.header.length = 16 ∧ (∃ u0, readHeader Sample.header = .ok u0 ∧
      ∀ u, runDefs {} Sample.defs u0 = .done u → hasDataAppended u = false) ∧
    (∀ m ∈ Sample.defs, DefFrame m) ∧ (∀ m ∈ Sample.msgs, DataFrame m) ∧
    (∀ m, Sample.msgs.head? = some m → m.1 = tyA ∨ m.1 = tyL ∨ m.1 = tyC) := by
  refine ⟨by decide, ⟨_, rfl, ?_⟩, ?_, ?_, ?_⟩
  · intro u h
    have : (match runDefs {} Sample.defs { fileVersion := 1, startTs := 100, lastTs := 100 } with
      | .done u => hasDataAppended u
      | _ => false) = false := by decide +kernel
    rw [show runDefs {} Sample.defs { fileVersion := 1, startTs := 100, lastTs := 100 } = .done u from h]
      at this
    exact this
  · have : ∀ m ∈ Sample.defs, Fits m ∧ isPureDefType m.1 := by decide +kernel
    exact fun m h => ⟨(this m h).1, Or.inl (this m h).2⟩
  · have : ∀ m ∈ Sample.msgs, Fits m ∧ isDataType m.1 := by decide +kernel
    exact fun m h => ⟨(this m h).1, Or.inl (this m h).2⟩
  · decide +kernel

/-- an unknown message that C14 covers -/
example : DataFrame (90, [1, 2, 3]) ∧ DefFrame (90, [1, 2, 3]) := by
  refine ⟨⟨by decide, Or.inr ⟨by decide, by decide, ?_⟩⟩, ⟨by decide, Or.inr ⟨by decide, by decide⟩⟩⟩
  intro i h
  have := congrArg List.length h
  simp [syncMagic] at this
  omega

/-- length of the sample file up to its data section -/
def Sample.base : Nat := (Sample.header ++ encMsgs Sample.defs).length

/-- **C15 is false for a cut inside the first message of the data section**: with one byte left of it,
the definition reader raises `struct.error`; with four, it seeks back further than it read, and
parsing starts in the middle of the definitions: the file is marked corrupt. -/
theorem C15_cut_in_first_message_fails :
    load 20 {} (Sample.file.take (Sample.base + 1)) = .raised .structError ∧
    (∃ u, load 20 {} (Sample.file.take (Sample.base + 4)) = .ok u ∧ u.fileCorrupt = true) := by
  refine ⟨by decide +kernel, Sample.get (load 20 {} (Sample.file.take (Sample.base + 4))), ?_, ?_⟩ <;>
    decide +kernel

/-- the cut of `C15_cut_partial` at a byte in the middle of the log -/
example : load 20 {} (Sample.file.take (Sample.base + 30))
    = load 20 {} (Sample.header ++ encMsgs Sample.defs ++ encMsgs (Sample.msgs.take 3)) := by
  decide +kernel

end PyULog
