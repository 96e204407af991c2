import Verif.Lemmas.WriteLeftLoad
import Verif.Props.RoundTrip
/-
What a call of `write_ulog` leaves in the file when it ends with an exception (C82).
-/
namespace PyULog
open Spec

/-- **C82**: a call that ends without exception has written the file of C20 to C23. -/
theorem C82_success (u : ULog) (b : Bytes) : writeLeft u = (b, none) ↔ writeUlog u = .ok b := by
  rw [writeUlog_steps]
  exact leave_ok

/-- **C82**: the exception is the one of the first message that cannot be written. -/
theorem C82_error (u : ULog) (e : PyErr) : (writeLeft u).2 = some e ↔ writeUlog u = .error e := by
  rw [writeUlog_steps]
  exact leave_error

/-- **C82**: a call that fails leaves nothing, or the 16 bytes of the header, or exactly the file of a cut
log: some of the definitions and subscriptions in their order, and never a sample or a message. -/
theorem C82_cut (u : ULog) (e : PyErr) (h : writeUlog u = .error e) :
    (writeLeft u).1 = [] ∨
      ((writeLeft u).1.length = 16 ∧ (writeLeft u).1 = magic ++ leEnc 1 u.fileVersion ++ leEnc 8 u.startTs) ∨
      ∃ c, CutOf c u ∧ writeUlog c = .ok (writeLeft u).1 := by
  rcases writeLeft_cut ((C82_error u e).mpr h) with h | h | h
  · exact Or.inl h
  · refine Or.inr (Or.inl ?_)
    refine ⟨(writeHeader_read h).1, ?_⟩
    unfold writeHeader at h
    obtain ⟨_, h⟩ := packU_bind_ok.mp h
    obtain ⟨_, h⟩ := packU_bind_ok.mp h
    split at h
    · cases h
    · injection h with h
      exact h.symm
  · exact Or.inr (Or.inr h)

/-- **C82**: the file that a failing call leaves consists of whole messages, and they are definitions and
subscriptions only. -/
theorem C82_whole_messages (u : ULog) (e : PyErr) (h : writeUlog u = .error e) :
    (writeLeft u).1 = [] ∨ ∃ hdr ms, (writeLeft u).1 = hdr ++ encMsgs ms ∧ hdr.length = 16 ∧
      ∀ m ∈ ms, m.1 ∈ [tyB, tyF, tyI, tyM, tyP, tyQ, tyA] ∧ Fits m := by
  rcases C82_cut u e h with h | ⟨h, _⟩ | ⟨c, hc, hw⟩
  · exact Or.inl h
  · exact Or.inr ⟨(writeLeft u).1, [], by simp [encMsgs], h, by simp⟩
  · obtain ⟨w⟩ := written_of_ok hw
    obtain ⟨defs, subs, h1, h2, h3⟩ := written_parts w
    rw [dataItems_none hc.no_rows hc.no_messages w.h_data, List.append_nil] at h3
    refine Or.inr ⟨w.hdr, defs ++ subs, ?_, (writeHeader_read w.h_hdr).1, ?_⟩
    · refine h3.trans ?_
      rw [encMsgs_append, List.append_assoc]
    · intro m hm
      rcases List.mem_append.mp hm with hm | hm
      · exact ⟨List.mem_append_left [tyA] (h1 m hm).1, (h1 m hm).2⟩
      · exact ⟨List.mem_append_right [tyB, tyF, tyI, tyM, tyP, tyQ] (h2 m hm).1, (h2 m hm).2⟩

/-- **C82**: what a failing call leaves after the header is a valid file: it loads without error as the
definitions of the cut log, without any sample. -/
theorem C82_loads {depth : Nat} {u : ULog} (hu : Writable depth u) {e : PyErr} (h : writeUlog u = .error e)
    (hlen : 16 < (writeLeft u).1.length) :
    ∃ c, CutOf c u ∧ ∀ (cfg : Cfg) (fuel : Nat), cfg.filter = .all → cfg.depth = depth →
      (writeLeft u).1.length < fuel → (writeLeft u).1.length ≤ 2 ^ 50 →
      ∃ v, load fuel cfg (writeLeft u).1 = .ok v ∧ ReadBack (definitionsOf c) v ∧ v.dataList = [] := by
  rcases C82_cut u e h with h | ⟨h, _⟩ | ⟨c, hc, hw⟩
  · rw [h] at hlen
    simp at hlen
  · omega
  · refine ⟨c, hc, ?_⟩
    intro cfg fuel hf hd hfuel hmax
    refine ⟨_, load_cut hu hc hw hf hd hfuel hmax, ?_, rfl⟩
    rw [← canon_defsOnly hc]
    have e : definitionsOf c = defsOnly c := by
      obtain ⟨h1, h2, h3, h4⟩ := hc.no_messages
      unfold definitionsOf defsOnly
      simp only [h1, h2, h3, h4]
    rw [e]
    exact readBack_canon _

/-- the steps before the data section, when the log without rows can be written -/
theorem written_withoutRows {u : ULog} {b : Bytes} (h : writeUlog (withoutRows u) = .ok b) :
    ∃ b0 b1 b2 b3 b4 b5 b6 b7, writeHeader u = .ok b0 ∧ writeFlags u = .ok b1 ∧
      concatM (u.formats.map formatStep) = .ok b2 ∧ concatM (u.info.map (infoStep u.infoTypes)) = .ok b3 ∧
      concatM (u.infoMulti.flatMap (multiSteps u.infoMultiTypes)) = .ok b4 ∧
      concatM (u.initialParams.map initialStep) = .ok b5 ∧
      concatM (u.defaultParams.flatMap defaultSteps) = .ok b6 ∧
      concatM ((byMsgId u.dataList).map subStep) = .ok b7 ∧
      b = b0 ++ (b1 ++ (b2 ++ (b3 ++ (b4 ++ (b5 ++ (b6 ++ b7)))))) := by
  obtain ⟨⟨hdr, flags, fmts, infos, multi, init, dflt, subs, data, p1, p2, p3, p4, p5, p6, p7, p8, p9, peq⟩⟩ :=
    written_of_ok h
  refine ⟨hdr, flags, fmts, infos, multi, init, dflt, subs, p1, p2, p3, p4, ?_, p6, ?_, ?_, ?_⟩
  · rw [writeInfoMulti_steps] at p5
    exact p5
  · rw [writeDefaultParams_steps] at p7
    exact p7
  · have e : byMsgId (u.dataList.map fun d => { d with data := d.data.map fun p => (p.1, []) })
        = (byMsgId u.dataList).map fun d => { d with data := d.data.map fun p => (p.1, []) } :=
      (ssort_map (le := fun a b : Dataset => decide (a.msgId ≤ b.msgId))
        (le' := fun a b : Dataset => decide (a.msgId ≤ b.msgId))
        (fun d : Dataset => { d with data := d.data.map fun p => (p.1, []) }) (fun _ _ => rfl) u.dataList).symm
    have p8 : concatM ((byMsgId (u.dataList.map fun d => { d with data := d.data.map fun p => (p.1, []) })).map
      subStep) = .ok subs := p8
    rw [e, List.map_map] at p8
    exact p8
  · have hdata := dataItems_none (c := withoutRows u) ?_ ⟨rfl, rfl, rfl, rfl⟩ p9
    · rw [peq, hdata, List.append_nil]
    · intro d hd
      obtain ⟨x, _, rfl⟩ := List.mem_map.mp hd
      unfold rowCount
      simp only
      split
      · rfl
      · rename_i f _ _
        have : ∀ l : Dict Str (List NpVal), ((Dict.get? (l.map fun p => (p.1, ([] : List NpVal))) f.name).getD []).length = 0 := by
          intro l
          induction l with
          | nil => rfl
          | cons q l ih =>
            rw [List.map_cons]
            unfold Dict.get?
            split
            · rfl
            · exact ih
        exact this _

/-- **C82**: the data section is prepared in full before its first message is written: when all
definitions and subscriptions can be written and a sample or a message cannot, the file is that of the
log without samples and messages, however many of them could have been written. -/
theorem C82_data_section (u : ULog) (b : Bytes) (e : PyErr) (hd : writeUlog (withoutRows u) = .ok b)
    (h : writeUlog u = .error e) : (writeLeft u).1 = b := by
  obtain ⟨b0, b1, b2, b3, b4, b5, b6, b7, h0, h1, h2, h3, h4, h5, h6, h7, rfl⟩ := written_withoutRows hd
  have hfirst : concatM ([writeHeader u, writeFlags u] ++ u.formats.map formatStep
      ++ u.info.map (infoStep u.infoTypes) ++ u.infoMulti.flatMap (multiSteps u.infoMultiTypes)
      ++ u.initialParams.map initialStep ++ u.defaultParams.flatMap defaultSteps
      ++ (byMsgId u.dataList).map subStep) = .ok (b0 ++ (b1 ++ (b2 ++ (b3 ++ (b4 ++ (b5 ++ (b6 ++ b7))))))) := by
    simp only [concatM_append, h2, h3, h4, h5, h6, h7, concatM_cons, h0, h1]
    show Except.ok _ = Except.ok _
    simp [List.append_assoc]
  have h := (C82_error u e).mpr h
  unfold writeLeft writeSteps at h ⊢
  rcases leave_append _ (dataSteps u) with ⟨e', g1, g2⟩ | ⟨x, g1, g2⟩
  · rw [leave_error, hfirst] at g1
    cases g1
  · rw [hfirst] at g1
    injection g1 with g1
    rw [g2] at h ⊢
    rw [dataSteps_left h, List.append_nil]
    exact g1.symm

/-- **C82**: and that file loads as all the definitions of the log, without its samples. -/
theorem C82_data_section_loads {depth : Nat} {u : ULog} (hu : Writable depth u) {b : Bytes} {e : PyErr}
    (hd : writeUlog (withoutRows u) = .ok b) (h : writeUlog u = .error e) (cfg : Cfg) (fuel : Nat)
    (hf : cfg.filter = .all) (hdep : cfg.depth = depth) (hfuel : (writeLeft u).1.length < fuel)
    (hmax : (writeLeft u).1.length ≤ 2 ^ 50) :
    ∃ v, load fuel cfg (writeLeft u).1 = .ok v ∧ ReadBack (definitionsOf u) v ∧ v.dataList = [] := by
  have hb := C82_data_section u b e hd h
  rw [hb] at hfuel hmax ⊢
  obtain ⟨b0, b1, b2, b3, b4, b5, b6, b7, h0, h1, h2, h3, h4, h5, h6, h7, rfl⟩ := written_withoutRows hd
  have hw := writeUlog_cut h0 h1 h2 h3 h4 h5 h6 h7 List.prefix_rfl
  have hc : CutOf (cutLog u u.formats u.info u.infoMulti u.initialParams u.defaultParams (byMsgId u.dataList)) u :=
    cutOf_cutLog List.prefix_rfl List.prefix_rfl (fun _ => rfl) (cutList_self _ _) (fun _ => ⟨rfl, rfl⟩)
      List.prefix_rfl (fun _ => ⟨rfl, rfl, rfl⟩) (cutList_self _ _) (fun _ => ⟨rfl, rfl, rfl, rfl⟩)
      List.prefix_rfl (fun _ => ⟨rfl, rfl, rfl, rfl, rfl⟩)
  refine ⟨_, load_cut hu hc hw hf hdep hfuel hmax, ?_, rfl⟩
  have e1 : (u.infoTypes.filter fun p => decide (p.1 ∈ u.info.map (·.1))) = u.infoTypes := by
    rw [List.filter_eq_self]
    intro p hp
    rw [← hu.info]
    exact decide_eq_true (List.mem_map_of_mem hp)
  have e2 : (u.infoMultiTypes.filter fun p => decide (p.1 ∈ u.infoMulti.map (·.1))) = u.infoMultiTypes := by
    rw [List.filter_eq_self]
    intro p hp
    rw [← hu.multi]
    exact decide_eq_true (List.mem_map_of_mem hp)
  have e3 : defined (cutLog u u.formats u.info u.infoMulti u.initialParams u.defaultParams (byMsgId u.dataList))
      = canon (definitionsOf u) := by
    unfold cutLog defined
    simp only [e1, e2]
    rfl
  rw [e3]
  exact readBack_canon _

/-! ### non-vacuity -/

namespace Sample

/-- a log whose second parameter has a name that is too long for a message -/
def longName : ULog :=
  { small with initialParams := [(py! "A", .int 1), (List.replicate 300 'x', .int 2), (py! "B", .int 3)] }

theorem longName_writable : Writable 5 longName :=
  { flags := small_writable.flags
    formats := small_writable.formats
    formats_nodup := small_writable.formats_nodup
    info := small_writable.info
    info_nodup := small_writable.info_nodup
    info_ok := small_writable.info_ok
    multi := small_writable.multi
    multi_nodup := small_writable.multi_nodup
    multi_ok := small_writable.multi_ok
    initial_nodup := by decide +kernel
    initial := by
      intro p hp
      simp only [longName, List.mem_cons, List.not_mem_nil, or_false] at hp
      rcases hp with rfl | rfl | rfl
      · exact ⟨by decide, Or.inl ⟨1, rfl, by decide, by decide⟩⟩
      · exact ⟨by decide +kernel, Or.inl ⟨2, rfl, by decide, by decide⟩⟩
      · exact ⟨by decide, Or.inl ⟨3, rfl, by decide, by decide⟩⟩
    defaults_nodup := small_writable.defaults_nodup
    defaults := small_writable.defaults
    changed := small_writable.changed
    ids := small_writable.ids
    data := small_writable.data
    order := small_writable.order
    starts := small_writable.starts }

/-- a log with a message whose level does not fit into a byte -/
def badLevel : ULog := { small with logged := [⟨300, 7, py! "x"⟩] }

theorem badLevel_writable : Writable 5 badLevel :=
  { flags := small_writable.flags
    formats := small_writable.formats
    formats_nodup := small_writable.formats_nodup
    info := small_writable.info
    info_nodup := small_writable.info_nodup
    info_ok := small_writable.info_ok
    multi := small_writable.multi
    multi_nodup := small_writable.multi_nodup
    multi_ok := small_writable.multi_ok
    initial_nodup := small_writable.initial_nodup
    initial := small_writable.initial
    defaults_nodup := small_writable.defaults_nodup
    defaults := small_writable.defaults
    changed := small_writable.changed
    ids := small_writable.ids
    data := small_writable.data
    order := small_writable.order
    starts := small_writable.starts }

end Sample

/-- the hypotheses of `C82_loads`: what is left of a log with samples holds the formats, the information and
the first parameter -/
example : Writable 5 Sample.longName ∧ (writeLeft Sample.longName).2 = some .structError ∧
    16 < (writeLeft Sample.longName).1.length ∧ Sample.longName.dataList ≠ [] ∧
    (match load 50 {} (writeLeft Sample.longName).1 with
      | .ok v => decide (v.formats = Sample.small.formats ∧ v.info = Sample.small.info ∧
          v.initialParams = [(py! "A", .int 1)] ∧ v.defaultParams = [] ∧ v.dataList = [])
      | _ => false) = true := by
  refine ⟨Sample.longName_writable, ?_⟩
  decide +kernel

/-- the hypotheses of `C82_data_section_loads`: the samples could have been written, but none is -/
example : Writable 5 Sample.badLevel ∧ (writeLeft Sample.badLevel).2 = some .structError ∧
    (writeUlog (withoutRows Sample.badLevel)).toOption = some (writeLeft Sample.badLevel).1 ∧
    (dataItems Sample.badLevel).toOption.isSome = true ∧
    (match load 50 {} (writeLeft Sample.badLevel).1 with
      | .ok v => decide (v.formats = Sample.small.formats ∧ v.info = Sample.small.info ∧ v.dataList = [])
      | _ => false) = true := by
  refine ⟨Sample.badLevel_writable, ?_⟩
  decide +kernel

/-- a character that cannot be written: the loaded log has one topic and one sample, the file that is left
has the topic and no sample -/
example : (match load 20 {} (Sample.charFile 200) with
    | .ok u => (match writeUlog (withoutRows u) with
      | .ok b => decide ((writeLeft u).2 = some .valueError ∧ (writeLeft u).1 = b ∧ 16 < b.length ∧ u.dataList.length = 1) &&
        (match load 20 {} b with
          | .ok v => decide (v.dataList = [] ∧ v.formats = u.formats)
          | _ => false)
      | _ => false)
    | _ => false) = true := by decide +kernel

end PyULog
