import Verif.Lemmas.WriteCut
import Verif.Props.WriteLeft
/-
A file of `write_ulog` that is cut (C105).
-/
namespace PyULog
open Spec

theorem completeIn_append (a l : List (Nat × Bytes)) (k : Nat) (hk : (encMsgs a).length ≤ k) :
    completeIn k (a ++ l) = a ++ completeIn (k - (encMsgs a).length) l := by
  induction a generalizing k with
  | nil => rfl
  | cons m a ih =>
    rw [encMsgs_cons, List.length_append, encMsg_length] at hk
    rw [List.cons_append]
    show (if 3 + m.2.length ≤ k then m :: completeIn (k - (3 + m.2.length)) (a ++ l) else []) = _
    rw [if_pos (by omega), ih _ (by omega), encMsgs_cons, List.length_append, encMsg_length, List.cons_append,
      Nat.sub_sub]

theorem completeIn_le (l : List (Nat × Bytes)) {k k' : Nat} (h : k ≤ k') :
    (completeIn k l).length ≤ (completeIn k' l).length := by
  induction l generalizing k k' with
  | nil => exact Nat.le_refl _
  | cons m l ih =>
    unfold completeIn
    by_cases h1 : 3 + m.2.length ≤ k
    · rw [if_pos h1, if_pos (by omega), List.length_cons, List.length_cons]
      have := ih (k := k - (3 + m.2.length)) (k' := k' - (3 + m.2.length)) (by omega)
      omega
    · rw [if_neg h1]
      simp

/-- the messages of a written file -/
theorem cut_parts {depth : Nat} {u : ULog} {b c : Bytes} (hu : Writable depth u)
    (hw : writeUlog u = .ok b) (hc : writeUlog (withoutRows u) = .ok c) (cfg : Cfg) (hf : cfg.filter = .all)
    (hdep : cfg.depth = depth) :
    ∃ (hdr : Bytes) (defs subs : List (Nat × Bytes)) (per : List (List Timed)) (q : List (Ev × Timed)),
      hdr.length = 16 ∧
      readHeader hdr = .ok { fileVersion := u.fileVersion, startTs := u.startTs, lastTs := u.startTs } ∧
      (∀ m ∈ defs, DefFrame m) ∧
      runDefs cfg defs { fileVersion := u.fileVersion, startTs := u.startTs, lastTs := u.startTs }
        = .done (defined u) ∧
      (∀ m ∈ subs, m.1 = tyA ∧ Fits m) ∧ subs.length = u.dataList.length ∧
      runData cfg subs (defined u) = .done ((coll0 u.startTs).obj (defined u) (byMsgId u.dataList)) ∧
      (per.length = (byMsgId u.dataList).length ∧ ∀ p ∈ (byMsgId u.dataList).zip per, IsRows p.1 p.2) ∧
      q.map (·.1) = ssort (fun a b => decide (a.key ≤ b.key)) (allEvs u per) ∧
      (∀ p ∈ q, Does cfg (defined u) (byMsgId u.dataList) p.1 p.2) ∧
      c = hdr ++ encMsgs defs ++ encMsgs subs ∧ b = c ++ encMsgs (q.map fun p => p.2.2) := by
  obtain ⟨w⟩ := written_of_ok hw
  obtain ⟨defs, e1, e2, e3⟩ := definitions_read (cfg := cfg) hu w
  obtain ⟨hh, hr⟩ := writeHeader_read w.h_hdr
  have hn : ((byMsgId u.dataList).map (·.msgId)).Nodup :=
    ((ssort_perm _ u.dataList).map _).nodup_iff.mpr hu.ids
  have hmem : ∀ d ∈ byMsgId u.dataList, d ∈ u.dataList := fun d hd => (mem_ssort _ _ _).mp hd
  obtain ⟨subs, s1, s2, s3, s4⟩ := subs_read (cfg := cfg) (base := defined u) hf hn
    (fun d hd => hdep ▸ hu.data d (hmem d hd)) w.h_subs
  obtain ⟨per, q, hper, q1, q2, q3⟩ := data_events (cfg := cfg) hu (defined u) w.h_data
  obtain ⟨b0, b1, b2, b3, b4, b5, b6, b7, h0, h1, h2, h3, h4, h5, h6, h7, hceq⟩ := written_withoutRows hc
  have i0 : b0 = w.hdr := Except.ok.inj (h0.symm.trans w.h_hdr)
  have i1 : b1 = w.flags := Except.ok.inj (h1.symm.trans w.h_flags)
  have i2 : b2 = w.fmts := Except.ok.inj (h2.symm.trans w.h_fmts)
  have i3 : b3 = w.infos := Except.ok.inj (h3.symm.trans w.h_infos)
  have i4 : b4 = w.multi := by
    have := w.h_multi
    rw [writeInfoMulti_steps] at this
    exact Except.ok.inj (h4.symm.trans this)
  have i5 : b5 = w.init := Except.ok.inj (h5.symm.trans w.h_init)
  have i6 : b6 = w.dflt := by
    have := w.h_dflt
    rw [writeDefaultParams_steps] at this
    exact Except.ok.inj (h6.symm.trans this)
  have i7 : b7 = w.subs := Except.ok.inj (h7.symm.trans w.h_subs)
  have hc' : c = w.hdr ++ encMsgs defs ++ encMsgs subs := by
    rw [hceq, i0, i1, i2, i3, i4, i5, i6, i7, s1, ← e1]
    simp only [List.append_assoc]
  refine ⟨w.hdr, defs, subs, per, q, hh, hr, e2, e3, s2, ?_, ?_, hper, q2, q3, hc', ?_⟩
  · rw [s3]
    exact length_ssort _ _
  · have h1 := s4 [] (by simp)
    rw [List.nil_append] at h1
    exact h1
  · rw [hc']
    have := w.eq
    rw [s1, q1] at this
    refine this.trans ?_
    rw [← e1]
    simp only [List.append_assoc]

/-- **C105**: a file of `write_ulog` that is cut anywhere after its subscriptions loads without exception, as
the log up to some time: `msgs` are the data messages of the file, `v` is the log read from the whole file and
`w` the one from the first `k` bytes. No sample and no message that is complete in these bytes is lost. -/
theorem C105_cut {depth fuel : Nat} {cfg : Cfg} {u : ULog} {b c : Bytes} (hu : Writable depth u)
    (hne : u.dataList ≠ []) (hw : writeUlog u = .ok b) (hc : writeUlog (withoutRows u) = .ok c)
    (hf : cfg.filter = .all) (ho : cfg.headerOnly = false) (hdep : cfg.depth = depth)
    (hfuel : b.length < fuel) (hlen : b.length ≤ 2 ^ 50) :
    ∃ (msgs : List (Nat × Bytes)) (v : ULog), b = c ++ encMsgs msgs ∧ (∀ m ∈ msgs, Fits m) ∧
      load fuel cfg b = .ok v ∧ ReadBack u v ∧
      ∀ k, c.length ≤ k → ∃ (w : ULog) (t : Int), load fuel cfg (b.take k) = .ok w ∧ LogUpTo t w v ∧
        itemCount w = (completeIn (k - c.length) msgs).length := by
  have hv := load_written hu hw hf ho hdep hfuel hlen
  obtain ⟨hdr, defs, subs, per, q, hh, hr, hd, hdefs, hs, hsl, hsubs, ⟨p1, p2⟩, q2, q3, hceq, hbeq⟩ :=
    cut_parts hu hw hc cfg hf hdep
  have hcl : c.length = 16 + (encMsgs defs).length + (encMsgs subs).length := by
    rw [hceq, List.length_append, List.length_append, hh]
  cases hsu : subs with
  | nil =>
    rw [hsu] at hsl
    exact absurd (List.eq_nil_of_length_eq_zero hsl.symm) hne
  | cons first ss =>
    have hb : b = hdr ++ encMsgs defs ++ encMsgs (first :: (ss ++ q.map fun p => p.2.2)) := by
      rw [hbeq, hceq, hsu, ← List.cons_append, encMsgs_append]
      simp only [List.append_assoc]
    have hbl : b.length = 16 + (encMsgs defs).length
        + (encMsgs (first :: (ss ++ q.map fun p => p.2.2))).length := by
      rw [congrArg List.length hb, List.length_append, List.length_append, hh]
    have hfr : ∀ m ∈ first :: (ss ++ q.map fun p => p.2.2), DataFrame m := by
      intro m hm
      rw [← List.cons_append, ← hsu] at hm
      rcases List.mem_append.mp hm with hm | hm
      · exact ⟨(hs m hm).2, Or.inl (by rw [(hs m hm).1]; decide)⟩
      · obtain ⟨p, hp, rfl⟩ := List.mem_map.mp hm
        exact (q3 p hp).2.2.1
    have hhead : first.1 = tyA ∨ first.1 = tyL ∨ first.1 = tyC := Or.inl (hs first (by rw [hsu]; simp)).1
    have hap : ∀ v, runDefs cfg defs { fileVersion := u.fileVersion, startTs := u.startTs, lastTs := u.startTs }
        = .done v → hasDataAppended v = false := by
      intro v hv
      rw [hdefs] at hv
      injection hv with hv
      subst hv
      unfold hasDataAppended defined
      simp only
      cases u.incompat <;> rfl
    have hpos : ∀ l : List (Nat × Bytes), l.length ≤ (encMsgs l).length := by
      intro l
      induction l with
      | nil => simp
      | cons m l ih =>
        rw [encMsgs_cons, List.length_append, List.length_cons, encMsg_length]
        omega
    have hdl := hpos defs
    have hfl : (encMsg first).length ≤ (encMsgs subs).length := by
      rw [hsu, encMsgs_cons, List.length_append]
      omega
    refine ⟨q.map fun p => p.2.2, canon u, hbeq, ?_, hv, readBack_canon u, ?_⟩
    · intro m hm
      obtain ⟨p, hp, rfl⟩ := List.mem_map.mp hm
      exact (q3 p hp).2.2.1.1
    intro k hk
    have hcut := C15_cut_partial fuel cfg hdr defs (ss ++ q.map fun p => p.2.2) first _ hh hr hd hfr hhead hap
      (by omega) (by omega) k (by omega)
    rw [← List.cons_append, ← hsu] at hcut
    rw [completeIn_append _ _ _ (by omega)] at hcut
    have hkk : k - (16 + (encMsgs defs).length) - (encMsgs subs).length = k - c.length := by omega
    rw [hkk] at hcut
    rw [← List.cons_append, ← hsu] at hb
    rw [← hb] at hcut
    obtain ⟨rest, hrest⟩ := completeIn_prefix (k - c.length) (q.map fun p => p.2.2)
    generalize hm : completeIn (k - c.length) (q.map fun p => p.2.2) = msgs at hcut hrest
    have hmq : msgs = (q.take msgs.length).map fun p => p.2.2 := by
      rw [List.map_take]
      exact take_of_append hrest
    have hEq : (q.take msgs.length).map (·.1) ++ (q.drop msgs.length).map (·.1)
        = ssort (fun a b => decide (a.key ≤ b.key)) (allEvs u per) := by
      rw [← List.map_append, List.take_append_drop, q2]
    obtain ⟨w, t, hw1, hw2, hw3⟩ := finalize_cut hu p1 p2 hEq
    refine ⟨w, t, ?_, hw2, ?_⟩
    · have hle : (encMsgs (subs ++ msgs)).length ≤ (encMsgs (subs ++ q.map fun p => p.2.2)).length := by
        rw [← hrest, ← List.append_assoc, encMsgs_append (subs ++ msgs), List.length_append]
        omega
      have hbl2 : b.length = 16 + (encMsgs defs).length
          + (encMsgs (subs ++ q.map fun p => p.2.2)).length := by
        rw [congrArg List.length hb, List.length_append, List.length_append, hh]
      rw [hcut, C18_file fuel cfg hdr defs (subs ++ msgs) _ hh hr hd ?_ ?_ hap (by omega) (by omega)]
      · unfold loadMsgs
        rw [hdefs]
        simp only [ho]
        rw [if_neg (by decide), runData_append, hsubs]
        simp only
        rw [hmq, runData_events _ (fun p hp => q3 p (List.mem_of_mem_take hp))]
        simp only [finish]
        rw [hw1]
        rfl
      · intro m hm
        refine hfr m ?_
        rw [← List.cons_append, ← hsu, ← hrest]
        rcases List.mem_append.mp hm with hm | hm
        · exact List.mem_append_left _ hm
        · exact List.mem_append_right _ (List.mem_append_left _ hm)
      · intro m hm
        rw [hsu] at hm
        injection hm with hm
        subst hm
        exact hhead
    · rw [hw3, List.length_map]
      have := congrArg List.length hmq
      rw [List.length_map] at this
      exact this.symm

/-- **C105**: the reader does not tell that the file is cut: the log is not marked as corrupt. -/
theorem C105_not_marked {depth fuel : Nat} {cfg : Cfg} {u : ULog} {b c : Bytes} (hu : Writable depth u)
    (hne : u.dataList ≠ []) (hw : writeUlog u = .ok b) (hc : writeUlog (withoutRows u) = .ok c)
    (hf : cfg.filter = .all) (ho : cfg.headerOnly = false) (hdep : cfg.depth = depth)
    (hfuel : b.length < fuel) (hlen : b.length ≤ 2 ^ 50) (k : Nat) (hk : c.length ≤ k) :
    ∃ w, load fuel cfg (b.take k) = .ok w ∧ w.fileCorrupt = false ∧ w.formats = u.formats ∧ w.info = u.info ∧
      w.infoMulti = u.infoMulti := by
  obtain ⟨_, v, _, _, _, hr, hk'⟩ := C105_cut hu hne hw hc hf ho hdep hfuel hlen
  obtain ⟨w, t, hw, hl, _⟩ := hk' k hk
  have h : ({ definitionsOf w with lastTs := 0 } : ULog) = { definitionsOf v with lastTs := 0 } := hl.definitions
  have h1 : w.fileCorrupt = v.fileCorrupt := (congrArg (fun x : ULog => x.fileCorrupt) h :)
  have h2 : w.formats = v.formats := (congrArg (fun x : ULog => x.formats) h :)
  have h3 : w.info = v.info := (congrArg (fun x : ULog => x.info) h :)
  have h4 : w.infoMulti = v.infoMulti := (congrArg (fun x : ULog => x.infoMulti) h :)
  exact ⟨w, hw, h1.trans hr.fileCorrupt, h2.trans hr.formats, h3.trans hr.info, h4.trans hr.infoMulti⟩

/-- **C105**: one more byte never takes anything away: a longer part of the file has at least the samples and
messages of the shorter part, and the whole file has them all. -/
theorem C105_more {depth fuel : Nat} {cfg : Cfg} {u : ULog} {b c : Bytes} (hu : Writable depth u)
    (hne : u.dataList ≠ []) (hw : writeUlog u = .ok b) (hc : writeUlog (withoutRows u) = .ok c)
    (hf : cfg.filter = .all) (ho : cfg.headerOnly = false) (hdep : cfg.depth = depth)
    (hfuel : b.length < fuel) (hlen : b.length ≤ 2 ^ 50) (k k' : Nat) (hk : c.length ≤ k) (hkk : k ≤ k')
    {w w' : ULog} (h : load fuel cfg (b.take k) = .ok w) (h' : load fuel cfg (b.take k') = .ok w') :
    itemCount w ≤ itemCount w' := by
  obtain ⟨m, _, _, _, _, _, hall⟩ := C105_cut hu hne hw hc hf ho hdep hfuel hlen
  obtain ⟨x, _, hx, _, hi⟩ := hall k hk
  obtain ⟨x', _, hx', _, hi'⟩ := hall k' (by omega)
  rw [h] at hx
  rw [h'] at hx'
  injection hx with hx
  injection hx' with hx'
  subst hx
  subst hx'
  rw [hi, hi']
  exact completeIn_le m (by omega)

/-! ### non-vacuity -/

/-- the written file of a small log, cut within its last messages -/
example : Writable 5 Sample.small ∧ Sample.small.dataList ≠ [] ∧
    ((writeUlog Sample.small).toOption.bind fun b => (writeUlog (withoutRows Sample.small)).toOption.bind fun c =>
      match load 9999 { depth := 5 } (b.take (c.length + 70)) with
      | .ok w => some [b.length, b.length - c.length, itemCount w, (w.dataList.map rowCount).sum, w.logged.length,
          w.dropouts.length, w.lastTs]
      | _ => none)
      = some [332, 112, 5, 1, 2, 1, 10] := by
  refine ⟨Sample.small_writable, by decide, ?_⟩
  decide +kernel

end PyULog
