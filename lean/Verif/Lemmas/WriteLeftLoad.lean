import Verif.Lemmas.WriteLeft
import Verif.Lemmas.RoundBack
import Verif.Lemmas.DbBack
/-
Reading what a failing call of `write_ulog` left.
-/
namespace PyULog
open Spec

/-- the definitions of a log -/
def defsOnly (c : ULog) : ULog := { c with dataList := [] }

theorem keys_filter_prefix {α : Type} {l : Dict Str α} {pre : List Str} (h : pre <+: l.map (·.1))
    (hn : (l.map (·.1)).Nodup) : (l.filter fun p => decide (p.1 ∈ pre)).map (·.1) = pre := by
  obtain ⟨rest, h⟩ := h
  have e : (l.filter fun p => decide (p.1 ∈ pre)).map (·.1) = (l.map (·.1)).filter fun k => decide (k ∈ pre) := by
    rw [List.filter_map]
    rfl
  rw [e, ← h, List.filter_append, List.filter_eq_self.mpr (by simp), List.filter_eq_nil_iff.mpr, List.append_nil]
  intro k hk
  rw [← h, List.nodup_append] at hn
  simp only [decide_eq_true_eq]
  intro hk'
  exact hn.2.2 k hk' k hk rfl

theorem cutList_keys {κ α : Type} {part : κ × α → κ × α → Prop} (hp : ∀ y x, part y x → y.1 = x.1)
    {a l : List (κ × α)} (h : CutList part a l) : a.map (·.1) <+: l.map (·.1) := by
  rcases h with h | ⟨pre, x, y, rest, rfl, h, rfl⟩
  · exact h.map _
  · rw [List.map_append, List.map_append, List.map_cons, List.map_cons, hp y x h]
    refine ⟨rest.map (·.1), ?_⟩
    simp

theorem cutList_mem {α : Type} {part : α → α → Prop} {a l : List α} (h : CutList part a l) {y : α} (hy : y ∈ a) :
    y ∈ l ∨ ∃ x ∈ l, part y x := by
  rcases h with h | ⟨pre, x, z, rest, rfl, h, rfl⟩
  · exact Or.inl (h.subset hy)
  · rcases List.mem_append.mp hy with hy | hy
    · exact Or.inl (List.mem_append_left _ hy)
    · rw [List.mem_singleton] at hy
      subst hy
      exact Or.inr ⟨x, by simp, h⟩

theorem prefix_nodup {α : Type} {a l : List α} (h : a <+: l) (hn : l.Nodup) : a.Nodup := hn.sublist h.sublist

theorem cut_writable {depth : Nat} {c u : ULog} (hu : Writable depth u) (hc : CutOf c u) :
    Writable depth (defsOnly c) where
  flags := by
    show c.incompat.getD 0 0 < 2 ∧ ∀ x ∈ c.incompat.drop 1, x = 0
    rw [hc.flags.2]
    exact hu.flags
  formats := fun p hp => hu.formats p (hc.formats.subset hp)
  formats_nodup := prefix_nodup (hc.formats.map _) hu.formats_nodup
  info := by
    show c.infoTypes.map (·.1) = c.info.map (·.1)
    rw [hc.infoTypes]
    refine keys_filter_prefix ?_ ?_
    · rw [hu.info]
      exact hc.info.map _
    · rw [hu.info]
      exact hu.info_nodup
  info_nodup := prefix_nodup (hc.info.map _) hu.info_nodup
  info_ok := by
    intro p hp ty hty
    have hty : (p.1, ty) ∈ c.infoTypes := hty
    rw [hc.infoTypes] at hty
    exact hu.info_ok p (hc.info.subset hp) ty (List.mem_filter.mp hty).1
  multi := by
    show c.infoMultiTypes.map (·.1) = c.infoMulti.map (·.1)
    rw [hc.multiTypes]
    refine keys_filter_prefix ?_ ?_
    · rw [hu.multi]
      exact cutList_keys (fun y x h => h.1) hc.multi
    · rw [hu.multi]
      exact hu.multi_nodup
  multi_nodup := prefix_nodup (cutList_keys (fun y x h => h.1) hc.multi) hu.multi_nodup
  multi_ok := by
    intro p hp ty hty
    have hty : (p.1, ty) ∈ c.infoMultiTypes := hty
    rw [hc.multiTypes] at hty
    have hty := (List.mem_filter.mp hty).1
    rcases cutList_mem hc.multi hp with h | ⟨x, hx, e, hne, hcut⟩
    · exact hu.multi_ok p h ty hty
    · obtain ⟨h1, h2, _, h4⟩ := hu.multi_ok x hx ty (e ▸ hty)
      refine ⟨e ▸ h1, h2, hne, ?_⟩
      intro s hs
      rcases cutList_mem hcut hs with h | ⟨t, ht, g1, g2⟩
      · exact h4 s h
      · exact ⟨g1, fun v hv => (h4 t ht).2 v (g2.subset hv)⟩
  initial_nodup := prefix_nodup (hc.initial.map _) hu.initial_nodup
  initial := fun p hp => hu.initial p (hc.initial.subset hp)
  defaults_nodup := prefix_nodup (cutList_keys (fun y x h => h.1) hc.defaults) hu.defaults_nodup
  defaults := by
    intro p hp
    rcases cutList_mem hc.defaults hp with h | ⟨x, hx, e, hne, hcut⟩
    · exact hu.defaults p h
    · obtain ⟨h1, _, h3, h4⟩ := hu.defaults x hx
      exact ⟨e ▸ h1, hne, prefix_nodup (hcut.map _) h3, fun q hq => h4 q (hcut.subset hq)⟩
  changed := by
    intro p hp
    have hp : p ∈ c.changedParams := hp
    rw [hc.no_messages.2.2.2] at hp
    cases hp
  ids := List.nodup_nil
  data := fun d hd => by cases hd
  order := List.Pairwise.nil
  starts := fun _ => ⟨hc.no_messages.2.2.1, hc.no_messages.2.2.2⟩

theorem canon_defsOnly {c u : ULog} (hc : CutOf c u) : canon (defsOnly c) = defined c := by
  obtain ⟨h1, h2, h3, h4⟩ := hc.no_messages
  unfold canon defsOnly
  simp only [h1, h2, h3, h4]
  rfl

theorem dataItems_none {c : ULog} (hrows : ∀ d ∈ c.dataList, rowCount d = 0)
    (hm : c.logged = [] ∧ c.tagged = [] ∧ c.dropouts = [] ∧ c.changedParams = []) {b : Bytes}
    (h : writeDataSection c = .ok b) : b = [] := by
  obtain ⟨h1, h2, h3, h4⟩ := hm
  unfold writeDataSection at h
  obtain ⟨items, hi, h⟩ := except_bind_ok.mp h
  injection h with h
  unfold allItems at hi
  obtain ⟨a, ha, hi⟩ := except_bind_ok.mp hi
  rw [h1, h2, h3, h4] at hi
  have hi : Except.ok (a ++ [] ++ [] ++ [] ++ []) = Except.ok items := hi
  injection hi with hi
  simp only [List.append_nil] at hi
  subst hi
  unfold dataItems at ha
  obtain ⟨l, hl, ha⟩ := except_bind_ok.mp ha
  injection ha with ha
  have : ∀ x ∈ l, x = [] := by
    intro x hx
    obtain ⟨d, hd, e⟩ := mapM_mem hl hx
    have hrow := hrows d ((mem_ssort _ _ _).mp hd)
    unfold datasetItems at e
    obtain ⟨f, hf, e⟩ := except_bind_ok.mp e
    cases hfs : d.fields with
    | nil => rw [hfs] at hf; cases hf
    | cons g gs =>
      rw [hfs] at hf
      injection hf with hf
      subst hf
      unfold rowCount at hrow
      rw [hfs] at hrow
      cases hg : d.data.get? g.name with
      | none => rw [hg] at e; cases e
      | some col =>
        simp only [hg, Option.getD_some] at hrow
        rw [hg] at e
        simp only at e
        rw [hrow] at e
        injection e with e
        exact e.symm
  have ha : a = [] := by
    rw [← ha, List.flatten_eq_nil_iff]
    exact this
  rw [← h, ha]
  rfl

theorem subStep_key {a b : List Dataset} (h : a.map (fun d => (d.multiId, d.msgId, d.name))
    = b.map fun d => (d.multiId, d.msgId, d.name)) : a.map subStep = b.map subStep := by
  have e : ∀ l : List Dataset, l.map subStep = (l.map fun d => (d.multiId, d.msgId, d.name)).map
      fun k => (do
        let m ← packU 1 k.1
        let i ← packU 2 k.2.1
        frame MSG_TYPE_ADD_LOGGED_MSG (m ++ i ++ encStr k.2.2)) := by
    intro l
    rw [List.map_map]
    rfl
  rw [e, e, h]

theorem encMsgs_count (l : List (Nat × Bytes)) : l.length ≤ (encMsgs l).length := by
  induction l with
  | nil => simp
  | cons m l ih =>
    unfold encMsgs at ih ⊢
    rw [List.flatMap_cons, List.length_append, List.length_cons]
    have : 1 ≤ (encMsg m).length := by simp [encMsg]
    omega

theorem finalize_empty {c : ULog} (ds : List Dataset) :
    finalize { defined c with subs := subsOf ds (fun _ => []) } = .ok (defined c) := by
  unfold finalize
  have e : ((subsOf ds fun _ => []).reverse.filter fun p => p.2.buffer.length > 0) = [] := by
    rw [List.filter_eq_nil_iff]
    intro p hp
    rw [List.mem_reverse] at hp
    unfold subsOf at hp
    obtain ⟨d, _, rfl⟩ := List.mem_map.mp hp
    simp [mkSub]
  simp only [e]
  rfl

/-- a written cut log is read as its definitions -/
theorem load_cut {fuel depth : Nat} {cfg : Cfg} {c u : ULog} {b : Bytes} (hu : Writable depth u)
    (hc : CutOf c u) (hw : writeUlog c = .ok b) (hf : cfg.filter = .all) (hdep : cfg.depth = depth)
    (hfuel : b.length < fuel) (hlen : b.length ≤ 2 ^ 50) :
    load fuel cfg b = .ok (defined c) := by
  obtain ⟨⟨hdr, flags, fmts, infos, multi, init, dflt, subsB, data, p1, p2, p3, p4, p5, p6, p7, p8, p9, peq⟩⟩ :=
    written_of_ok hw
  have p9' : writeDataSection (defsOnly c) = .ok [] := by
    obtain ⟨h1, h2, h3, h4⟩ := hc.no_messages
    show writeDataSection { c with dataList := [] } = _
    unfold writeDataSection allItems dataItems
    simp only [h1, h2, h3, h4]
    rfl
  obtain ⟨defs, e1, e2, e3⟩ := definitions_read (cfg := cfg) (cut_writable hu hc)
    (b := hdr ++ (flags ++ (fmts ++ (infos ++ (multi ++ (init ++ (dflt ++ ([] ++ []))))))))
    ⟨hdr, flags, fmts, infos, multi, init, dflt, [], [], p1, p2, p3, p4, p5, p6, p7, rfl, p9', rfl⟩
  have e1 : flags ++ (fmts ++ (infos ++ (multi ++ (init ++ dflt)))) = encMsgs defs := e1
  have hd : defined (defsOnly c) = defined c := rfl
  rw [hd] at e3
  obtain ⟨hh, hr⟩ := writeHeader_read p1
  obtain ⟨all, a1, a2, a3⟩ := hc.subs
  have hos : (all.take c.dataList.length).map (fun d => (d.multiId, d.msgId, d.name))
      = c.dataList.map fun d => (d.multiId, d.msgId, d.name) := by
    have := List.prefix_iff_eq_take.mp a3
    rw [this, List.length_map, List.map_take]
  have hsorted : byMsgId c.dataList = c.dataList := by
    apply ssort_of_sorted
    have h1 : (all.map fun d => (d.multiId, d.msgId, d.name)).Pairwise fun a b => a.2.1 ≤ b.2.1 := by
      rw [List.pairwise_map]
      exact a2
    have h2 := h1.sublist a3.sublist
    rw [List.pairwise_map] at h2
    unfold Sorted
    simpa using h2
  have hsubs : concatM ((all.take c.dataList.length).map subStep) = .ok subsB := by
    have := p8
    unfold writeSubs at this
    rw [hsorted] at this
    have this : concatM (c.dataList.map subStep) = .ok subsB := this
    rw [subStep_key hos]
    exact this
  have hn : ((all.take c.dataList.length).map (·.msgId)).Nodup := by
    have h1 : (all.map (·.msgId)).Nodup := (a1.map _).nodup_iff.mpr hu.ids
    exact h1.sublist ((List.take_sublist _ _).map _)
  obtain ⟨subs, s1, s2, s3, s4⟩ := subs_read (cfg := cfg) (base := defined c) hf hn
    (by
      intro d hd'
      have hne : c.dataList ≠ [] := by
        intro e
        rw [e] at hd'
        cases hd'
      have hdat := hu.data d (a1.mem_iff.mp (List.mem_of_mem_take hd'))
      show DatasetOk c.formats cfg.depth d
      rw [(hc.subs_after hne).1, hdep]
      exact hdat) hsubs
  have hdata := dataItems_none hc.no_rows hc.no_messages p9
  have hb : b = hdr ++ encMsgs defs ++ encMsgs subs := by
    rw [peq, ← e1, ← s1, hdata]
    simp
  have hbl : b.length = 16 + (encMsgs defs).length + (encMsgs subs).length := by
    rw [congrArg List.length hb, List.length_append, List.length_append, hh]
  have hdn := encMsgs_count defs
  rw [hb, C18_file fuel cfg hdr defs subs _ hh hr e2 ?_ ?_ ?_ (by omega) (by omega)]
  · unfold loadMsgs
    have e3 : runDefs cfg defs { fileVersion := c.fileVersion, startTs := c.startTs, lastTs := c.startTs }
        = .done (defined c) := e3
    rw [e3]
    simp only
    by_cases ho : cfg.headerOnly = true
    · rw [if_pos ho]
    · rw [if_neg ho]
      have h1 := s4 [] (by simp)
      rw [List.nil_append] at h1
      have h0 : { defined c with subs := [] } = defined c := rfl
      rw [h0] at h1
      rw [h1]
      simp only [finish, finalize_empty]
      rfl
  · intro m hm
    exact ⟨(s2 m hm).2, Or.inl (by rw [(s2 m hm).1]; decide)⟩
  · intro m hm
    exact Or.inl (s2 m (List.mem_of_mem_head? hm)).1
  · intro v hv
    have e3 : runDefs cfg defs { fileVersion := c.fileVersion, startTs := c.startTs, lastTs := c.startTs }
        = .done (defined c) := e3
    rw [e3] at hv
    injection hv with hv
    subst hv
    unfold hasDataAppended defined
    simp only
    cases c.incompat <;> rfl

end PyULog
