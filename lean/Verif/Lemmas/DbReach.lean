import Verif.Lemmas.DbSave
/-
Helper lemmas: the databases that arise by saving and deleting logs.
-/
namespace PyULog
open Spec

theorem nest_nil {α γ : Type} {ps : List (Nat × Nat × α)} {f : Nat → γ} {k : Nat} {S : List Nat}
    (h : ∀ p ∈ ps, p.2.1 ∈ S) (hk : k ∉ S) : Spec.nest ps f k = [] := by
  unfold Spec.nest
  rw [List.filter_eq_nil_iff.mpr]
  · rfl
  · intro p hp hc
    rw [decide_eq_true_eq] at hc
    exact hk (hc ▸ h p hp)

theorem owned_nil {α : Type} {t : List (Nat × α)} {k : Nat} {S : List Nat}
    (h : ∀ p ∈ t, p.1 ∈ S) (hk : k ∉ S) : owned k t = [] :=
  owned_none fun hm => by
    obtain ⟨p, hp, e⟩ := List.mem_map.mp hm
    exact hk (e ▸ h p hp)

/-- an absent log has no rows -/
theorem content_absent {db : DB} (i : NoOrphans db) {k : Nat} (hk : k ∉ db.ulog.map (·.1)) : content db k = .empty := by
  apply content_ext
  · exact owned_none hk
  · exact owned_nil i.offsets hk
  · exact nest_nil (f := fun i => owned i db.fields) i.datasets hk
  · exact owned_nil i.dropouts hk
  · exact owned_nil i.logging hk
  · exact owned_nil i.tagged hk
  · exact nest_nil (f := fun i => owned i db.formatFields) i.formats hk
  · exact owned_nil i.info hk
  · exact nest_nil i.multi hk
  · exact owned_nil i.initial hk
  · exact owned_nil i.defaults hk
  · exact owned_nil i.changed hk

theorem pkFromSha_none {db : DB} {sha : Str} : pkFromSha db sha = none ↔ ∀ p ∈ db.ulog, p.2.sha ≠ sha := by
  unfold pkFromSha
  rw [Option.map_eq_none_iff, List.find?_eq_none]
  constructor
  · intro h p hp e
    exact h p hp (by simp [e])
  · intro h p hp e
    exact h p hp (by simpa using e)

theorem pkFromSha_some {db : DB} (i : DbInv db) {sha : Str} {k : Nat} :
    pkFromSha db sha = some k ↔ ∃ row, (k, row) ∈ db.ulog ∧ row.sha = sha := by
  unfold pkFromSha
  constructor
  · intro h
    obtain ⟨p, hp, e⟩ := Option.map_eq_some_iff.mp h
    refine ⟨p.2, ?_, by simpa using List.find?_some hp⟩
    rw [← e]
    exact List.mem_of_find?_eq_some hp
  · rintro ⟨row, hm, hs⟩
    cases hf : db.ulog.find? fun p => p.2.sha = sha with
    | none =>
      rw [List.find?_eq_none] at hf
      exact absurd (hf _ hm) (by simp [hs])
    | some q =>
      have hq := List.mem_of_find?_eq_some hf
      have hqs : q.2.sha = sha := by simpa using List.find?_some hf
      have : q = (k, row) := by
        have hn := i.shas
        generalize db.ulog = t at hn hq hm
        induction t with
        | nil => cases hm
        | cons a t ih =>
          rw [List.map_cons, List.nodup_cons] at hn
          rcases List.mem_cons.mp hm with rfl | hm' <;> rcases List.mem_cons.mp hq with rfl | hq'
          · rfl
          · exact absurd (List.mem_map.mpr ⟨q, hq', hqs.trans hs.symm⟩) hn.1
          · exact absurd (List.mem_map.mpr ⟨_, hm', hs.trans hqs.symm⟩) hn.1
          · exact ih hn.2 hq' hm'
      rw [this]
      rfl

/-! ### the first statement -/

theorem metaStmt_ok {l : DbLog} {sha : Str} {r r' : Reg} : metaStmt l sha r = .ok r' ↔
    ∃ row, metaRow l sha = .ok row ∧ (∀ p ∈ r.db.ulog, p.2.sha ≠ sha) ∧
      r' = { r with pk := r.db.ulogSeq + 1, db := { r.db with
        ulog := r.db.ulog ++ [(r.db.ulogSeq + 1, row)], ulogSeq := r.db.ulogSeq + 1 } } := by
  unfold metaStmt
  constructor
  · intro h
    obtain ⟨row, h1, h2⟩ := except_bind_ok.mp h
    split at h2
    · cases h2
    · rename_i hc
      cases h2
      refine ⟨row, h1, ?_, rfl⟩
      intro p hp e
      exact hc (List.any_eq_true.mpr ⟨p, hp, by simp [e]⟩)
  · rintro ⟨row, h1, h2, rfl⟩
    refine except_bind_ok.mpr ⟨row, h1, ?_⟩
    rw [if_neg]
    · rfl
    · intro hc
      obtain ⟨p, hp, e⟩ := List.any_eq_true.mp hc
      exact h2 p hp (by simpa using e)

theorem metaRow_sha {l : DbLog} {sha : Str} {row : MetaRow} (h : metaRow l sha = .ok row) : row.sha = sha := by
  unfold metaRow at h
  obtain ⟨_, _, h⟩ := except_bind_ok.mp h
  obtain ⟨_, _, h⟩ := except_bind_ok.mp h
  obtain ⟨_, _, h⟩ := except_bind_ok.mp h
  obtain ⟨_, _, h⟩ := except_bind_ok.mp h
  obtain ⟨_, _, h⟩ := except_bind_ok.mp h
  obtain ⟨_, _, h⟩ := except_bind_ok.mp h
  cases h
  rfl

theorem meta_inv {db : DB} (i : DbInv db) {sha : Str} {row : MetaRow} (hs : row.sha = sha)
    (hn : ∀ p ∈ db.ulog, p.2.sha ≠ sha) :
    DbInv { db with ulog := db.ulog ++ [(db.ulogSeq + 1, row)], ulogSeq := db.ulogSeq + 1 } := by
  have mem : ∀ {k : Nat}, k ∈ db.ulog.map (·.1) → k ∈ (db.ulog ++ [(db.ulogSeq + 1, row)]).map (·.1) := by
    intro k hk
    rw [List.map_append]
    exact List.mem_append_left _ hk
  exact { i with
    ulogIds := i.ulogIds.add _
    shas := by
      show ((db.ulog ++ [(db.ulogSeq + 1, row)]).map fun p => p.2.sha).Nodup
      rw [List.map_append, List.nodup_append]
      refine ⟨i.shas, by simp, ?_⟩
      intro a ha b hb e
      obtain ⟨p, hp, rfl⟩ := List.mem_map.mp ha
      rw [List.map_singleton, List.mem_singleton] at hb
      rw [hb] at e
      exact hn p hp (e.trans hs)
    offsets := fun p hp => mem (i.offsets p hp)
    datasets := fun p hp => mem (i.datasets p hp)
    dropouts := fun p hp => mem (i.dropouts p hp)
    logging := fun p hp => mem (i.logging p hp)
    tagged := fun p hp => mem (i.tagged p hp)
    formats := fun p hp => mem (i.formats p hp)
    info := fun p hp => mem (i.info p hp)
    multi := fun p hp => mem (i.multi p hp)
    initial := fun p hp => mem (i.initial p hp)
    defaults := fun p hp => mem (i.defaults p hp)
    changed := fun p hp => mem (i.changed p hp) }

/-! ### save -/

/-- what a successful `save` does -/
structure Saved (json : Bool) (o : DbObj) (db db' : DB) (o' : DbObj) (c : Content) : Prop where
  unsaved : o.pk = none
  new : ∀ p ∈ db.ulog, p.2.sha ≠ o.sha
  obj : o' = { o with pk := some (db.ulogSeq + 1) }
  rows : dbRows json o.sha o.log = .ok c
  seq : db'.ulogSeq = db.ulogSeq + 1
  version : db'.version = db.version
  ids : db'.ulog.map (·.1) = db.ulog.map (·.1) ++ [db.ulogSeq + 1]
  inv : DbInv db → DbInv db'
  content : DbInv db → ∀ k, content db' k = if k = db.ulogSeq + 1 then c else content db k

theorem save_ok {fault : Nat → Option PyErr} {json : Bool} {o o' : DbObj} {db db' : DB}
    (h : o.save fault json db = (none, db', o')) : ∃ c, Saved json o db db' o' c := by
  unfold DbObj.save at h
  split at h
  · cases h
  · rename_i hpk
    split at h
    · cases h
    · rename_i hsha
      split at h
      · cases h
      · split at h
        · cases h
        · rename_i r hr
          split at h
          · cases h
          · rename_i r' hr'
            injection h with _ h
            injection h with h1 h2
            subst h1 h2
            obtain ⟨row, hm, hn, rfl⟩ := metaStmt_ok.mp hr
            obtain ⟨c, hc, hrow, he⟩ := runAll_rest hm (runStmts_ok hr')
            have hpk' : o.pk = none := by
              cases e : o.pk with
              | none => rfl
              | some k => rw [e] at hpk; exact absurd rfl hpk
            have hself : db.ulogSeq + 1 ∈ (db.ulog ++ [(db.ulogSeq + 1, row)]).map (·.1) := by simp
            have hi1 : DbInv db → DbInv _ := fun i => meta_inv i (metaRow_sha hm) hn
            refine ⟨c, hpk', hn, rfl, hc, he.seq, he.version, ?_, ?_, ?_⟩
            · rw [he.ulog]; simp
            · intro i
              exact he.inv (hi1 i) hself
            · intro i k
              rw [he.content (hi1 i) hself k]
              have h0 : content { db with ulog := db.ulog ++ [(db.ulogSeq + 1, row)], ulogSeq := db.ulogSeq + 1 } k =
                  (content db k).add { Content.empty with row := if k = db.ulogSeq + 1 then [row] else [] } := by
                unfold content Content.add Content.empty
                simp only [List.append_nil]
                rw [show db.ulog ++ [(db.ulogSeq + 1, row)] =
                  db.ulog ++ [row].map fun x => (db.ulogSeq + 1, x) by rfl, owned_add]
              show (content { db with ulog := db.ulog ++ [(db.ulogSeq + 1, row)], ulogSeq := db.ulogSeq + 1 } k).add _ = _
              rw [h0]
              by_cases e : k = db.ulogSeq + 1
              · subst e
                rw [if_pos rfl, if_pos rfl, if_pos rfl, content_absent i.toNoOrphans i.ulogIds.not_mem, Content.empty_add]
                cases c
                simp only at hrow
                subst hrow
                simp [Content.add, Content.empty]
              · rw [if_neg e, if_neg e, if_neg e]
                exact (Content.add_empty _).trans (Content.add_empty _)

/-- when `save` raises, the database is as before -/
theorem save_err {fault : Nat → Option PyErr} {json : Bool} {o o' : DbObj} {db db' : DB} {e : PyErr}
    (h : o.save fault json db = (some e, db', o')) : db' = db := by
  unfold DbObj.save at h
  split at h
  · cases h; rfl
  · split at h
    · cases h; rfl
    · split at h
      · cases h; rfl
      · split at h
        · cases h; rfl
        · split at h
          · cases h; rfl
          · cases h

theorem save_total {json : Bool} {o : DbObj} {db : DB} {c : Content} (i : DbInv db) (hpk : o.pk = none)
    (hs : ∀ p ∈ db.ulog, p.2.sha ≠ o.sha) (hc : dbRows json o.sha o.log = .ok c)
    (hn : (c.datasets.map fun x => (x.1.name, x.1.multiId)).Nodup) :
    ∃ db', o.save (fun _ => none) json db = (none, db', { o with pk := some (db.ulogSeq + 1) }) := by
  obtain ⟨row, hm, _⟩ := dbRows_iff.mp hc
  have h1 := (metaStmt_ok (r := { db := db })).mpr ⟨row, hm, hs, rfl⟩
  obtain ⟨r', hr⟩ := runAll_rest_total (r := { db := { db with
    ulog := db.ulog ++ [(db.ulogSeq + 1, row)], ulogSeq := db.ulogSeq + 1 }, pk := db.ulogSeq + 1 }) hc hn (by
      intro p hp e
      have := i.datasets p hp
      rw [e] at this
      exact i.ulogIds.not_mem this)
  refine ⟨r'.db, ?_⟩
  unfold DbObj.save
  rw [hpk, pkFromSha_none.mpr hs]
  simp only [Option.isSome_none, Bool.false_eq_true, if_false]
  rw [h1]
  simp only [runStmts_none]
  rw [hr]

/-! ### delete -/

theorem any_gone {α : Type} {ps : List (Nat × Nat × α)} {seq : Nat} (hi : Ids ps seq) {gone : Nat → Bool}
    {p : Nat × Nat × α} (hp : p ∈ ps) :
    (ps.any fun q => decide (q.1 = p.1) && gone q.2.1) = gone p.2.1 := by
  cases hg : gone p.2.1 with
  | true => exact List.any_eq_true.mpr ⟨p, hp, by simp [hg]⟩
  | false =>
    rw [List.any_eq_false]
    intro q hq hc
    simp only [Bool.and_eq_true, decide_eq_true_eq] at hc
    rw [hi.inj hq hp hc.1, hg] at hc
    cases hc.2

/-- rows of a dependent table after the rows it depends on are gone -/
theorem keep_child {α β : Type} {ps : List (Nat × Nat × α)} {ks : List (Nat × β)} {seq : Nat} (hi : Ids ps seq)
    (gone : Nat → Bool) (ho : ∀ p ∈ ks, p.1 ∈ ps.map (·.1)) :
    ∀ p ∈ keep (fun k => ps.any fun q => decide (q.1 = k) && gone q.2.1) ks,
      p.1 ∈ (ps.filter fun q => !gone q.2.1).map (·.1) := by
  intro p hp
  obtain ⟨hp1, hp2⟩ := List.mem_filter.mp hp
  obtain ⟨q, hq, e⟩ := List.mem_map.mp (ho p hp1)
  simp only at hp2
  rw [← e, any_gone hi hq] at hp2
  exact List.mem_map.mpr ⟨q, List.mem_filter.mpr ⟨hq, hp2⟩, e⟩

theorem nest_gone {α β : Type} {ps : List (Nat × Nat × α)} {ks : List (Nat × β)} {seq : Nat} (hi : Ids ps seq)
    (gone : Nat → Bool) (k : Nat) :
    Spec.nest (ps.filter fun p => !gone p.2.1)
      (fun i => owned i (keep (fun k => ps.any fun q => decide (q.1 = k) && gone q.2.1) ks)) k =
    if gone k then [] else Spec.nest ps (fun i => owned i ks) k := by
  rw [nest_delete]
  split
  · rfl
  · rename_i hg
    apply nest_congr
    intro p hp e
    apply owned_keep
    rw [any_gone hi hp, e]
    simpa using hg

theorem keep_owner {α : Type} {t : List (Nat × α)} {u : List (Nat × β)} {gone : Nat → Bool}
    (h : ∀ p ∈ t, p.1 ∈ u.map (·.1)) : ∀ p ∈ keep gone t, p.1 ∈ (keep gone u).map (·.1) := by
  intro p hp
  obtain ⟨hp1, hp2⟩ := List.mem_filter.mp hp
  obtain ⟨q, hq, e⟩ := List.mem_map.mp (h p hp1)
  exact List.mem_map.mpr ⟨q, List.mem_filter.mpr ⟨hq, by rw [e]; exact hp2⟩, e⟩

theorem keep_owner2 {α : Type} {t : List (Nat × Nat × α)} {u : List (Nat × β)} {gone : Nat → Bool}
    (h : ∀ p ∈ t, p.2.1 ∈ u.map (·.1)) : ∀ p ∈ t.filter fun p => !gone p.2.1, p.2.1 ∈ (keep gone u).map (·.1) := by
  intro p hp
  obtain ⟨hp1, hp2⟩ := List.mem_filter.mp hp
  obtain ⟨q, hq, e⟩ := List.mem_map.mp (h p hp1)
  exact List.mem_map.mpr ⟨q, List.mem_filter.mpr ⟨hq, by rw [e]; exact hp2⟩, e⟩

theorem delete_inv {db : DB} (i : DbInv db) (pk : Nat) : DbInv (deleteRows pk db) where
  ulogIds := i.ulogIds.filter _
  datasetIds := i.datasetIds.filter _
  formatIds := i.formatIds.filter _
  multiIds := i.multiIds.filter _
  listIds := i.listIds.filter _
  shas := i.shas.sublist (List.Sublist.map _ List.filter_sublist)
  names := i.names.sublist (List.Sublist.map _ List.filter_sublist)
  offsets := keep_owner (gone := fun k => decide (k = pk)) i.offsets
  datasets := keep_owner2 (gone := fun k => decide (k = pk)) i.datasets
  fields := keep_child i.datasetIds (fun k => decide (k = pk)) i.fields
  dropouts := keep_owner (gone := fun k => decide (k = pk)) i.dropouts
  logging := keep_owner (gone := fun k => decide (k = pk)) i.logging
  tagged := keep_owner (gone := fun k => decide (k = pk)) i.tagged
  formats := keep_owner2 (gone := fun k => decide (k = pk)) i.formats
  formatFields := keep_child i.formatIds (fun k => decide (k = pk)) i.formatFields
  info := keep_owner (gone := fun k => decide (k = pk)) i.info
  multi := keep_owner2 (gone := fun k => decide (k = pk)) i.multi
  multiLists := by
    intro p hp
    obtain ⟨hp1, hp2⟩ := List.mem_filter.mp hp
    obtain ⟨q, hq, e⟩ := List.mem_map.mp (i.multiLists p hp1)
    simp only at hp2
    rw [← e, any_gone (gone := fun k => decide (k = pk)) i.multiIds hq] at hp2
    exact List.mem_map.mpr ⟨q, List.mem_filter.mpr ⟨hq, hp2⟩, e⟩
  multiElems := keep_child i.listIds
    (fun k => db.multi.any fun p => decide (p.1 = k) && decide (p.2.1 = pk)) i.multiElems
  initial := keep_owner (gone := fun k => decide (k = pk)) i.initial
  defaults := keep_owner (gone := fun k => decide (k = pk)) i.defaults
  changed := keep_owner (gone := fun k => decide (k = pk)) i.changed

theorem owned_deleted {α : Type} (pk k : Nat) (t : List (Nat × α)) :
    owned k (keep (fun k => decide (k = pk)) t) = if k = pk then [] else owned k t := by
  split
  · rename_i h; exact owned_gone (by simp [h]) t
  · rename_i h; exact owned_keep (by simp [h]) t

theorem delete_content {db : DB} (i : DbInv db) (pk k : Nat) :
    content (deleteRows pk db) k = if k = pk then .empty else content db k := by
  have e1 : Spec.nest (deleteRows pk db).datasets (fun i => owned i (deleteRows pk db).fields) k =
      if k = pk then [] else Spec.nest db.datasets (fun i => owned i db.fields) k := by
    have := nest_gone (ks := db.fields) i.datasetIds (fun k => decide (k = pk)) k
    simp only [decide_eq_true_eq] at this
    exact this
  have e2 : Spec.nest (deleteRows pk db).formats (fun i => owned i (deleteRows pk db).formatFields) k =
      if k = pk then [] else Spec.nest db.formats (fun i => owned i db.formatFields) k := by
    have := nest_gone (ks := db.formatFields) i.formatIds (fun k => decide (k = pk)) k
    simp only [decide_eq_true_eq] at this
    exact this
  have e3 : Spec.nest (deleteRows pk db).multi (fun i => Spec.nest (deleteRows pk db).multiLists
        (fun j => owned j (deleteRows pk db).multiElems) i) k =
      if k = pk then [] else Spec.nest db.multi (fun i => Spec.nest db.multiLists (fun j => owned j db.multiElems) i) k := by
    have h := nest_delete db.multi (fun i => Spec.nest (deleteRows pk db).multiLists
        (fun j => owned j (deleteRows pk db).multiElems) i) (fun k => decide (k = pk)) k
    simp only [decide_eq_true_eq] at h
    refine h.trans ?_
    split
    · rfl
    · rename_i hk
      apply nest_congr
      intro p hp e
      have hg := nest_gone (ks := db.multiElems) i.listIds
        (fun k => db.multi.any fun p => decide (p.1 = k) && decide (p.2.1 = pk)) p.1
      refine hg.trans ?_
      rw [if_neg]
      rw [any_gone (gone := fun k => decide (k = pk)) i.multiIds hp, e]
      simpa using hk
  by_cases hk : k = pk
  · rw [if_pos hk] at e1 e2 e3 ⊢
    apply content_ext
    all_goals first
      | exact e1 | exact e2 | exact e3
      | exact (owned_deleted pk k _).trans (if_pos hk)
  · rw [if_neg hk] at e1 e2 e3 ⊢
    apply content_ext
    all_goals first
      | exact e1 | exact e2 | exact e3
      | exact (owned_deleted pk k _).trans (if_neg hk)

theorem delete_ids (pk : Nat) (db : DB) :
    (deleteRows pk db).ulog.map (·.1) = (db.ulog.map (·.1)).filter fun k => decide (k ≠ pk) := by
  show (keep (fun k => decide (k = pk)) db.ulog).map (·.1) = _
  unfold keep
  rw [List.filter_map]
  congr 1
  apply List.filter_congr
  intro p _
  simp

/-! ### reachable databases -/

theorem empty_inv : DbInv {} where
  ulogIds := ⟨List.nodup_nil, fun p hp => by cases hp⟩
  datasetIds := ⟨List.nodup_nil, fun p hp => by cases hp⟩
  formatIds := ⟨List.nodup_nil, fun p hp => by cases hp⟩
  multiIds := ⟨List.nodup_nil, fun p hp => by cases hp⟩
  listIds := ⟨List.nodup_nil, fun p hp => by cases hp⟩
  shas := List.nodup_nil
  names := List.nodup_nil
  offsets := fun p hp => by cases hp
  datasets := fun p hp => by cases hp
  fields := fun p hp => by cases hp
  dropouts := fun p hp => by cases hp
  logging := fun p hp => by cases hp
  tagged := fun p hp => by cases hp
  formats := fun p hp => by cases hp
  formatFields := fun p hp => by cases hp
  info := fun p hp => by cases hp
  multi := fun p hp => by cases hp
  multiLists := fun p hp => by cases hp
  multiElems := fun p hp => by cases hp
  initial := fun p hp => by cases hp
  defaults := fun p hp => by cases hp
  changed := fun p hp => by cases hp

/-- effect of one step -/
theorem step_inv {db db' : DB} (i : DbInv db) (h : DbStep db db') :
    DbInv db' ∧ db.ulogSeq ≤ db'.ulogSeq ∧ db'.version = db.version ∧
      ∀ k, k ≤ db.ulogSeq → k ∈ db'.ulog.map (·.1) → k ∈ db.ulog.map (·.1) ∧ content db' k = content db k := by
  cases h with
  | save fault json o _ =>
    rcases hs : o.save fault json db with ⟨_ | e, db', o'⟩
    · obtain ⟨c, hc⟩ := save_ok hs
      refine ⟨hc.inv i, by rw [hc.seq]; omega, hc.version, ?_⟩
      intro k hk hm
      rw [hc.ids] at hm
      have hne : k ≠ db.ulogSeq + 1 := by omega
      refine ⟨?_, by rw [hc.content i k, if_neg hne]⟩
      rcases List.mem_append.mp hm with hm | hm
      · exact hm
      · exact absurd (List.mem_singleton.mp hm) hne
    · rw [save_err hs]
      exact ⟨i, Nat.le_refl _, rfl, fun k _ hm => ⟨hm, rfl⟩⟩
  | delete o _ _ o' hd =>
    unfold DbObj.delete at hd
    split at hd
    · cases hd
    · rename_i pk _
      cases hd
      refine ⟨delete_inv i pk, Nat.le_refl _, rfl, ?_⟩
      intro k hk hm
      rw [delete_ids] at hm
      obtain ⟨h1, h2⟩ := List.mem_filter.mp hm
      exact ⟨h1, by rw [delete_content i, if_neg (by simpa using h2)]⟩

theorem later_inv {db db' : DB} (i : DbInv db) (h : Later db db') :
    DbInv db' ∧ db.ulogSeq ≤ db'.ulogSeq ∧ db'.version = db.version ∧
      ∀ k, k ≤ db.ulogSeq → k ∈ db'.ulog.map (·.1) → k ∈ db.ulog.map (·.1) ∧ content db' k = content db k := by
  induction h with
  | refl => exact ⟨i, Nat.le_refl _, rfl, fun k _ hm => ⟨hm, rfl⟩⟩
  | step db' db'' _ hs ih =>
    obtain ⟨i1, l1, v1, c1⟩ := ih
    obtain ⟨i2, l2, v2, c2⟩ := step_inv i1 hs
    refine ⟨i2, by omega, v2.trans v1, ?_⟩
    intro k hk hm
    obtain ⟨m2, e2⟩ := c2 k (by omega) hm
    obtain ⟨m1, e1⟩ := c1 k hk m2
    exact ⟨m1, e2.trans e1⟩

theorem reach_inv {db : DB} (h : Reach db) : DbInv db := (later_inv empty_inv h).1
theorem reach_version {db : DB} (h : Reach db) : db.version = 5 := (later_inv empty_inv h).2.2.1

end PyULog
