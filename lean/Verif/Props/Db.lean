import Verif.Lemmas.DbEqual
import Verif.Lemmas.DbTotal
import Verif.Spec.SampleDb
/-
C38 (round trip through the database), C39 (a log is stored at most once), C40 (delete removes exactly
one log), C41 (a failing save leaves the database alone), C42 (lazy loading), C45 (digest).
-/
namespace PyULog
open Spec

/-! ### helpers -/

/-- the rows of a stored dataset are found under one name only -/
theorem content_names {db : DB} (i : DbInv db) (k : Nat) :
    ((content db k).datasets.map fun p => (p.1.name, p.1.multiId)).Nodup := by
  have h := i.names
  show ((Spec.nest db.datasets (fun i => owned i db.fields) k).map fun p => (p.1.name, p.1.multiId)).Nodup
  unfold Spec.nest
  rw [List.map_map]
  have h2 := h.sublist ((List.filter_sublist (p := fun p : Nat × Nat × DsRow => decide (p.2.1 = k))).map
    (fun p => (p.2.1, p.2.2.name, p.2.2.multiId)))
  rw [List.Nodup, List.pairwise_map] at h2 ⊢
  refine h2.imp_of_mem ?_
  intro a b ha hb hne heq
  apply hne
  have e1 := (List.mem_filter.mp ha).2
  have e2 := (List.mem_filter.mp hb).2
  simp only [decide_eq_true_eq] at e1 e2
  simp only [Function.comp_apply, Prod.mk.injEq] at heq
  rw [e1, e2, heq.1, heq.2]

theorem ids_le {db : DB} (i : DbInv db) {k : Nat} (hk : k ∈ db.ulog.map (·.1)) : k ≤ db.ulogSeq := by
  obtain ⟨p, hp, rfl⟩ := List.mem_map.mp hk
  exact i.ulogIds.le p hp

/-- a saved log is found in later databases that still have its key -/
theorem saved_later {fault : Nat → Option PyErr} {json : Bool} {o o' : DbObj} {db db' db'' : DB} {k : Nat}
    (hr : Reach db) (hs : o.save fault json db = (none, db', o')) (hk : o'.pk = some k) (hl : Later db' db'')
    (hm : k ∈ db''.ulog.map (·.1)) :
    ∃ c, dbRows json o.sha o.log = .ok c ∧ content db'' k = c ∧ db''.version = 5 ∧
      (c.datasets.map fun p => (p.1.name, p.1.multiId)).Nodup := by
  have i := reach_inv hr
  obtain ⟨c, hc⟩ := save_ok hs
  rw [hc.obj] at hk
  cases hk
  have i' := hc.inv i
  obtain ⟨i'', hseq, hv, hcont⟩ := later_inv i' hl
  have he : content db' (db.ulogSeq + 1) = c := by rw [hc.content i]; simp
  refine ⟨c, hc.rows, ?_, ?_, ?_⟩
  · rw [(hcont _ (by rw [hc.seq]; omega) hm).2, he]
  · rw [hv, hc.version, reach_version hr]
  · rw [← he]; exact content_names i' _

/-! ### C38 -/

/-- A saved log, loaded eagerly from any later database that still contains its key, is the saved log up
to what the columns cannot hold (`fromDb`). -/
theorem C38_loads_stored (H : Bytes → Str) (fuel : Nat) (cfg : Cfg) {fault : Nat → Option PyErr} {json : Bool}
    {o o' : DbObj} {db db' db'' : DB} {k : Nat} (hr : Reach db) (hreg : Regular o.log)
    (hs : o.save fault json db = (none, db', o')) (hk : o'.pk = some k) (hl : Later db' db'')
    (hm : k ∈ db''.ulog.map (·.1)) :
    construct H fuel cfg db'' (some k) none false =
      .ok { pk := some k, sha := o.sha, lazyLoaded := false, log := fromDb o.log } := by
  obtain ⟨c, h1, h2, h3, h4⟩ := saved_later hr hs hk hl hm
  unfold construct
  rw [if_neg (by rw [h3]; decide)]
  show (match dbLoad db'' k false {} with
    | .ok (sha, l) => ConRes.ok { pk := some k, sha := sha, lazyLoaded := false, log := l }
    | .error e => .raised e) = _
  rw [dbLoad_content, h2, loadC_back h1 hreg h4]

/-- what the constructor gives for a file name -/
theorem construct_file {H : Bytes → Str} {fuel : Nat} {cfg : Cfg} {db : DB} {bs : Bytes} {lazy : Bool} {o : DbObj}
    (h : construct H fuel cfg db none (some (.name bs)) lazy = .ok o) :
    ∃ u, load fuel cfg bs = .ok u ∧ o.log = DbLog.ofULog u ∧ o.pk = none ∧ o.lazyLoaded = lazy ∧
      calcSha H (.name bs) = some o.sha := by
  unfold construct at h
  split at h
  · cases h
  · simp only at h
    split at h
    · cases h
    · rename_i sha hsha
      have : loadArg fuel cfg (.name bs) = load fuel cfg bs := rfl
      rw [this] at h
      split at h
      · rename_i u hu
        cases h
        exact ⟨u, hu, rfl, rfl, rfl, hsha⟩
      · cases h
      · cases h

/-- the columns of a loaded log that was saved have names -/
theorem save_named {fuel : Nat} {cfg : Cfg} {fault : Nat → Option PyErr} {json : Bool} {o o' : DbObj} {db db' : DB}
    {bs : Bytes} {u : ULog} (hu : load fuel cfg bs = .ok u) (hlog : o.log = DbLog.ofULog u)
    (hs : o.save fault json db = (none, db', o')) : ∀ d ∈ u.dataList, ∀ f ∈ d.fields, f.name ≠ [] := by
  intro d hd f hf hnil
  obtain ⟨c, hc⟩ := save_ok hs
  obtain ⟨_, _, _, _, h2, _⟩ := dbRows_iff.mp hc.rows
  obtain ⟨y, hy⟩ := mapM_ok_mem h2 (show d ∈ o.log.dataList by rw [hlog]; exact hd)
  obtain ⟨_, _, hy⟩ := except_bind_ok.mp hy
  obtain ⟨_, hfs, _⟩ := except_bind_ok.mp hy
  obtain ⟨r, hr⟩ := mapM_ok_mem hfs hf
  obtain ⟨col, hcol, _⟩ := fieldRow_eq hr
  have hk : f.name ∈ d.data.map (·.1) := List.mem_map.mpr ⟨_, Dict.mem_of_get? _ _ _ hcol, rfl⟩
  rw [(loaded_dataset hu hd).1] at hk
  obtain ⟨k, g, _, hk⟩ := mem_columnNames.mp hk
  exact columnName_ne _ _ (hk.trans hnil)

theorem Sample.regular_clean : Regular (Sample.fileObj Sample.clean).log := by
  obtain ⟨u, hu, hlog, _⟩ := construct_file Sample.con_clean
  rw [hlog]
  refine load_regular hu ?_
  have : ∀ d ∈ (Sample.fileObj Sample.clean).log.dataList, ∀ f ∈ d.fields, f.name ≠ [] := by decide +kernel
  rw [hlog] at this
  exact this

/-- the sample log, stored before another one, is loaded from the database with both -/
example : construct Sample.hash 20 {} Sample.db2 (some 1) none false =
      .ok { pk := some 1, sha := Sample.hash Sample.clean, lazyLoaded := false,
            log := fromDb (Sample.fileObj Sample.clean).log } ∧
    (Sample.fileObj Sample.clean).log.dataList.length = 2 := by
  refine ⟨?_, by decide +kernel⟩
  have := C38_loads_stored Sample.hash 20 {} (Later.refl {}) Sample.regular_clean Sample.save1 rfl Sample.later12
    (by decide +kernel)
  rw [this]
  have e : (Sample.fileObj Sample.clean).sha = Sample.hash Sample.clean := by decide +kernel
  rw [e]

/-- The log of a file, saved and loaded again, compares equal to the file exactly when the file was read
without corruption and without filtered or missing messages, its formats have fields, its
info-multiple values are texts, and no compared value is NaN. -/
theorem C38_equal_partial {H : Bytes → Str} {fuel : Nat} {cfg : Cfg} {fault : Nat → Option PyErr} {json lazy : Bool}
    {o o' : DbObj} {db db' db'' : DB} {k : Nat} {bs : Bytes} {u : ULog} (hr : Reach db)
    (ho : construct H fuel cfg db none (some (.name bs)) lazy = .ok o) (hu : load fuel cfg bs = .ok u)
    (hs : o.save fault json db = (none, db', o')) (hk : o'.pk = some k) (hl : Later db' db'')
    (hm : k ∈ db''.ulog.map (·.1)) :
    ∃ r, construct H fuel cfg db'' (some k) none false = .ok r ∧ r.sha = o.sha ∧ r.pk = some k ∧
      (eqDb u r.log = true ↔
        (u.fileCorrupt = false ∧ u.filteredIds = [] ∧ u.missingIds = [] ∧
          (∀ p ∈ u.formats, p.2.fields ≠ []) ∧
          ∀ p ∈ u.infoMulti, ∀ l ∈ p.2, ∀ v ∈ l, (∃ s, v = .str s) ∨ ∃ b, v = .bytes b) ∧ ¬ HasNaN u) := by
  obtain ⟨u', hu', hlog, _, _, _⟩ := construct_file ho
  rw [hu] at hu'
  cases hu'
  have hreg : Regular o.log := by rw [hlog]; exact load_regular hu (save_named hu hlog hs)
  refine ⟨_, C38_loads_stored H fuel cfg hr hreg hs hk hl hm, rfl, rfl, ?_⟩
  show eqDb u (fromDb o.log) = true ↔ _
  rw [hlog]
  exact eqDb_back hu

/-- the sample log meets the conditions: it is stored and compares equal to the file afterwards -/
example : ∃ r, construct Sample.hash 20 {} Sample.db2 (some 1) none false = .ok r ∧
    eqDb (Sample.get (load 20 {} Sample.clean)) r.log = true := by
  obtain ⟨r, h, _⟩ := C38_equal_partial (Later.refl {}) Sample.con_clean Sample.load_clean Sample.save1 rfl
    Sample.later12 (by decide +kernel)
  refine ⟨r, h, ?_⟩
  have : (match construct Sample.hash 20 {} Sample.db2 (some 1) none false with
    | .ok r => eqDb (Sample.get (load 20 {} Sample.clean)) r.log
    | _ => false) = true := by decide +kernel
  rw [h] at this
  exact this

/-- Not every log comes back equal: a number among the info-multiple values comes back as text. -/
theorem C38_not_equal : ∃ bs u o db' o' r, load 20 {} bs = .ok u ∧ u.fileCorrupt = false ∧
    construct Sample.hash 20 {} {} none (some (.name bs)) true = .ok o ∧
    o.save Sample.noFault false {} = (none, db', o') ∧ o'.pk = some 1 ∧
    construct Sample.hash 20 {} db' (some 1) none false = .ok r ∧ eqDb u r.log = false ∧
    u.infoMulti = [(py! "m", [[.int 5]])] ∧ r.log.infoMulti = [(py! "m", [[some (.str (py! "5"))]])] :=
  ⟨Sample.multiNumber, Sample.get (load 20 {} Sample.multiNumber), Sample.fileObj Sample.multiNumber,
    ((Sample.fileObj Sample.multiNumber).save Sample.noFault false {}).2.1,
    ((Sample.fileObj Sample.multiNumber).save Sample.noFault false {}).2.2,
    Sample.conObj (construct Sample.hash 20 {} ((Sample.fileObj Sample.multiNumber).save Sample.noFault false {}).2.1
      (some 1) none false),
    by decide +kernel, by decide +kernel, by decide +kernel, by decide +kernel, by decide +kernel, by decide +kernel,
    by decide +kernel, by decide +kernel, by decide +kernel⟩

/-- A log whose last sample is incomplete is stored without the mark that it is corrupt. -/
theorem C38_corruption_lost : ∃ bs u o db' o' r, load 20 {} bs = .ok u ∧ u.fileCorrupt = true ∧
    construct Sample.hash 20 {} {} none (some (.name bs)) true = .ok o ∧
    o.save Sample.noFault false {} = (none, db', o') ∧
    construct Sample.hash 20 {} db' (some 1) none false = .ok r ∧ r.log.fileCorrupt = false :=
  ⟨Sample.file, Sample.get (load 20 {} Sample.file), Sample.fileObj Sample.file,
    ((Sample.fileObj Sample.file).save Sample.noFault false {}).2.1,
    ((Sample.fileObj Sample.file).save Sample.noFault false {}).2.2,
    Sample.conObj (construct Sample.hash 20 {} ((Sample.fileObj Sample.file).save Sample.noFault false {}).2.1
      (some 1) none false),
    by decide +kernel, by decide +kernel, by decide +kernel, by decide +kernel, by decide +kernel, by decide +kernel⟩

/-- Without faults, `save` of the log of a file whose numbers fit in 64 bits and whose datasets have
different names succeeds. -/
theorem C38_save_succeeds {H : Bytes → Str} {fuel : Nat} {cfg : Cfg} {lazy : Bool} {o : DbObj} {db : DB} {bs : Bytes}
    (hr : Reach db) (ho : construct H fuel cfg db none (some (.name bs)) lazy = .ok o) (hf : Holdable o.log)
    (hnew : ∀ p ∈ db.ulog, p.2.sha ≠ o.sha) :
    ∃ db', o.save (fun _ => none) false db = (none, db', { o with pk := some (db.ulogSeq + 1) }) ∧
      db.ulogSeq + 1 ∈ db'.ulog.map (·.1) := by
  obtain ⟨u, hu, hlog, hpk, _, _⟩ := construct_file ho
  have hreg : Regular o.log := by
    have := hf.named
    rw [hlog] at this ⊢
    exact load_regular hu this
  obtain ⟨c, hc, hn⟩ := dbRows_total (sha := o.sha) hreg hf
  obtain ⟨db', hs⟩ := save_total (reach_inv hr) hpk hnew hc hn
  refine ⟨db', hs, ?_⟩
  obtain ⟨_, hS⟩ := save_ok hs
  rw [hS.ids]
  simp

/-- Not every log can be stored: a start time of 2⁶³ raises `OverflowError`, two subscriptions of the same name
and multi id raise `IntegrityError`. -/
theorem C38_cannot_save :
    (∃ u, load 20 {} Sample.lateStart = .ok u ∧
      ((Sample.fileObj Sample.lateStart).save Sample.noFault false {}).1 = some .overflowError) ∧
    (∃ u, load 20 {} Sample.sameName = .ok u ∧ u.dataList.length = 2 ∧
      ((Sample.fileObj Sample.sameName).save Sample.noFault false {}).1 = some .integrityError) :=
  ⟨⟨Sample.get (load 20 {} Sample.lateStart), by decide +kernel, by decide +kernel⟩,
    ⟨Sample.get (load 20 {} Sample.sameName), by decide +kernel, by decide +kernel, by decide +kernel⟩⟩

/-! ### C39 -/

/-- In every reachable database no two stored logs have the same key or the same digest. -/
theorem C39_distinct {db : DB} (h : Reach db) :
    (db.ulog.map (·.1)).Nodup ∧ (db.ulog.map fun p => p.2.sha).Nodup :=
  ⟨(reach_inv h).ulogIds.nodup, (reach_inv h).shas⟩

/-- `save` of an unsaved object whose digest is stored raises `KeyError`, leaves the database unchanged and
makes the key of the object that of the stored log. -/
theorem C39_second_save {db : DB} (h : Reach db) {o : DbObj} (hpk : o.pk = none) {k : Nat} {row : MetaRow}
    (hrow : (k, row) ∈ db.ulog) (hsha : row.sha = o.sha) (fault : Nat → Option PyErr) (json : Bool) :
    o.save fault json db = (some .keyError, db, { o with pk := some k }) := by
  have := (pkFromSha_some (reach_inv h) (sha := o.sha) (k := k)).mpr ⟨row, hrow, hsha⟩
  unfold DbObj.save
  rw [hpk, this]
  rfl

/-- the file of the stored log is seen again -/
example : (Sample.fileObj Sample.clean).pk = none ∧ (∃ row, (1, row) ∈ Sample.db2.ulog ∧
    row.sha = (Sample.fileObj Sample.clean).sha) ∧
    (Sample.fileObj Sample.clean).save Sample.noFault false Sample.db2 =
      (some .keyError, Sample.db2, { Sample.fileObj Sample.clean with pk := some 1 }) := by
  have h : ∃ p ∈ Sample.db2.ulog, p.1 = 1 ∧ p.2.sha = (Sample.fileObj Sample.clean).sha := by decide +kernel
  obtain ⟨⟨k, row⟩, h1, h2, h3⟩ := h
  simp only at h2
  subst h2
  have hpk : (Sample.fileObj Sample.clean).pk = none := by decide +kernel
  exact ⟨hpk, ⟨row, h1, h3⟩, C39_second_save Sample.reach2 hpk h1 h3 _ _⟩

/-- The lookup by digest finds exactly the log with this digest. -/
theorem C39_lookup {db : DB} (h : Reach db) (sha : Str) (k : Nat) :
    pkFromSha db sha = some k ↔ ∃ row, (k, row) ∈ db.ulog ∧ row.sha = sha :=
  pkFromSha_some (reach_inv h)

example : pkFromSha Sample.db2 (Sample.hash Sample.other) = some 2 ∧ (Sample.db2.ulog.map (·.1)) = [1, 2] := by
  decide +kernel

/-! ### C40 -/

/-- `delete` removes the log and all rows that belong to it, and no row of another log. -/
theorem C40_content {db db' : DB} {o o' : DbObj} {k : Nat} (h : Reach db) (hk : o.pk = some k)
    (hd : o.delete db = .ok (db', o')) :
    content db' k = .empty ∧ (∀ j, j ≠ k → content db' j = content db j) ∧ NoOrphans db' ∧
      db'.ulog.map (·.1) = (db.ulog.map (·.1)).filter (fun j => decide (j ≠ k)) ∧ o' = { o with pk := none } := by
  unfold DbObj.delete at hd
  rw [hk] at hd
  cases hd
  have i := reach_inv h
  refine ⟨by rw [delete_content i]; simp, fun j hj => by rw [delete_content i, if_neg hj],
    (delete_inv i k).toNoOrphans, delete_ids k db, rfl⟩

/-- Afterwards the key does not exist and every other log loads as before. -/
theorem C40_others {db db' : DB} {o o' : DbObj} {k : Nat} (h : Reach db) (hk : o.pk = some k)
    (hd : o.delete db = .ok (db', o')) :
    existsInDb db' k = false ∧
      (∀ H fuel cfg lazy, construct H fuel cfg db' (some k) none lazy = .raised .keyError) ∧
      ∀ j, j ≠ k → existsInDb db' j = existsInDb db j ∧
        ∀ H fuel cfg lazy, construct H fuel cfg db' (some j) none lazy = construct H fuel cfg db (some j) none lazy := by
  obtain ⟨_, h2, _, h4, _⟩ := C40_content h hk hd
  have hv : db'.version = 5 := by
    have : Reach db' := .step _ _ _ h (.delete o db db' o' hd)
    exact reach_version this
  have hex : ∀ (d : DB) j, existsInDb d j = decide (((d.ulog.map (·.1)).filter fun x => decide (x = j)).length = 1) := by
    intro d j
    unfold existsInDb
    rw [List.filter_map, List.length_map]
    rfl
  have hgone : existsInDb db' k = false := by
    rw [hex, h4, List.filter_filter, decide_eq_false_iff_not]
    intro hlen
    have : (List.filter (fun a => decide (a = k) && decide (a ≠ k)) (db.ulog.map (·.1))) = [] := by
      rw [List.filter_eq_nil_iff]
      intro a _
      simp
    rw [this] at hlen
    cases hlen
  refine ⟨hgone, ?_, ?_⟩
  · intro H fuel cfg lazy
    unfold construct
    rw [if_neg (by rw [hv]; decide)]
    have : dbLoad db' k lazy {} = .error .keyError := by
      unfold dbLoad
      rw [hgone]
      rfl
    show (match dbLoad db' k lazy {} with
      | .ok (sha, l) => ConRes.ok { pk := some k, sha := sha, lazyLoaded := lazy, log := l }
      | .error e => .raised e) = _
    rw [this]
  · intro j hj
    constructor
    · rw [hex, hex, h4, List.filter_filter]
      congr 3
      apply List.filter_congr
      intro a _
      by_cases e : a = j <;> simp [e, hj]
    · intro H fuel cfg lazy
      unfold construct
      rw [if_neg (by rw [hv]; decide), if_neg (by rw [reach_version h]; decide)]
      show (match dbLoad db' j lazy {} with
        | .ok (sha, l) => ConRes.ok { pk := some j, sha := sha, lazyLoaded := lazy, log := l }
        | .error e => .raised e) = match dbLoad db j lazy {} with
        | .ok (sha, l) => ConRes.ok { pk := some j, sha := sha, lazyLoaded := lazy, log := l }
        | .error e => .raised e
      rw [dbLoad_content, dbLoad_content, h2 j hj]

/-- the first of two logs is deleted; the second still has its rows -/
example : (DbObj.mk (some 1) [] true {}).delete Sample.db2 = .ok (Sample.db3, DbObj.mk none [] true {}) ∧
    existsInDb Sample.db3 1 = false ∧ existsInDb Sample.db3 2 = true ∧
    content Sample.db3 2 = content Sample.db2 2 ∧ (content Sample.db3 2).datasets.length = 1 ∧
    Sample.db2.fields.length = 9 ∧ Sample.db3.fields.length = 2 :=
  ⟨rfl, by decide +kernel, by decide +kernel, by decide +kernel, by decide +kernel, by decide +kernel,
    by decide +kernel⟩

/-! ### C41 -/

/-- Whichever statement or the commit fails, for whatever reason, the database is unchanged. -/
theorem C41_unchanged_partial {fault : Nat → Option PyErr} {json : Bool} {o o' : DbObj} {db db' : DB} {e : PyErr}
    (h : o.save fault json db = (some e, db', o')) : db' = db := save_err h

/-- the disk is full at the sixth statement -/
example : (Sample.fileObj Sample.clean).save (Sample.faultAt 5) false {} =
    (some .operationalError, {}, { Sample.fileObj Sample.clean with pk := some 1 }) := by decide +kernel

/-- When the first statement fails, the object can be saved again. -/
theorem C41_first_partial {fault : Nat → Option PyErr} {json : Bool} {o : DbObj} {db : DB} {e : PyErr}
    (hpk : o.pk = none) (hs : ∀ p ∈ db.ulog, p.2.sha ≠ o.sha) (hf : fault 0 = some e) :
    o.save fault json db = (some e, db, o) := by
  unfold DbObj.save
  rw [hpk, pkFromSha_none.mpr hs, hf]
  rfl

/-- When a later statement or the commit fails, the object keeps the key of the row that was rolled
back, and every further `save` raises `KeyError`. -/
theorem C41_cannot_retry {fault : Nat → Option PyErr} {json : Bool} {o o' : DbObj} {db db' : DB} {e : PyErr}
    (hpk : o.pk = none) (hs : ∀ p ∈ db.ulog, p.2.sha ≠ o.sha) (hf : fault 0 = none)
    (hm : ∃ row, metaRow o.log o.sha = .ok row) (h : o.save fault json db = (some e, db', o')) :
    o'.pk = some (db.ulogSeq + 1) ∧ ∀ fault' json' d, o'.save fault' json' d = (some .keyError, d, o') := by
  obtain ⟨row, hm⟩ := hm
  have h1 := (metaStmt_ok (r := { db := db })).mpr ⟨row, hm, hs, rfl⟩
  unfold DbObj.save at h
  rw [hpk, pkFromSha_none.mpr hs, hf, h1] at h
  simp only [Option.isSome_none, Bool.false_eq_true, if_false] at h
  split at h
  · cases h
    refine ⟨rfl, fun fault' json' d => rfl⟩
  · cases h

/-- the conditions hold in the example above: after the failure the log is not in the database and cannot be
saved -/
example : (Sample.fileObj Sample.clean).pk = none ∧ Sample.faultAt 5 0 = none ∧
    (metaRow (Sample.fileObj Sample.clean).log (Sample.fileObj Sample.clean).sha).toOption.isSome = true ∧
    ({ Sample.fileObj Sample.clean with pk := some 1 } : DbObj).save Sample.noFault false {} =
      (some .keyError, {}, { Sample.fileObj Sample.clean with pk := some 1 }) := by
  refine ⟨?_, ?_, ?_, ?_⟩ <;> decide +kernel

/-- the same counter value is then given to the next log: the object that failed has the key of
another log, and its `delete` removes that log -/
theorem C41_wrong_delete {fault fault2 : Nat → Option PyErr} {json json2 : Bool} {o o' p p' : DbObj} {db db' db2 : DB}
    {e : PyErr} (hr : Reach db) (hpk : o.pk = none) (hs : ∀ p ∈ db.ulog, p.2.sha ≠ o.sha) (hf : fault 0 = none)
    (hm : ∃ row, metaRow o.log o.sha = .ok row) (h : o.save fault json db = (some e, db', o'))
    (h2 : p.save fault2 json2 db' = (none, db2, p')) :
    o'.pk = p'.pk ∧ ∃ db3 o3, o'.delete db2 = .ok (db3, o3) ∧ ∀ k, p'.pk = some k → content db3 k = .empty := by
  have hd := save_err h
  subst hd
  obtain ⟨c, hc⟩ := save_ok h2
  have h1 := (C41_cannot_retry hpk hs hf hm h).1
  have h3 : p'.pk = some (db'.ulogSeq + 1) := by rw [hc.obj]
  refine ⟨h1.trans h3.symm, deleteRows (db'.ulogSeq + 1) db2, { o' with pk := none }, ?_, ?_⟩
  · unfold DbObj.delete
    rw [h1]
  · intro k hk
    rw [h3] at hk
    cases hk
    rw [delete_content (hc.inv (reach_inv hr))]
    simp

/-- another log is saved, then the object that failed is deleted -/
example : (Sample.fileObj Sample.other).save Sample.noFault false {} =
      (none, ((Sample.fileObj Sample.other).save Sample.noFault false {}).2.1,
        { Sample.fileObj Sample.other with pk := some 1 }) ∧
    (({ Sample.fileObj Sample.clean with pk := some 1 } : DbObj).delete
      ((Sample.fileObj Sample.other).save Sample.noFault false {}).2.1).toOption.map (fun r => r.1.ulog) = some [] := by
  refine ⟨?_, ?_⟩ <;> decide +kernel

/-! ### C42 -/

theorem readC_names {c : Content} {name : Str} {multi : Nat} {lazy : Bool} {d : Dataset}
    (h : readC c name multi lazy = .ok d) : d.name = name ∧ d.multiId = multi := by
  unfold readC at h
  split at h
  · cases h
  · split at h
    · cases h; exact ⟨rfl, rfl⟩
    · obtain ⟨cols, _, h2⟩ := except_bind_ok.mp h
      cases h2
      exact ⟨rfl, rfl⟩

/-- eager and lazy reading agree about message id and timestamp index -/
theorem readC_lazy {c : Content} {name : Str} {multi : Nat} {d : Dataset} (h : readC c name multi false = .ok d) :
    readC c name multi true = .ok { d with fields := [], data := [] } := by
  unfold readC at h ⊢
  split at h
  · cases h
  · obtain ⟨cols, _, h2⟩ := except_bind_ok.mp (show (_ >>= _) = _ from h)
    cases h2
    rename_i heq
    rw [heq]
    rfl

theorem readC_error {c : Content} {name : Str} {multi : Nat} {lazy : Bool}
    (h : ∀ p ∈ c.datasets, ¬ (p.1.name = name ∧ p.1.multiId = multi)) : readC c name multi lazy = .error .keyError := by
  have : c.datasets.find? (fun p => p.1.name = name && p.1.multiId = multi) = none := by
    rw [List.find?_eq_none]
    intro p hp
    simpa using h p hp
  unfold readC
  rw [this]

/-- the constructor loads the datasets of the content -/
theorem construct_load {H : Bytes → Str} {fuel : Nat} {cfg : Cfg} {db : DB} {k : Nat} {lazy : Bool} {o : DbObj}
    (h : construct H fuel cfg db (some k) none lazy = .ok o) :
    o.pk = some k ∧ o.lazyLoaded = lazy ∧ dbLoad db k lazy {} = .ok (o.sha, o.log) := by
  unfold construct at h
  split at h
  · cases h
  · simp only at h
    split at h
    · rename_i sha l hl
      cases h
      exact ⟨rfl, rfl, hl⟩
    · cases h

theorem loadC_datasets {c : Content} {lazy : Bool} {r : Str × DbLog} (h : loadC c lazy {} = .ok r) :
    (ssort dsRowLe (c.datasets.map (·.1))).mapM (fun r => readC c r.name r.multiId lazy) = .ok r.2.dataList := by
  unfold loadC at h
  split at h
  · obtain ⟨dl, h1, h2⟩ := except_bind_ok.mp h
    cases h2
    exact h1
  · cases h

theorem mapM_hit {α β : Type} {f : α → Except PyErr β} {xs : List α} {ys : List β} (hm : xs.mapM f = .ok ys)
    {x : α} (hx : x ∈ xs) : ∃ y ∈ ys, f x = .ok y := by
  induction xs generalizing ys with
  | nil => cases hx
  | cons a xs ih =>
    rw [List.mapM_cons] at hm
    obtain ⟨y', h1, h2⟩ := except_bind_ok.mp hm
    obtain ⟨ys', h3, h4⟩ := except_bind_ok.mp h2
    cases h4
    rcases List.mem_cons.mp hx with rfl | hx
    · exact ⟨y', List.mem_cons_self, h1⟩
    · obtain ⟨y, hy, e⟩ := ih h3 hx
      exact ⟨y, List.mem_cons_of_mem _ hy, e⟩

theorem mem_replaceFirst {α : Type} {p : α → Bool} {x y : α} : ∀ {l : List α}, y ∈ replaceFirst p x l → y ∈ l ∨ y = x
  | [], h => by cases h
  | a :: l, h => by
    unfold replaceFirst at h
    split at h
    · rcases List.mem_cons.mp h with h | h
      · exact .inr h
      · exact .inl (List.mem_cons_of_mem _ h)
    · rcases List.mem_cons.mp h with h | h
      · exact .inl (h ▸ List.mem_cons_self)
      · rcases mem_replaceFirst h with h | h
        · exact .inl (List.mem_cons_of_mem _ h)
        · exact .inr h

theorem find?_replaceFirst {α : Type} {p : α → Bool} {x : α} (hx : p x = true) : ∀ {l : List α},
    (∃ a ∈ l, p a = true) → (replaceFirst p x l).find? p = some x
  | [], h => by obtain ⟨_, h, _⟩ := h; cases h
  | a :: l, h => by
    unfold replaceFirst
    split
    · simp [hx]
    · rename_i hn
      obtain ⟨b, hb, hp⟩ := h
      rcases List.mem_cons.mp hb with rfl | hb
      · exact absurd hp hn
      · rw [List.find?_cons_of_neg hn]
        exact find?_replaceFirst hx ⟨b, hb, hp⟩

/-- what is known about the object while `get_dataset` is called -/
structure Cached (c : Content) (k : Nat) (o : DbObj) : Prop where
  pk : o.pk = some k
  cache : ∀ d ∈ o.log.dataList, readC c d.name d.multiId true = .ok d ∨ readC c d.name d.multiId false = .ok d

theorem getDataset_eq (db : DB) (o : DbObj) (name : Str) (multi : Nat) (lazy caching : Bool) :
    DbObj.getDataset db o name multi lazy caching =
      (match caching, o.log.dataList.find? (named name multi) with
        | true, some d =>
          if lazy || !d.data.isEmpty then .ok (d, o)
          else do
            let d' ← readDataset db o.pk name multi lazy
            return (d', { o with log := { o.log with
              dataList := replaceFirst (named name multi) d' o.log.dataList } })
        | _, _ => do
          let d' ← readDataset db o.pk name multi lazy
          return (d', o)) := rfl

theorem find?_hit {l : List Dataset} {name : Str} {multi : Nat} {d : Dataset}
    (h : l.find? (named name multi) = some d) :
    d ∈ l ∧ d.name = name ∧ d.multiId = multi := by
  refine ⟨List.mem_of_find?_eq_some h, ?_⟩
  simpa using List.find?_some h

theorem Cached.call {c : Content} {k : Nat} {o o' : DbObj} {db : DB} (hc : Cached c k o) (he : content db k = c)
    {name : Str} {multi : Nat} {lazy caching : Bool} {d : Dataset}
    (h : DbObj.getDataset db o name multi lazy caching = .ok (d, o')) : Cached c k o' := by
  rw [getDataset_eq] at h
  split at h
  · split at h
    · cases h; exact hc
    · obtain ⟨d', h1, h2⟩ := except_bind_ok.mp h
      cases h2
      refine ⟨hc.pk, ?_⟩
      intro x hx
      rcases mem_replaceFirst hx with hx | rfl
      · exact hc.cache x hx
      · rw [hc.pk, readDataset_content, he] at h1
        rename_i hn
        have hlz : lazy = false := by cases lazy <;> simp_all
        subst hlz
        obtain ⟨e1, e2⟩ := readC_names h1
        rw [e1, e2]
        exact .inr h1
  · obtain ⟨d', h1, h2⟩ := except_bind_ok.mp h
    cases h2
    exact hc

/-- the object after any calls -/
theorem calls_cached {db₀ : DB} {k : Nat} {o o₁ : DbObj} (i : DbInv db₀) (hk : k ∈ db₀.ulog.map (·.1))
    (hc : Cached (content db₀ k) k o) (h : Calls db₀ k o o₁) : Cached (content db₀ k) k o₁ := by
  induction h with
  | refl => exact hc
  | call o₁ o₂ db name multi lazy caching d _ hl hm hg ih =>
    exact ih.call ((later_inv i hl).2.2.2 k (ids_le i hk) hm).2 hg

theorem exists_of_load {db : DB} {k : Nat} {lazy : Bool} {o : DbLog} {r : Str × DbLog}
    (h : dbLoad db k lazy o = .ok r) : k ∈ db.ulog.map (·.1) := by
  unfold dbLoad at h
  split at h
  · cases h
  · split at h
    · cases h
    · rename_i row hrow
      have h1 := List.mem_of_find?_eq_some hrow
      have h2 := List.find?_some hrow
      simp only [decide_eq_true_eq] at h2
      exact List.mem_map.mpr ⟨_, h1, h2⟩

/-- On a log loaded from the database, lazily or not, `get_dataset` returns the dataset of the eagerly
loaded log, whatever calls of `get_dataset` were made before, and also when the database has changed
in between; it raises `KeyError` when the eagerly loaded log has no such dataset. -/
theorem C42_same {H : Bytes → Str} {fuel : Nat} {cfg : Cfg} {db₀ db : DB} {k : Nat} {lazy : Bool} {o o₁ e : DbObj}
    (hr : Reach db₀) (ho : construct H fuel cfg db₀ (some k) none lazy = .ok o)
    (he : construct H fuel cfg db₀ (some k) none false = .ok e) (hc : Calls db₀ k o o₁) (hl : Later db₀ db)
    (hm : k ∈ db.ulog.map (·.1)) (name : Str) (multi : Nat) (caching : Bool) :
    (∀ d, e.log.dataList.find? (named name multi) = some d →
      ∃ o₂, DbObj.getDataset db o₁ name multi false caching = .ok (d, o₂)) ∧
    (e.log.dataList.find? (named name multi) = none →
      DbObj.getDataset db o₁ name multi false caching = .error .keyError) := by
  have i := reach_inv hr
  obtain ⟨hop, _, hol⟩ := construct_load ho
  obtain ⟨_, _, hel⟩ := construct_load he
  have hk := exists_of_load hol
  rw [dbLoad_content] at hol hel
  have ho' := loadC_datasets hol
  have he' := loadC_datasets hel
  have hc0 : Cached (content db₀ k) k o := by
    refine ⟨hop, ?_⟩
    intro d hd
    obtain ⟨r, _, h2⟩ := mapM_mem ho' hd
    obtain ⟨e1, e2⟩ := readC_names h2
    rw [e1, e2]
    cases lazy
    · exact .inr h2
    · exact .inl h2
  have h1 := calls_cached i hk hc0 hc
  have hcont : content db k = content db₀ k := ((later_inv i hl).2.2.2 k (ids_le i hk) hm).2
  have hread : readDataset db o₁.pk name multi false = readC (content db₀ k) name multi false := by
    rw [h1.pk, readDataset_content, hcont]
  constructor
  · intro d hd
    obtain ⟨hmem, e1, e2⟩ := find?_hit hd
    obtain ⟨r, _, h2⟩ := mapM_mem he' hmem
    obtain ⟨e3, e4⟩ := readC_names h2
    have h3 : readC (content db₀ k) name multi false = .ok d := by
      rw [← e1, ← e2, e3, e4]; exact h2
    rw [getDataset_eq]
    split
    · rename_i x hx
      obtain ⟨hxm, x1, x2⟩ := find?_hit hx
      split
      · rename_i hdata
        rcases h1.cache x hxm with hx1 | hx1
        · rw [x1, x2, readC_lazy h3] at hx1
          cases hx1
          simp at hdata
        · rw [x1, x2, h3] at hx1
          cases hx1
          exact ⟨_, rfl⟩
      · rw [hread, h3]
        exact ⟨_, rfl⟩
    · rw [hread, h3]
      exact ⟨_, rfl⟩
  · intro hd
    have hno : ∀ p ∈ (content db₀ k).datasets, ¬ (p.1.name = name ∧ p.1.multiId = multi) := by
      rintro p hp ⟨e1, e2⟩
      obtain ⟨y, hy, hy2⟩ := mapM_hit he' ((mem_ssort _ _ _).mpr (List.mem_map.mpr ⟨p, hp, rfl⟩))
      obtain ⟨e3, e4⟩ := readC_names hy2
      have := List.find?_eq_none.mp hd y hy
      simp [e3, e4, e1, e2] at this
    have h3 := readC_error (lazy := false) hno
    rw [getDataset_eq]
    split
    · rename_i x hx
      obtain ⟨hxm, x1, x2⟩ := find?_hit hx
      rcases h1.cache x hxm with hx1 | hx1
      · rw [x1, x2, readC_error hno] at hx1; cases hx1
      · rw [x1, x2, h3] at hx1; cases hx1
    · rw [hread, h3]; rfl

/-- a lazily loaded object, a call that fills the cache for `a`, and a second call after another log was saved -/
example : ∃ o e d o₁, construct Sample.hash 20 {} Sample.db1 (some 1) none true = .ok o ∧
    construct Sample.hash 20 {} Sample.db1 (some 1) none false = .ok e ∧
    DbObj.getDataset Sample.db1 o (py! "a") 0 false true = .ok (d, o₁) ∧ Calls Sample.db1 1 o o₁ ∧
    o₁ ≠ o ∧ d.data.length = 2 ∧ 1 ∈ Sample.db2.ulog.map (·.1) ∧
    e.log.dataList.find? (named (py! "b") 1) ≠ none := by
  have h1 : (match construct Sample.hash 20 {} Sample.db1 (some 1) none true with
    | .ok o => (match DbObj.getDataset Sample.db1 o (py! "a") 0 false true with
      | .ok (d, o₁) => decide (o₁ ≠ o ∧ d.data.length = 2)
      | .error _ => false)
    | _ => false) = true := by decide +kernel
  have h2 : (match construct Sample.hash 20 {} Sample.db1 (some 1) none false with
    | .ok e => (e.log.dataList.find? (named (py! "b") 1)).isSome
    | _ => false) = true := by decide +kernel
  have h3 : 1 ∈ Sample.db2.ulog.map (·.1) := by decide +kernel
  have h4 : 1 ∈ Sample.db1.ulog.map (·.1) := by decide +kernel
  split at h1
  · rename_i o ho
    split at h1
    · rename_i d o₁ hg
      split at h2
      · rename_i e he
        simp only [decide_eq_true_eq] at h1
        refine ⟨o, e, d, o₁, ho, he, hg, .call _ _ _ _ _ _ _ _ _ (.refl _) (.refl _) h4 hg, h1.1, h1.2, h3, ?_⟩
        intro h
        rw [h] at h2
        cases h2
      · cases h2
    · cases h1
  · cases h1

/-- When the dataset is in the object with its data, or only its description is asked for, that dataset is
returned and nothing is read. -/
theorem C42_cache_hit {db : DB} {o : DbObj} {name : Str} {multi : Nat} {lazy : Bool} {d : Dataset}
    (h : o.log.dataList.find? (named name multi) = some d)
    (hd : lazy = true ∨ d.data ≠ []) : DbObj.getDataset db o name multi lazy true = .ok (d, o) := by
  rw [getDataset_eq, h]
  show (if (lazy || !d.data.isEmpty) = true then _ else _) = _
  rw [if_pos]
  rcases hd with rfl | hd
  · rfl
  · cases hdd : d.data
    · exact absurd hdd hd
    · simp

/-- After a successful call with caching, the dataset that was returned is the one in the object (when the
object had one of this name), and a second call returns it. -/
theorem C42_second_call {db db' : DB} {o o' : DbObj} {name : Str} {multi : Nat} {d : Dataset}
    (hd : d.data ≠ []) (hex : ∃ x ∈ o.log.dataList, x.name = name ∧ x.multiId = multi)
    (h : DbObj.getDataset db o name multi false true = .ok (d, o')) :
    o'.log.dataList.find? (named name multi) = some d ∧
      ∀ lazy, DbObj.getDataset db' o' name multi lazy true = .ok (d, o') := by
  have h1 : o'.log.dataList.find? (named name multi) = some d := by
    rw [getDataset_eq] at h
    split at h
    · rename_i x hx
      split at h
      · cases h; exact hx
      · obtain ⟨d', h1, h2⟩ := except_bind_ok.mp h
        cases h2
        apply find?_replaceFirst
        · obtain ⟨k, hk⟩ : ∃ k, o.pk = some k := by
            cases hp : o.pk with
            | some k => exact ⟨k, rfl⟩
            | none =>
              rw [hp] at h1
              unfold readDataset at h1
              have : db.datasets.find? (fun p => some p.2.1 = none && p.2.2.name = name && p.2.2.multiId = multi)
                  = none := by
                rw [List.find?_eq_none]
                intro p _
                simp
              rw [this] at h1
              cases h1
          rw [hk, readDataset_content] at h1
          obtain ⟨e1, e2⟩ := readC_names h1
          simp [e1, e2]
        · obtain ⟨x, hx, e1, e2⟩ := hex
          exact ⟨x, hx, by simp [e1, e2]⟩
    · rename_i hn
      exfalso
      obtain ⟨x, hx, e1, e2⟩ := hex
      cases hf : o.log.dataList.find? (named name multi) with
      | none =>
        have := List.find?_eq_none.mp hf x hx
        simp [e1, e2] at this
      | some y => exact hn y rfl hf
  exact ⟨h1, fun lazy => C42_cache_hit h1 (.inr hd)⟩

/-! ### C45 -/

theorem shaLoop_all : ∀ (fuel : Nat) (rest acc : Bytes), rest.length + 2 ≤ fuel →
    shaLoop fuel rest acc = some (acc ++ rest)
  | 0, _, _, h => by omega
  | fuel + 1, rest, acc, h => by
    unfold shaLoop
    cases rest with
    | nil => simp
    | cons b rest =>
      have hne : (b :: rest).take 4096 ≠ [] := by simp
      simp only [if_neg hne]
      rw [shaLoop_all fuel _ _ (by simp only [List.length_drop, List.length_cons] at h ⊢; omega), List.append_assoc,
        List.take_append_drop]

/-- For a file name or a closed file object, the digest is that of all bytes of the file. -/
theorem C45_whole_file (H : Bytes → Str) (c : Bytes) :
    calcSha H (.name c) = some (H c) ∧ calcSha H (.closed c) = some (H c) := by
  constructor <;>
  · show Option.map H (shaLoop (c.length + 2) c []) = _
    rw [shaLoop_all _ _ _ (Nat.le_refl _)]
    rfl

/-- For an open file object, the digest is that of the bytes from its position on. -/
theorem C45_open_file (H : Bytes → Str) (c : Bytes) (pos : Nat) :
    calcSha H (.opened c pos) = some (H (c.drop pos)) := by
  show Option.map H (shaLoop (c.length + 2) (c.drop pos) []) = _
  rw [shaLoop_all _ _ _ (by simp only [List.length_drop]; omega)]
  rfl

example : calcSha Sample.hash (.opened [65, 66, 67] 1) = some (py! "BC") ∧
    calcSha Sample.hash (.name [65, 66, 67]) = some (py! "ABC") := by decide +kernel

end PyULog
