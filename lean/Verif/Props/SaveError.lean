import Verif.Lemmas.SaveError
import Verif.Lemmas.LoadedFits
/-
C90: which exception a failing `save` raises.
-/
namespace PyULog
open Spec

/-- Storing a log that is not yet in the database raises an exception only for a reason of `SaveObstacle`. -/
theorem C90_exception {json : Bool} {o o' : DbObj} {db db' : DB} {e : PyErr} (hr : Reach db) (hpk : o.pk = none)
    (hnew : ∀ p ∈ db.ulog, p.2.sha ≠ o.sha) (h : o.save (fun _ => none) json db = (some e, db', o')) :
    SaveObstacle json o.log e := by
  have i := reach_inv hr
  unfold DbObj.save at h
  rw [hpk, pkFromSha_none.mpr hnew] at h
  simp only [Option.isSome_none, Bool.false_eq_true, if_false] at h
  split at h
  · rename_i e' hm
    cases h
    unfold metaStmt at hm
    rcases except_bind_error.mp hm with hm | ⟨row, _, hm⟩
    · exact metaRow_err hm
    · split at hm
      · rename_i hany
        obtain ⟨p, hp, hb⟩ := List.any_eq_true.mp hany
        exact absurd (of_decide_eq_true hb) (hnew p hp)
      · cases hm
  · rename_i r hm
    split at h
    · rename_i e' hrun
      cases h
      rw [runStmts_none] at hrun
      obtain ⟨row, _, _, rfl⟩ := metaStmt_ok.mp hm
      refine rest_err ?_ hrun
      intro p hp e
      have := i.datasets p hp
      rw [e] at this
      exact i.ulogIds.not_mem this
    · cases h

/-- It succeeds exactly when there is no such reason. -/
theorem C90_exact {json : Bool} {o : DbObj} {db : DB} (hr : Reach db) (hpk : o.pk = none)
    (hnew : ∀ p ∈ db.ulog, p.2.sha ≠ o.sha) :
    (o.save (fun _ => none) json db).1 = none ↔ ∀ e, ¬ SaveObstacle json o.log e := by
  constructor
  · intro h e
    have hs : o.save (fun _ => none) json db = (none, (o.save (fun _ => none) json db).2.1,
      (o.save (fun _ => none) json db).2.2) := Prod.ext h rfl
    obtain ⟨c, hc⟩ := save_ok hs
    have he : content (o.save (fun _ => none) json db).2.1 (db.ulogSeq + 1) = c := by
      rw [hc.content (reach_inv hr)]; simp
    have hn := content_names (hc.inv (reach_inv hr)) (db.ulogSeq + 1)
    rw [he] at hn
    obtain ⟨_, _, _, _, h2, _⟩ := dbRows_iff.mp hc.rows
    have hnames : c.datasets.map (fun p => (p.1.name, p.1.multiId)) = o.log.dataList.map fun d => (d.name, d.multiId) := by
      refine mapM_map_eq ?_ h2
      intro d _ y hy
      obtain ⟨row, h3, hy⟩ := except_bind_ok.mp hy
      obtain ⟨fs, _, hy⟩ := except_bind_ok.mp hy
      cases hy
      rw [datasetRow_eq h3]
      rfl
    rw [hnames] at hn
    exact rows_good hc.rows hn e
  · intro h
    cases he : (o.save (fun _ => none) json db).1 with
    | none => rfl
    | some e =>
      exact absurd (C90_exception (o' := (o.save (fun _ => none) json db).2.2)
        (db' := (o.save (fun _ => none) json db).2.1) hr hpk hnew (Prod.ext he rfl)) (h e)

/-- The log of a file: an integer does not fit in 64 bits with sign, two datasets have the same name and multi
id, a column has no name, or the JSON columns cannot be made. -/
theorem C90_file {H : Bytes → Str} {fuel : Nat} {cfg : Cfg} {lazy json : Bool} {o o' : DbObj} {db db' : DB} {bs : Bytes}
    {e : PyErr} (hr : Reach db) (ho : construct H fuel cfg db none (some (.name bs)) lazy = .ok o)
    (hnew : ∀ p ∈ db.ulog, p.2.sha ≠ o.sha) (h : o.save (fun _ => none) json db = (some e, db', o')) :
    e = .overflowError ∨ (e = .integrityError ∧ ¬ (o.log.dataList.map fun d => (d.name, d.multiId)).Nodup) ∨
      (e = .keyError ∧ ∃ d ∈ o.log.dataList, ∃ f ∈ d.fields, f.name = []) ∨
      json = true ∧ ∃ d ∈ o.log.dataList,
        (e = .keyError ∧ d.data.get? (py! "timestamp") = none) ∨
        (e = .operationalError ∧ ∃ f col v, d.data.get? f = some col ∧ v ∈ col ∧ NegInfinite v) ∨
        (e = .unmodelled ∧ ∃ ts v, d.data.get? (py! "timestamp") = some ts ∧ v ∈ ts ∧ ∀ n, v ≠ .int n) := by
  obtain ⟨u, hu, hlog, hpk, _, _⟩ := construct_file ho
  have ha := load_aligned hu
  have htyped : ∀ d ∈ o.log.dataList, ColumnsTyped d := by rw [hlog]; exact fun d hd => loaded_typed hu hd
  have hcols : ∀ d ∈ o.log.dataList, d.data.map (·.1) = columnNames d.fields := by
    rw [hlog]; exact fun d hd => (loaded_dataset hu hd).1
  have hinfo : o.log.infoTypes.map (·.1) = o.log.info.map (·.1) := by
    rw [hlog, show (DbLog.ofULog u).info = u.info.mapVals some from rfl, mapVals_keys]; exact ha.infoTypes
  have hmulti : o.log.infoMultiTypes.map (·.1) = o.log.infoMulti.map (·.1) := by
    rw [hlog, show (DbLog.ofULog u).infoMulti = u.infoMulti.mapVals _ from rfl, mapVals_keys]; exact ha.multiTypes
  have hsz := load_sizes hu
  have hflags : ∀ x ∈ o.log.compat ++ o.log.incompat, x < 256 := by
    rw [hlog]
    intro x hx
    rcases List.mem_append.mp hx with hx | hx
    · exact hsz.compat.2 x hx
    · exact hsz.incompat.2 x hx
  have hget : ∀ {α β : Type} {d : Dict Str α} {d' : Dict Str β} {k : Str}, d.map (·.1) = d'.map (·.1) →
      k ∈ d'.map (·.1) → d.get? k ≠ none := by
    intro α β d d' k he hk hnone
    exact (Dict.get?_eq_none_iff _ _).mp hnone (show k ∈ d.map (·.1) by rw [he]; exact hk)
  cases C90_exception hr hpk hnew h with
  | surrogate hx a b => have := hflags _ hx; omega
  | noChar hx a => have := hflags _ hx; omega
  | twice hx => exact .inr (.inl ⟨rfl, hx⟩)
  | @column d f hd hf hx =>
    refine .inr (.inr (.inl ⟨rfl, d, hd, f, hf, Classical.byContradiction fun hne => ?_⟩))
    refine (Dict.get?_eq_none_iff _ _).mp hx ?_
    show f.name ∈ d.data.map (·.1)
    rw [hcols d hd]
    obtain ⟨k, hk⟩ := List.mem_iff_getElem?.mp hf
    exact mem_columnNames.mpr ⟨k, f, hk, columnName_named k hne⟩
  | @kind d f col v hd hf hx hv hk =>
    obtain ⟨c, hc, e⟩ := typed_iff.mp (htyped d hd f hf col hx v hv)
    refine absurd (npEncode_kind (b := c) ?_) hk
    rw [e, npEncode_decode hc]
  | noTime hj hd _ hx => exact .inr (.inr (.inr ⟨hj, _, hd, .inl ⟨rfl, hx⟩⟩))
  | time hj hd _ hx hv hn => exact .inr (.inr (.inr ⟨hj, _, hd, .inr (.inr ⟨rfl, _, _, hx, hv, hn⟩)⟩))
  | negInf hj hd hf hc hx hfind hv =>
    refine .inr (.inr (.inr ⟨hj, _, hd, .inr (.inl ⟨rfl, _, _, _, hc, ?_, hv⟩)⟩))
    have := List.mem_of_find?_eq_some hfind
    exact (List.of_mem_zip (List.mem_reverse.mp this)).2
  | infoType hp hx => exact absurd hx (hget hinfo (List.mem_map_of_mem (f := (·.1)) hp))
  | multiType hp hx => exact absurd hx (hget hmulti (List.mem_map_of_mem (f := (·.1)) hp))
  | _ => exact .inl rfl

/-- A log of a file with a column without a name cannot be saved. -/
theorem C90_unnamed {H : Bytes → Str} {fuel : Nat} {cfg : Cfg} {lazy json : Bool} {fault : Nat → Option PyErr} {o : DbObj}
    {db : DB} {bs : Bytes} (ho : construct H fuel cfg db none (some (.name bs)) lazy = .ok o) {d : Dataset}
    (hd : d ∈ o.log.dataList) {f : FieldData} (hf : f ∈ d.fields) (hn : f.name = []) :
    (o.save fault json db).1 ≠ none := by
  intro h
  obtain ⟨u, hu, hlog, _⟩ := construct_file ho
  rw [hlog] at hd
  exact save_named hu hlog (Prod.ext h rfl) d hd f hf hn

/-- such a log: `KeyError` -/
example : (∃ o, construct Sample.hash 20 {} {} none (some (.name Sample.unnamed)) true = .ok o ∧
      ∃ d ∈ o.log.dataList, ∃ f ∈ d.fields, f.name = []) ∧
    ((Sample.fileObj Sample.unnamed).save Sample.noFault false {}).1 = some .keyError :=
  ⟨⟨Sample.fileObj Sample.unnamed, by decide +kernel, by decide +kernel⟩, by decide +kernel⟩

/-- an info message whose type was removed -/
def Sample.untyped : DbObj :=
  { Sample.fileObj Sample.clean with log := { (Sample.fileObj Sample.clean).log with infoTypes := [] } }

/-- a flag that is no character -/
def Sample.oddFlag (n : Nat) : DbObj :=
  { Sample.fileObj Sample.clean with log := { (Sample.fileObj Sample.clean).log with compat := [n] } }

/-- The reasons occur: a start time of 2⁶³, two datasets of one name, `-∞` and a missing timestamp with JSON columns,
a missing type, flags that are no characters; and the sample log can be stored. -/
example :
    ((Sample.fileObj Sample.lateStart).save Sample.noFault false {}).1 = some .overflowError ∧
    ((Sample.fileObj Sample.sameName).save Sample.noFault false {}).1 = some .integrityError ∧
    ((Sample.fileObj Sample.negInf).save Sample.noFault true {}).1 = some .operationalError ∧
    ((Sample.fileObj Sample.noTime).save Sample.noFault true {}).1 = some .keyError ∧
    (Sample.untyped.save Sample.noFault false {}).1 = some .keyError ∧
    ((Sample.oddFlag 0xD812).save Sample.noFault false {}).1 = some .unicodeError ∧
    ((Sample.oddFlag 0x110000).save Sample.noFault false {}).1 = some .valueError ∧
    ((Sample.fileObj Sample.clean).save Sample.noFault true {}).1 = none := by decide +kernel

/-- the hypotheses of `C90_exception` and `C90_exact` hold for these in the empty database -/
example : Reach {} ∧ (∀ o ∈ [Sample.fileObj Sample.lateStart, Sample.untyped, Sample.oddFlag 0xD812,
    Sample.fileObj Sample.clean], o.pk = none ∧ ∀ p ∈ ({} : DB).ulog, p.2.sha ≠ o.sha) :=
  ⟨.refl _, by decide +kernel⟩

/-- the hypotheses of `C90_file` -/
example : ∃ o, construct Sample.hash 20 {} {} none (some (.name Sample.negInf)) false = .ok o ∧
    (o.save (fun _ => none) true {}).1 = some .operationalError :=
  ⟨Sample.conObj (construct Sample.hash 20 {} {} none (some (.name Sample.negInf)) false), by decide +kernel,
    by decide +kernel⟩

end PyULog
