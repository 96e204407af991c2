import Verif.Lemmas.JsonText
import Verif.Props.DbObject
/-
Property theorems: C65 (the text of the JSON column).
-/
namespace PyULog
open Spec

theorem valText_f64 {v : NpVal} {b : Nat} (hv : listText v = f64Text b) (hb : b < 2 ^ 64) :
    if exp64 b = 2047 then valText v = if frac64 b = 0 ∧ sign64 b = 1 then py! "-null" else py! "null"
    else JsonNumber (valText v) ∧ ReadsAs64 (valText v) b := by
  split
  · rename_i he
    have hs : sign64 b = 0 ∨ sign64 b = 1 := by unfold sign64; omega
    unfold valText
    rw [hv, f64Text_special hb he]
    by_cases hf : frac64 b = 0
    · rw [if_neg (not_not_intro hf)]
      rcases hs with hs | hs
      · rw [if_pos hs, if_neg (by rw [hs]; omega)]
        decide
      · rw [if_neg (by rw [hs]; decide), if_pos ⟨hf, hs⟩]
        decide
    · rw [if_pos hf, if_neg (fun h => hf h.1)]
      decide
  · rename_i he
    have hj := f64_json he
    rw [valText_number (by rw [hv]; exact hj), hv]
    exact ⟨hj, C84_float64 hb⟩

theorem valText_spec {v : NpVal} (hv : PatternOk v) : JsonOf (valText v) v := by
  cases v with
  | int n =>
    have hj := intDec_jsonNumber n
    show JsonNumber (valText (.int n)) ∧ ReadsAsInt (valText (.int n)) n
    rw [valText_number (v := .int n) hj]
    exact ⟨hj, C84_int n⟩
  | f64 b => exact valText_f64 rfl hv
  | f32 b =>
    have h := valText_f64 (v := .f32 b) rfl (widen_lt hv)
    show if exp32 b = 255 then _ else _
    split
    · rename_i he
      obtain ⟨h1, h2, h3⟩ := widen_special he
      rw [if_pos h1, h3] at h
      rw [h]
      simp only [h2]
    · rename_i he
      obtain ⟨h1, h2, h3⟩ := C50_widen_exact b hv he
      rw [if_neg h1] at h
      exact ⟨h.1, widen b, widen_lt hv, h1, h2, h3, h.2⟩

/-- **C65**, the text of the column: it reads as an object with one member for every entry of the
dictionary, in the same order. The key is the timestamp in decimal digits and the value stands for the
sample; NaN and infinity are `null`. -/
theorem C65_text {j : Dict Int NpVal} (h : ∀ p ∈ j, PatternOk p.2) :
    ∃ ms, readObject (jsonText j) = some ms ∧ ms.length = j.length ∧
      ∀ (i : Nat) (p : Int × NpVal), j[i]? = some p → ∃ txt, ms[i]? = some (intDec p.1, txt) ∧ JsonOf txt p.2 := by
  refine ⟨_, readObject_text h, by simp, ?_⟩
  intro i p hp
  refine ⟨valText p.2, ?_, valText_spec (h p (List.mem_of_getElem? hp))⟩
  rw [List.getElem?_map, hp]
  rfl

/-- minus infinity -/
def Spec.NegInf : NpVal → Prop
  | .int _ => False
  | .f32 b => exp32 b = 255 ∧ frac32 b = 0 ∧ sign32 b = 1
  | .f64 b => exp64 b = 2047 ∧ frac64 b = 0 ∧ sign64 b = 1

theorem isNegInf_iff {v : NpVal} (hv : PatternOk v) : isNegInf v = true ↔ NegInf v := by
  cases v with
  | int n => simp [isNegInf, NegInf]
  | f32 b =>
    have hv : b < 2 ^ 32 := hv
    unfold isNegInf NegInf exp32 frac32 sign32
    rw [decide_eq_true_iff]
    omega
  | f64 b =>
    have hv : b < 2 ^ 64 := hv
    unfold isNegInf NegInf exp64 frac64 sign64
    rw [decide_eq_true_iff]
    omega

theorem jsonSpecial {A B Q : Prop} [Decidable A] [Decidable B] {txt : Str}
    (h : if A then txt = if B then py! "-null" else py! "null" else JsonNumber txt ∧ Q) : JsonValue txt ↔ ¬ (A ∧ B) := by
  have hno : ¬ JsonValue (py! "-null") := by
    rintro (e | e)
    · exact absurd e (by decide)
    · exact not_jsonNumber (by decide) e
  by_cases ha : A
  · rw [if_pos ha] at h
    by_cases hb : B
    · rw [if_pos hb] at h
      rw [h]
      exact ⟨fun hj => absurd hj hno, fun hn => absurd ⟨ha, hb⟩ hn⟩
    · rw [if_neg hb] at h
      exact ⟨fun _ hn => hb hn.2, fun _ => .inl h⟩
  · rw [if_neg ha] at h
    exact ⟨fun _ hn => ha hn.1, fun _ => .inr h.1⟩

theorem jsonValue_iff {v : NpVal} {txt : Str} (h : JsonOf txt v) : JsonValue txt ↔ ¬ NegInf v := by
  cases v with
  | int n => exact ⟨fun _ h => h, fun _ => .inr h.1⟩
  | f32 b => exact jsonSpecial h
  | f64 b => exact jsonSpecial h

/-- **C65**: the text is JSON if and only if no value is minus infinity. -/
theorem C65_valid {j : Dict Int NpVal} (h : ∀ p ∈ j, PatternOk p.2) :
    ValidJson (jsonText j) ↔ ∀ p ∈ j, ¬ NegInf p.2 := by
  constructor
  · rintro ⟨ms, h1, h2⟩ p hp
    rw [readObject_text h] at h1
    have := Option.some.inj h1
    subst this
    exact (jsonValue_iff (valText_spec (h p hp))).mp (h2 _ (List.mem_map_of_mem hp))
  · intro hn
    refine ⟨_, readObject_text h, ?_⟩
    intro m hm
    obtain ⟨p, hp, rfl⟩ := List.mem_map.mp hm
    exact (jsonValue_iff (valText_spec (h p hp))).mpr (hn p hp)

theorem mem_foldl_set {κ α : Type} [DecidableEq κ] : ∀ (ps : List (κ × α)) (acc : Dict κ α) (x : κ × α),
    x ∈ ps.foldl (fun j p => Dict.set j p.1 p.2) acc → (∃ p ∈ ps, x.2 = p.2) ∨ x ∈ acc
  | [], _, _, h => .inr h
  | p :: ps, acc, x, h => by
    rcases mem_foldl_set ps _ x h with ⟨q, hq, e⟩ | h
    · exact .inl ⟨q, List.mem_cons_of_mem _ hq, e⟩
    · rcases mem_set_val h with h | h
      · exact .inr h
      · exact .inl ⟨p, by simp, h⟩

/-- **C65**: SQLite gets the text of the dictionary from timestamps to values, and `save` raises
exactly when this text is not JSON. -/
theorem C65_refused {d : Dataset} {keys : List Int} {vals : List NpVal}
    (hts : d.data.get? (py! "timestamp") = some (keys.map .int)) (hv : ∀ v ∈ vals, PatternOk v) :
    ∃ j, (∀ t : Int, j.get? t = ((keys.zip vals).reverse.find? fun q => decide (q.1 = t)).map (·.2)) ∧
      (ValidJson (jsonText j) → jsonOf d vals = .ok j) ∧
      (¬ ValidJson (jsonText j) → jsonOf d vals = .error .operationalError) := by
  refine ⟨(keys.zip vals).foldl (fun j p => Dict.set j p.1 p.2) [], ?_, ?_⟩
  · intro t
    rw [get?_foldl_set]
    exact Option.or_none
  have hj : ∀ p ∈ (keys.zip vals).foldl (fun j p => Dict.set j p.1 p.2) ([] : Dict Int NpVal), PatternOk p.2 := by
    intro p hp
    rcases mem_foldl_set _ _ _ hp with ⟨q, hq, e⟩ | h
    · rw [e]
      exact hv _ (List.of_mem_zip (a := q.1) (b := q.2) hq).2
    · cases h
  have e : jsonOf d vals =
      if ((keys.zip vals).foldl (fun j p => Dict.set j p.1 p.2) ([] : Dict Int NpVal)).any (fun p => isNegInf p.2)
      then .error .operationalError
      else .ok ((keys.zip vals).foldl (fun j p => Dict.set j p.1 p.2) []) := by
    unfold jsonOf dictGet
    rw [hts, ok_bind, mapM_map_ok (h := NpVal.int) (g := id) (l := keys) (fun _ _ => by rfl), List.map_id, ok_bind]
    rfl
  rw [C65_valid hj, e]
  constructor
  · intro hn
    rw [if_neg]
    intro ha
    obtain ⟨p, hp, h⟩ := List.any_eq_true.mp ha
    exact hn p hp ((isNegInf_iff (hj p hp)).mp h)
  · intro hn
    rw [if_pos]
    refine Decidable.byContradiction fun ha => hn fun p hp h => ha ?_
    exact List.any_eq_true.mpr ⟨p, hp, (isNegInf_iff (hj p hp)).mpr h⟩

theorem foldl_set_nodup {κ α : Type} [DecidableEq κ] : ∀ (ps : List (κ × α)) (acc : Dict κ α), acc.keys.Nodup →
    (Dict.keys (ps.foldl (fun j p => Dict.set j p.1 p.2) acc)).Nodup
  | [], _, h => h
  | p :: ps, acc, h => foldl_set_nodup ps _ (Dict.keys_nodup_set acc p.1 p.2 h)

theorem jsonOf_parts {d : Dataset} {vals : List NpVal} {j : Dict Int NpVal} (h : jsonOf d vals = .ok j) :
    j.keys.Nodup ∧ (∀ p ∈ j, p.2 ∈ vals) ∧ ∀ p ∈ j, isNegInf p.2 = false := by
  unfold jsonOf at h
  obtain ⟨ts, h1, h⟩ := except_bind_ok.mp h
  obtain ⟨keys, h2, h⟩ := except_bind_ok.mp h
  simp only at h
  split at h
  · cases h
  · rename_i hn
    cases h
    refine ⟨foldl_set_nodup _ _ List.nodup_nil, ?_, ?_⟩
    · intro p hp
      rcases mem_foldl_set _ _ _ hp with ⟨q, hq, e⟩ | h
      · rw [e]
        exact (List.of_mem_zip (a := q.1) (b := q.2) hq).2
      · cases h
    · intro p hp
      exact Bool.eq_false_iff.mpr fun e => hn (List.any_eq_true.mpr ⟨p, hp, e⟩)

/-- **C65**, from the file to the text: when a log read from a file is stored with `append_json=True`,
the text of every column is JSON. It has exactly one member for every timestamp of the dataset, and its
value stands for the sample of the column in the last row with this timestamp. -/
theorem C65_column_partial {fuel : Nat} {cfg : Cfg} {bs : Bytes} {u : ULog} {fault : Nat → Option PyErr} {o o' : DbObj}
    {db db' : DB} {k : Nat} (hu : load fuel cfg bs = .ok u) (ho : o.log = DbLog.ofULog u) (hr : Reach db)
    (hs : o.save fault true db = (none, db', o')) (hk : o'.pk = some k) :
    ∀ p ∈ (content db' k).datasets, ∀ r ∈ p.2, ∃ d ∈ u.dataList, ∃ f ∈ d.fields,
      p.1.name = d.name ∧ p.1.multiId = d.multiId ∧ r.name = f.name ∧
      ∃ ts vals j ms, d.data.get? (py! "timestamp") = some ts ∧ d.data.get? f.name = some vals ∧ r.json = some j ∧
        ValidJson (jsonText j) ∧ readObject (jsonText j) = some ms ∧ (ms.map (·.1)).Nodup ∧
        (∀ t : Int, ∀ v, ((ts.zip vals).reverse.find? fun q => decide (q.1 = .int t)).map (·.2) = some v →
          ∃ txt, (intDec t, txt) ∈ ms ∧ JsonOf txt v) ∧
        ∀ m ∈ ms, ∃ t : Int, ∃ v, m.1 = intDec t ∧
          ((ts.zip vals).reverse.find? fun q => decide (q.1 = .int t)).map (·.2) = some v ∧ JsonOf m.2 v := by
  obtain ⟨c, hc⟩ := save_ok hs
  rw [hc.obj] at hk
  cases hk
  rw [hc.content (reach_inv hr)]
  simp only [if_true]
  obtain ⟨row, _, _, _, h2, _⟩ := dbRows_iff.mp hc.rows
  intro p hp r hrm
  obtain ⟨d, hd, h3⟩ := mapM_mem h2 hp
  obtain ⟨x, h4, h3⟩ := except_bind_ok.mp h3
  obtain ⟨y, h5, h3⟩ := except_bind_ok.mp h3
  cases h3
  obtain ⟨f, hf, h6⟩ := mapM_mem h5 hrm
  obtain ⟨col, j, h7, h8, h9, _⟩ := fieldRow_json h6
  obtain ⟨_, _, e3, _⟩ := fieldRow_eq h6
  obtain ⟨ts, h10, h11⟩ := jsonOf_spec h8
  obtain ⟨h12, h13, h14⟩ := jsonOf_parts h8
  rw [datasetRow_eq h4]
  rw [ho] at hd
  have hd : d ∈ u.dataList := hd
  have hpat : ∀ p ∈ j, PatternOk p.2 := fun p hp => loaded_pattern hu hd h7 _ (h13 p hp)
  refine ⟨d, hd, f, hf, rfl, rfl, e3, ts, col, j, _, h10, h7, h9,
    (C65_valid hpat).mpr fun p hp hn => ?_, readObject_text hpat, ?_, ?_, ?_⟩
  · have := h14 p hp
    rw [(isNegInf_iff (hpat p hp)).mpr hn] at this
    cases this
  · rw [List.map_map]
    have : (j.map ((fun x : Str × Str => x.1) ∘ fun p : Int × NpVal => (intDec p.1, valText p.2))) =
        j.keys.map intDec := by
      unfold Dict.keys
      rw [List.map_map]
      rfl
    rw [this]
    exact List.Pairwise.map intDec (fun a b hne e => hne (intDec_inj e)) h12
  · intro t v hv
    rw [← h11] at hv
    have hm := Dict.mem_of_get? _ _ _ hv
    exact ⟨valText v, List.mem_map.mpr ⟨(t, v), hm, rfl⟩, valText_spec (hpat _ hm)⟩
  · intro m hm
    obtain ⟨q, hq, rfl⟩ := List.mem_map.mp hm
    refine ⟨q.1, q.2, rfl, ?_, valText_spec (hpat _ hq)⟩
    rw [← h11]
    exact Dict.get?_of_mem _ _ _ h12 hq

/-- the text for a tenth, a 32-bit tenth, NaN and infinities -/
example : jsonText [(110, .f64 0x3fb999999999999a), (115, .f32 0x3dcccccd), (-3, .f64 0x7ff8000000000000), (7, .f32 0x7f800000)]
      = py! "{\"110\": 0.1, \"115\": 0.10000000149011612, \"-3\": null, \"7\": null}" ∧
    jsonText [(1, .f64 0xfff0000000000000), (2, .int (-9))] = py! "{\"1\": -null, \"2\": -9}" ∧
    jsonText [] = py! "{}" := by decide +kernel

/-- and what a reader makes of it -/
example : readObject (jsonText [(110, .f64 0x3fb999999999999a), (115, .f64 0xfff8000000000000)])
    = some [(py! "110", py! "0.1"), (py! "115", py! "null")] := by decide +kernel

/-- the sample log is loaded and stored with JSON -/
example : (∃ u, load 20 {} Sample.clean = .ok u ∧ (Sample.fileObj Sample.clean).log = DbLog.ofULog u) ∧
    ((Sample.fileObj Sample.clean).save Sample.noFault true {}).1 = none :=
  ⟨⟨Sample.get (load 20 {} Sample.clean), by decide +kernel, by decide +kernel⟩, by decide +kernel⟩

end PyULog
