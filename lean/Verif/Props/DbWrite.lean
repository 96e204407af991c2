import Verif.Props.DbObject
import Verif.Lemmas.CanWrite
import Verif.Lemmas.ComesBack
/-
C66 (continued): which stored logs can be written.
-/
namespace PyULog
open Spec

/-! ### values that came out of the database -/

/-- an info value as it is written after it came from the database -/
def outInfo (ty : Str) (v : Value) : Value := (valueBack (some v)).getD (infoNone (some ty))

/-- a value of a multi info message as it is written after it came from the database -/
def outMulti (ty : Str) (v : Value) : Value := (textBack (some v)).getD (infoNone (some ty))

/-- a parameter as it is written after it came from the database -/
def outParam (v : Value) : Value := (valueBack (some v)).getD paramNone

theorem valueBack_nan {v : Value} (h : NaNValue v) : valueBack (some v) = none := by
  obtain ⟨b, rfl, h⟩ := h
  exact if_pos h

theorem textBack_nan {v : Value} (h : NaNValue v) : textBack (some v) = none := by
  obtain ⟨b, rfl, h⟩ := h
  exact if_pos h

theorem paramFits_out (k : Str) (v : Value) : ParamFits k (outParam v) ↔ ParamFits k v ∧ ¬ NaNValue v := by
  unfold outParam
  by_cases h : NaNValue v
  · rw [valueBack_nan h]
    exact ⟨fun e => e.elim, fun e => absurd h e.2⟩
  · rw [valueBack_some h]
    refine Iff.trans ?_ (Iff.symm (and_iff_left h))
    cases v with
    | bool b =>
      refine ⟨fun e => e.2, fun e => ⟨⟨_, rfl, ?_⟩, e⟩⟩
      cases b <;> decide
    | _ => exact Iff.rfl

theorem prefix_basic {ty : Str} {t : BT} (h : basicType ty = some t) : ¬ py! "char[" <+: ty ∧ ¬ py! "uint8_t[" <+: ty := by
  have key : ∀ p ∈ typeTable, ¬ py! "char[" <+: p.1 ∧ ¬ py! "uint8_t[" <+: p.1 := by decide
  unfold basicType at h
  cases hf : typeTable.find? fun p => p.1 = ty with
  | none => rw [hf] at h; cases h
  | some p =>
    have h1 := key p (List.mem_of_find?_eq_some hf)
    have h2 : p.1 = ty := by simpa using List.find?_some hf
    rw [h2] at h1
    exact h1

theorem writtenIn_char {ty : Str} (h : py! "char[" <+: ty) (v : Value) (n : Nat) :
    WrittenIn ty v n ↔ ∃ s, v = .str s ∧ n = utf8Size s := by
  unfold WrittenIn
  constructor
  · rintro (⟨_, e⟩ | ⟨e, _⟩ | ⟨t, e, _⟩)
    · exact e
    · obtain ⟨a, rfl⟩ := h
      obtain ⟨b, hb⟩ := e
      exact absurd hb (by intro e; injection e with e _; exact absurd e (by decide))
    · exact absurd h (prefix_basic e).1
  · intro e; exact .inl ⟨h, e⟩

theorem writtenIn_bytes {ty : Str} (h : py! "uint8_t[" <+: ty) (v : Value) (n : Nat) :
    WrittenIn ty v n ↔ (∃ b, v = .bytes b ∧ n = b.length) ∨ v = .str [] ∧ n = 0 := by
  unfold WrittenIn
  constructor
  · rintro (⟨e, _⟩ | ⟨_, e⟩ | ⟨t, e, _⟩)
    · obtain ⟨a, rfl⟩ := h
      obtain ⟨b, hb⟩ := e
      exact absurd hb (by intro e; injection e with e _; exact absurd e (by decide))
    · exact e
    · exact absurd h (prefix_basic e).2
  · intro e; exact .inr (.inl ⟨h, e⟩)

theorem writtenIn_basic {ty : Str} {t : BT} (h : basicType ty = some t) (v : Value) (n : Nat) :
    WrittenIn ty v n ↔ Holds t v ∧ n = width t := by
  unfold WrittenIn
  constructor
  · rintro (⟨e, _⟩ | ⟨e, _⟩ | ⟨t', e, h'⟩)
    · exact absurd e (prefix_basic h).1
    · exact absurd e (prefix_basic h).2
    · rw [h] at e; cases e; exact h'
  · intro e; exact .inr (.inr ⟨t, h, e⟩)

theorem writtenIn_type {ty : Str} {v : Value} {n : Nat} (h : WrittenIn ty v n) : WritableType ty := by
  rcases h with ⟨e, _⟩ | ⟨e, _⟩ | ⟨t, e, _⟩
  · exact .inl e
  · exact .inr (.inl e)
  · exact .inr (.inr ⟨t, e⟩)

theorem holds_backV (t : BT) (v : Value) : Holds t (backV v) ↔ Holds t v := by
  cases v with
  | bool b =>
    cases t with
    | bool => exact Iff.rfl
    | char => exact Iff.rfl
    | f32 => cases b <;> exact ⟨fun _ => trivial, fun _ => by show IntFitsFloat _; unfold IntFitsFloat; decide⟩
    | f64 =>
      refine ⟨fun _ => trivial, fun _ => ?_⟩
      show (Int.natAbs _) < (2 ^ 54 - 1) * 2 ^ 970
      have : 2 ≤ (2 ^ 54 - 1) * 2 ^ 970 := by
        rw [show (2 : Nat) = 2 * 1 from rfl]
        exact Nat.mul_le_mul (by decide) (Nat.pow_pos (by decide))
      cases b
      · exact Nat.lt_of_lt_of_le (by decide) this
      · exact Nat.lt_of_lt_of_le (by decide) this
    | _ => cases b <;> exact ⟨fun _ => trivial, fun _ => ⟨_, rfl, by decide, by decide⟩⟩
  | _ => exact Iff.rfl

theorem writtenIn_backV (ty : Str) (v : Value) (n : Nat) : WrittenIn ty (backV v) n ↔ WrittenIn ty v n := by
  unfold WrittenIn
  refine or_congr ?_ (or_congr ?_ ?_)
  · cases v <;> first | exact Iff.rfl | exact ⟨fun ⟨_, s, e, _⟩ => (by cases e), fun ⟨_, s, e, _⟩ => (by cases e)⟩
  · cases v <;> first | exact Iff.rfl | (constructor <;> (rintro ⟨_, ⟨s, e, _⟩ | ⟨e, _⟩⟩ <;> cases e))
  · simp only [holds_backV]

theorem infoFits_backV (x : Nat) (ty k : Str) (v : Value) : InfoFits x ty k (backV v) ↔ InfoFits x ty k v := by
  unfold InfoFits
  simp only [writtenIn_backV]

/-- a number of a type other than `bool` becomes something that is no number -/
theorem infoFits_outInfo {x : Nat} {ty k : Str} {v : Value} (hv : NaNValue v → ∀ t, basicType ty = some t → t ≠ .bool) :
    InfoFits x ty k (outInfo ty v) ↔ InfoFits x ty k v ∧ ¬ NaNValue v := by
  unfold outInfo
  by_cases h : NaNValue v
  · rw [valueBack_nan h]
    refine ⟨fun ⟨_, n, e, _⟩ => ?_, fun e => absurd h e.2⟩
    exfalso
    have e : WrittenIn ty (infoNone (some ty)) n := e
    rcases writtenIn_type e with hc | hb | ⟨t, ht⟩
    · obtain ⟨s, es, _⟩ := (writtenIn_char hc _ _).mp e
      have hs : startsWith (py! "char[") ty = true := List.isPrefixOf_iff_prefix.mpr hc
      unfold infoNone at es
      simp only [hs, Bool.true_or, if_true] at es
      cases es
    · have hs : startsWith (py! "uint8_t[") ty = true := List.isPrefixOf_iff_prefix.mpr hb
      unfold infoNone at e
      simp only [hs, Bool.or_true, if_true] at e
      rcases (writtenIn_bytes hb _ _).mp e with ⟨s, es, _⟩ | ⟨es, _⟩ <;> cases es
    · obtain ⟨n1, n2⟩ := prefix_basic ht
      have s1 : startsWith (py! "char[") ty = false := by
        rw [← Bool.not_eq_true]; exact fun h => n1 (List.isPrefixOf_iff_prefix.mp h)
      have s2 : startsWith (py! "uint8_t[") ty = false := by
        rw [← Bool.not_eq_true]; exact fun h => n2 (List.isPrefixOf_iff_prefix.mp h)
      unfold infoNone at e
      simp only [s1, s2, Bool.or_false, Bool.false_eq_true, if_false] at e
      have hh := ((writtenIn_basic ht _ _).mp e).1
      have hne := hv h t ht
      cases t <;> first | exact hne rfl | exact hh
  · rw [valueBack_some h]
    exact (infoFits_backV x ty k v).trans (and_iff_left h).symm

/-- a writable value of a multi info message is writable after it came from the database, unless its type is numeric -/
theorem infoFits_outMulti {x : Nat} {ty k : Str} {v : Value} (hf : InfoFits x ty k v) :
    InfoFits x ty k (outMulti ty v) ↔ ∀ t, basicType ty = some t → t = .bool ∨ t = .char := by
  obtain ⟨hk, n, hw, hn⟩ := hf
  have same : outMulti ty v = v → InfoFits x ty k (outMulti ty v) := fun e => by rw [e]; exact ⟨hk, n, hw, hn⟩
  rcases writtenIn_type hw with hc | hb | ⟨t, ht⟩
  · obtain ⟨s, rfl, _⟩ := (writtenIn_char hc _ _).mp hw
    exact ⟨fun _ t ht => absurd hc (prefix_basic ht).1, fun _ => same rfl⟩
  · refine ⟨fun _ t ht => absurd hb (prefix_basic ht).2, fun _ => same ?_⟩
    rcases (writtenIn_bytes hb _ _).mp hw with ⟨b, rfl, _⟩ | ⟨rfl, _⟩ <;> rfl
  · have hh := ((writtenIn_basic ht _ _).mp hw).1
    have hwid := ((writtenIn_basic ht _ _).mp hw).2
    constructor
    · rintro ⟨_, m, e, _⟩ t' ht'
      rw [ht] at ht'
      cases ht'
      have hm : Holds t (outMulti ty v) := ((writtenIn_basic ht _ _).mp e).1
      have hnum : t ≠ .bool → t ≠ .char → ∃ s, outMulti ty v = .str s := by
        intro h1 h2
        obtain ⟨n1, n2⟩ := prefix_basic ht
        have s1 : startsWith (py! "char[") ty = false := by
          rw [← Bool.not_eq_true]; exact fun h => n1 (List.isPrefixOf_iff_prefix.mp h)
        have s2 : startsWith (py! "uint8_t[") ty = false := by
          rw [← Bool.not_eq_true]; exact fun h => n2 (List.isPrefixOf_iff_prefix.mp h)
        unfold outMulti
        by_cases hn : NaNValue v
        · rw [textBack_nan hn]
          refine ⟨[], ?_⟩
          show infoNone (some ty) = _
          unfold infoNone
          simp only [s1, s2, Bool.or_false, Bool.false_eq_true, if_false]
        · rw [textBack_some hn]
          cases v with
          | bytes b => cases t <;> first | exact absurd rfl h1 | exact absurd rfl h2 | exact hh.elim
          | _ => exact ⟨_, rfl⟩
      by_cases h1 : t = .bool
      · exact .inl h1
      · by_cases h2 : t = .char
        · exact .inr h2
        · obtain ⟨s, hs⟩ := hnum h1 h2
          rw [hs] at hm
          cases t <;> first | exact absurd rfl h1 | exact absurd rfl h2 | exact hm.elim
    · intro h
      rcases h t ht with rfl | rfl
      · exact ⟨hk, _, (writtenIn_basic ht _ _).mpr ⟨trivial, rfl⟩, by rw [← hwid]; exact hn⟩
      · apply same
        cases v with
        | bytes b => rfl
        | _ => exact hh.elim

/-! ### the theorem -/

theorem nan_type {ty : Str} {v : Value} (h : WritableType ty → ValueFits ty v) (hn : NaNValue v) :
    ∀ t, basicType ty = some t → t ≠ .bool := by
  intro t ht e
  subst e
  obtain ⟨b, rfl, _⟩ := hn
  rcases h (.inr (.inr ⟨_, ht⟩)) with ⟨_, s, e⟩ | ⟨_, _, s, e⟩ | ⟨t, b', ht', e⟩
  · cases e
  · cases e
  · rw [ht] at ht'
    cases ht'
    unfold unpackScalar at e
    split at e <;> cases e

/-- The log of a file that can be written can still be written after it was saved and loaded eagerly if and only
if no info value and no parameter of it is NaN and no multi info message has a number type (`bool` and `char` are
none). -/
theorem C66_writable_partial {H : Bytes → Str} {fuel : Nat} {cfg : Cfg} {fault : Nat → Option PyErr}
    {json lazy : Bool} {o o' : DbObj} {db db' db'' : DB} {k : Nat} {bs : Bytes} {u : ULog} (hr : Reach db)
    (ho : construct H fuel cfg db none (some (.name bs)) lazy = .ok o) (hu : load fuel cfg bs = .ok u)
    (hs : o.save fault json db = (none, db', o')) (hk : o'.pk = some k) (hl : Later db' db'')
    (hm : k ∈ db''.ulog.map (·.1)) (hw : ∃ b, writeUlog u = .ok b) :
    ∃ r, construct H fuel cfg db'' (some k) none false = .ok r ∧
      ((∃ b, r.writeUlog = .ok b) ↔
        (∀ p ∈ u.info, ¬ NaNValue p.2) ∧ (∀ p ∈ u.initialParams, ¬ NaNValue p.2) ∧
        (∀ p ∈ u.defaultParams, ∀ q ∈ p.2, ¬ NaNValue q.2) ∧ (∀ p ∈ u.changedParams, ¬ NaNValue p.2.2) ∧
        ∀ p ∈ u.infoMultiTypes, ∀ t, basicType p.2 = some t → t = .bool ∨ t = .char) := by
  obtain ⟨u', hu', hlog, _, _, _⟩ := construct_file ho
  rw [hu] at hu'
  cases hu'
  have hreg : Regular o.log := by rw [hlog]; exact load_regular hu (save_named hu hlog hs)
  refine ⟨_, C38_loads_stored H fuel cfg hr hreg hs hk hl hm, ?_⟩
  show (∃ b, writeUlog (fromDb o.log).noNone = .ok b) ↔ _
  rw [hlog]
  have hplain := load_plain hu
  have hreg' := load_regular hu (save_named hu hlog hs)
  obtain ⟨w1, w2, w3, w4, w5, w6, w7, w8, w9⟩ := (writeUlog_parts u).mp hw
  rw [writeData_parts] at w9
  obtain ⟨d1, d2, d3, d4, d5⟩ := w9
  have g4 := (writeInfos_iff u).mp w4
  have g5 := (writeInfoMulti_iff u).mp w5
  have g6 := (writeInitial_iff u).mp w6
  have g7 := (writeDefault_iff u).mp w7
  have g9 : ∀ p ∈ u.changedParams, ParamFits p.2.1 p.2.2 := fun p hp =>
    (changedItem_iff p).mp (mapM_can.mp d5 p hp)
  have i4 : (∃ b, writeInfos (fromDb (DbLog.ofULog u)).noNone = .ok b) ↔ ∀ p ∈ u.info, ¬ NaNValue p.2 := by
    rw [writeInfos_iff]
    show (∀ p ∈ ((u.info.mapVals some).map fun p => (p.1, valueBack p.2)).map
      (fun p => (p.1, p.2.getD (infoNone (u.infoTypes.get? p.1)))), ∃ ty, u.infoTypes.get? p.1 = some ty ∧ _) ↔ _
    unfold Dict.mapVals
    rw [List.map_map, List.map_map, List.forall_mem_map]
    refine forall_congr' fun p => forall_congr' fun hp => ?_
    obtain ⟨ty, ht, hfit⟩ := g4 p hp
    obtain ⟨ty', ht', hval⟩ := hplain.info p.1 p.2 (Dict.get?_of_mem _ _ _ (load_dicts hu).info hp)
    rw [ht] at ht'
    cases ht'
    show (∃ ty, u.infoTypes.get? p.1 = some ty ∧
      InfoFits 0 ty p.1 ((valueBack (some p.2)).getD (infoNone (u.infoTypes.get? p.1)))) ↔ _
    rw [ht]
    constructor
    · rintro ⟨_, e', e⟩
      cases e'
      exact ((infoFits_outInfo (nan_type hval)).mp e).2
    · intro e
      exact ⟨ty, rfl, (infoFits_outInfo (nan_type hval)).mpr ⟨hfit, e⟩⟩
  have i5 : (∃ b, writeInfoMulti (fromDb (DbLog.ofULog u)).noNone = .ok b) ↔
      ∀ p ∈ u.infoMultiTypes, ∀ t, basicType p.2 = some t → t = .bool ∨ t = .char := by
    rw [writeInfoMulti_iff]
    show (∀ p ∈ ((u.infoMulti.mapVals (List.map (List.map some))).map fun p => (p.1, p.2.map (List.map textBack))).map
      (fun p => (p.1, p.2.map (List.map fun v => v.getD (infoNone (u.infoMultiTypes.get? p.1))))),
        ∃ ty, u.infoMultiTypes.get? p.1 = some ty ∧ _) ↔ _
    unfold Dict.mapVals
    rw [List.map_map, List.map_map, List.forall_mem_map]
    have each : ∀ p ∈ u.infoMulti, ∀ ty, u.infoMultiTypes.get? p.1 = some ty →
        ((∀ s ∈ (((p.2.map (List.map some)).map (List.map textBack)).map
          (List.map fun v => v.getD (infoNone (some ty)))), ∀ v ∈ s, InfoFits 1 ty p.1 v) ↔
          ∀ t, basicType ty = some t → t = .bool ∨ t = .char) := by
      intro p hp ty hty
      obtain ⟨ty', hty', hfit⟩ := g5 p hp
      rw [hty] at hty'
      cases hty'
      rw [List.map_map, List.map_map, List.forall_mem_map]
      have inner : ∀ s ∈ p.2, (∀ v ∈ (((s.map some).map textBack).map fun v => v.getD (infoNone (some ty))),
          InfoFits 1 ty p.1 v) ↔ ∀ v ∈ s, ∀ t, basicType ty = some t → t = .bool ∨ t = .char := by
        intro s hs
        rw [List.map_map, List.map_map, List.forall_mem_map]
        exact forall_congr' fun v => forall_congr' fun hv => infoFits_outMulti (hfit s hs v hv)
      constructor
      · intro h
        obtain ⟨hne, hne'⟩ := hplain.multi p hp
        obtain ⟨s, hs⟩ := List.exists_mem_of_ne_nil _ hne
        obtain ⟨v, hv⟩ := List.exists_mem_of_ne_nil _ (hne' s hs)
        exact (inner s hs).mp (h s hs) v hv
      · intro h s hs
        exact (inner s hs).mpr fun _ _ => h
    constructor
    · intro h q hq
      have hmem : q.1 ∈ u.infoMulti.map (·.1) := by
        have : u.infoMultiTypes.map (·.1) = u.infoMulti.map (·.1) := (load_aligned hu).multiTypes
        rw [← this]
        exact List.mem_map_of_mem hq
      obtain ⟨p, hp, hpq⟩ := List.mem_map.mp hmem
      have hty : u.infoMultiTypes.get? p.1 = some q.2 := by
        rw [hpq]
        exact Dict.get?_of_mem _ _ _ (load_dicts hu).infoMultiTypes hq
      obtain ⟨ty, h1, h2⟩ := h p hp
      have h1 : u.infoMultiTypes.get? p.1 = some ty := h1
      rw [hty] at h1
      cases h1
      refine (each p hp _ hty).mp ?_
      rw [← hty]
      exact h2
    · intro h p hp
      obtain ⟨ty, hty, _⟩ := g5 p hp
      refine ⟨ty, hty, ?_⟩
      have := (each p hp _ hty).mpr (h _ (Dict.mem_of_get? _ _ _ hty))
      rw [← hty] at this
      exact this
  have i6 : (∃ b, writeInitialParams (fromDb (DbLog.ofULog u)).noNone = .ok b) ↔ ∀ p ∈ u.initialParams, ¬ NaNValue p.2 := by
    rw [writeInitial_iff]
    show (∀ p ∈ Dict.mapVals (·.getD paramNone) ((u.initialParams.mapVals some).map fun p => (p.1, valueBack p.2)), _) ↔ _
    unfold Dict.mapVals
    rw [List.map_map, List.map_map, List.forall_mem_map]
    refine forall_congr' fun p => forall_congr' fun hp => ?_
    exact (paramFits_out p.1 p.2).trans (and_iff_right (g6 p hp))
  have i7 : (∃ b, writeDefaultParams (fromDb (DbLog.ofULog u)).noNone = .ok b) ↔
      ∀ p ∈ u.defaultParams, ∀ q ∈ p.2, ¬ NaNValue q.2 := by
    rw [writeDefault_iff]
    show (∀ p ∈ Dict.mapVals (Dict.mapVals (·.getD paramNone)) ((u.defaultParams.mapVals (Dict.mapVals some)).map fun p =>
      (p.1, p.2.map fun q => (q.1, valueBack q.2))), _) ↔ _
    unfold Dict.mapVals
    rw [List.map_map, List.map_map, List.forall_mem_map]
    refine forall_congr' fun p => forall_congr' fun hp => ?_
    show (∀ q ∈ (((p.2.map fun q => (q.1, some q.2)).map fun q => (q.1, valueBack q.2)).map fun q =>
      (q.1, q.2.getD paramNone)), p.1 < 8 ∧ ParamFits q.1 q.2) ↔ _
    rw [List.map_map, List.map_map, List.forall_mem_map]
    refine forall_congr' fun q => forall_congr' fun hq => ?_
    obtain ⟨h8, hfit⟩ := g7 p hp q hq
    exact ⟨fun e => ((paramFits_out q.1 q.2).mp e.2).2, fun e => ⟨h8, (paramFits_out q.1 q.2).mpr ⟨hfit, e⟩⟩⟩
  have i9 : (∃ b, writeDataSection (fromDb (DbLog.ofULog u)).noNone = .ok b) ↔ ∀ p ∈ u.changedParams, ¬ NaNValue p.2.2 := by
    rw [writeData_parts]
    refine Iff.trans ⟨fun e => e.2.2.2.2, fun e => ⟨d1, d2, d3, d4, e⟩⟩ ?_
    rw [mapM_can]
    show (∀ p ∈ ((u.changedParams.map fun p => (p.1, p.2.1, some p.2.2)).map fun p => (p.1, p.2.1, valueBack p.2.2)).map
      (fun p => (p.1, p.2.1, p.2.2.getD paramNone)), _) ↔ _
    rw [List.map_map, List.map_map, List.forall_mem_map]
    refine forall_congr' fun p => forall_congr' fun hp => ?_
    rw [changedItem_iff]
    exact (paramFits_out p.2.1 p.2.2).trans (and_iff_right (g9 p hp))
  have i3 : ∃ b, writeFormats (fromDb (DbLog.ofULog u)).noNone = .ok b :=
    (writeFormats_iff _).mpr fun p hp => (writeFormats_iff u).mp w3 p (List.mem_filter.mp hp).1
  rw [writeUlog_parts, i4, i5, i6, i7, i9]
  constructor
  · rintro ⟨-, -, -, a, b, c, d, -, e⟩
    exact ⟨a, c, d, e, b⟩
  · rintro ⟨a, c, d, e, b⟩
    exact ⟨w1, w2, i3, a, b, c, d, w8, e⟩

/-! ### concrete cases -/

deriving instance DecidableEq for Except

/-- a file with the parameter NaN -/
def Sample.nanParam : Bytes := header ++ encMsgs [(tyP, kv (py! "float A") (leEnc 4 0x7FC00000))]

/-- a file with the multi info message `False` -/
def Sample.multiFalse : Bytes := header ++ encMsgs [(tyM, 0 :: kv (py! "bool m") [0])]

/-- the log of a file, written -/
def Sample.direct (f : Bytes) : Except PyErr Bytes := writeUlog (Sample.get (load 20 {} f))

/-- the log of a file, saved to a new database, loaded eagerly and written -/
def Sample.stored (f : Bytes) : Except PyErr Bytes :=
  match (fileObj f).save noFault false {} with
  | (none, db, o) => match construct hash 20 {} db o.pk none false with
    | .ok r => r.writeUlog
    | _ => .error .unmodelled
  | _ => .error .unmodelled

/-- The four cases: written as the log itself; with a number among the multi info messages or a parameter NaN the
stored log cannot be written, with different exceptions; `False` among the multi info messages is written as
`True`. -/
theorem C66_violated :
    ((Sample.direct Sample.clean).toOption.isSome ∧
      (Sample.stored Sample.clean).toOption = (Sample.direct Sample.clean).toOption) ∧
    ((Sample.direct Sample.multiNumber).toOption.isSome ∧ Sample.stored Sample.multiNumber = .error .structError) ∧
    ((Sample.direct Sample.nanParam).toOption.isSome ∧ Sample.stored Sample.nanParam = .error .typeError) ∧
    ∃ b, Sample.direct Sample.multiFalse = .ok (b ++ [0]) ∧ Sample.stored Sample.multiFalse = .ok (b ++ [1]) := by
  refine ⟨by decide +kernel, by decide +kernel, by decide +kernel, ?_⟩
  refine ⟨(((Sample.direct Sample.multiFalse).toOption).getD []).dropLast, by decide +kernel, by decide +kernel⟩

/-- the value is no floating point number -/
def Sample.noFloat : Value → Bool
  | .float _ => false
  | _ => true

/-- the sample log meets the hypotheses of `C66_writable_partial` -/
example : ∃ r, construct Sample.hash 20 {} Sample.db2 (some 1) none false = .ok r ∧ ∃ b, r.writeUlog = .ok b := by
  have hw : ∃ b, writeUlog (Sample.get (load 20 {} Sample.clean)) = .ok b := by
    have h : (Sample.direct Sample.clean).toOption.isSome = true := C66_violated.1.1
    cases hd : Sample.direct Sample.clean with
    | ok b => exact ⟨b, hd⟩
    | error e => rw [hd] at h; cases h
  obtain ⟨r, h1, h2⟩ := C66_writable_partial (.refl _) Sample.con_clean Sample.load_clean Sample.save1 rfl
    Sample.later12 (by decide +kernel) hw
  refine ⟨r, h1, h2.mpr ?_⟩
  have hn : ∀ v : Value, Sample.noFloat v = true → ¬ NaNValue v := by
    rintro v hv ⟨b, rfl, _⟩
    cases hv
  have key : (∀ p ∈ (Sample.get (load 20 {} Sample.clean)).info, Sample.noFloat p.2 = true) ∧
      (∀ p ∈ (Sample.get (load 20 {} Sample.clean)).initialParams, Sample.noFloat p.2 = true) ∧
      (∀ p ∈ (Sample.get (load 20 {} Sample.clean)).defaultParams, ∀ q ∈ p.2, Sample.noFloat q.2 = true) ∧
      (∀ p ∈ (Sample.get (load 20 {} Sample.clean)).changedParams, Sample.noFloat p.2.2 = true) ∧
      ∀ p ∈ (Sample.get (load 20 {} Sample.clean)).infoMultiTypes, basicType p.2 = none := by decide +kernel
  exact ⟨fun p hp => hn _ (key.1 p hp), fun p hp => hn _ (key.2.1 p hp), fun p hp q hq => hn _ (key.2.2.1 p hp q hq),
    fun p hp => hn _ (key.2.2.2.1 p hp), fun p hp t ht => by rw [key.2.2.2.2 p hp] at ht; cases ht⟩

end PyULog
