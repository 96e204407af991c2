import Verif.Spec.RoundTrip
import Verif.Props.Writer
import Verif.Props.Framing
import Verif.Lemmas.Decimal
/-
Reading back the definition section of a written log, part by part.
-/
namespace PyULog
open Spec

/-- the bytes are messages of the definition section that take the log `v` to `g v` -/
def Defines (cfg : Cfg) (b : Bytes) (g : ULog → ULog) : Prop :=
  ∃ ms, b = encMsgs ms ∧ (∀ m ∈ ms, DefFrame m) ∧ ∀ v, runDefs cfg ms v = .done (g v)

theorem runDefs_append (cfg : Cfg) (a b : List (Nat × Bytes)) (v w : ULog)
    (h : runDefs cfg a v = .done w) : runDefs cfg (a ++ b) v = runDefs cfg b w := by
  induction a generalizing v with
  | nil => cases h; rfl
  | cons m a ih =>
    simp only [List.cons_append, runDefs] at h ⊢
    split at h
    · exact ih _ h
    · exact ih _ h
    · exact ih _ h
    · cases h

theorem Defines.nil (cfg : Cfg) : Defines cfg [] id := ⟨[], rfl, by simp, fun _ => rfl⟩

theorem Defines.append {cfg : Cfg} {a b : Bytes} {f g : ULog → ULog} (h1 : Defines cfg a f)
    (h2 : Defines cfg b g) : Defines cfg (a ++ b) (fun v => g (f v)) := by
  obtain ⟨ms, e1, f1, r1⟩ := h1
  obtain ⟨ns, e2, f2, r2⟩ := h2
  refine ⟨ms ++ ns, by rw [encMsgs_append, e1, e2], ?_, ?_⟩
  · intro m hm
    rcases List.mem_append.mp hm with hm | hm
    · exact f1 m hm
    · exact f2 m hm
  · intro v
    rw [runDefs_append _ _ _ _ _ (r1 v), r2]

theorem Defines.concat {α : Type} {cfg : Cfg} {f : α → Except PyErr Bytes} {g : ULog → α → ULog}
    {l : List α} {b : Bytes} (h : ∀ x ∈ l, ∀ b, f x = .ok b → Defines cfg b (fun v => g v x))
    (hb : concatM (l.map f) = .ok b) : Defines cfg b (fun v => l.foldl g v) := by
  induction l generalizing b with
  | nil => injection hb with hb; subst hb; exact Defines.nil cfg
  | cons x l ih =>
    rw [List.map_cons, concatM_cons_ok] at hb
    obtain ⟨a, r, h1, h2, rfl⟩ := hb
    exact (h x (List.mem_cons_self ..) a h1).append
      (ih (fun y hy => h y (List.mem_cons_of_mem _ hy)) h2)

theorem Defines.one {cfg : Cfg} {ty : Nat} {d b : Bytes} {g : ULog → ULog} (hty : isPureDefType ty)
    (hf : frame ty d = .ok b) (h : ∀ v, handleDef cfg v ty d = some (.ok (g v))) :
    Defines cfg b g := by
  obtain ⟨h1, h2, h3⟩ := (frame_ok_iff _ _ _).mp hf
  refine ⟨[(ty, d)], by simp [encMsgs, h3], ?_, ?_⟩
  · intro m hm
    rw [List.mem_singleton] at hm
    subst hm
    exact ⟨⟨h1, h2⟩, Or.inl hty⟩
  · intro v
    simp only [runDefs, h v]

/-! ### info messages -/

theorem infoOk_of {ty : Str} {v : Value} (h : ValueFits ty v) : InfoOk ty v := by
  unfold InfoOk
  have hsw : ∀ p : Str, startsWith p ty = true ↔ p <+: ty := fun p => by simp [startsWith]
  have hb : ∀ t, basicType ty = some t → ∀ p ∈ [py! "char[", py! "uint8_t["], ¬ p <+: ty := by
    intro t ht p hp hpre
    unfold basicType at ht
    rw [Option.map_eq_some_iff] at ht
    obtain ⟨q, hq, _⟩ := ht
    have h1 := List.find?_some hq
    have h2 := List.mem_of_find?_eq_some hq
    simp only [decide_eq_true_eq] at h1
    subst h1
    have : ∀ q ∈ typeTable, ∀ p ∈ [py! "char[", py! "uint8_t["], ¬ p <+: q.1 := by decide
    exact this q h2 p hp hpre
  rcases h with ⟨h1, h2⟩ | ⟨h1, h2, h3⟩ | ⟨t, b, h1, h2⟩
  · rw [if_pos ((hsw _).mpr h1)]; exact h2
  · rw [if_neg (fun h => h1 ((hsw _).mp h)), if_pos ((hsw _).mpr h2)]; exact h3
  · rw [if_neg (fun h => hb t h1 _ (by simp) ((hsw _).mp h)),
      if_neg (fun h => hb t h1 _ (by simp) ((hsw _).mp h))]
    exact ⟨t, b, by rw [← basicType_eq]; exact h1, h2⟩

theorem infoData_read (ign : Bool) {ty k : Str} {v : Value} {d : Bytes} {c : Option Bool}
    (h1 : ' ' ∉ ty) (h2 : ' ' ∉ k) (hv : InfoOk ty v)
    (h : infoData (typeKey ty k) v ty c = .ok d) :
    ∃ d', d = contBytes c ++ d' ∧
      parseInfo ign d' = .ok { cont := 0, type := ty, key := k, value := v } := by
  obtain ⟨hl, vb, h3, h4⟩ := infoData_ok_iff.mp h
  obtain ⟨b, h5, h6⟩ := infoValue_roundtrip ign hv
  rw [h5] at h3
  injection h3 with h3
  subst h3
  exact ⟨_, h4, parseInfo_payload ign h1 h2 hl h6⟩

/-! ### dictionaries -/

theorem dict_eq_map {κ α : Type} [DecidableEq κ] {d : Dict κ α} (h : (d.map (·.1)).Nodup)
    (f : κ → α) (hf : ∀ k v, d.get? k = some v → f k = v) : d = (d.map (·.1)).map fun k => (k, f k) := by
  rw [List.map_map]
  conv => lhs; rw [← List.map_id d]
  apply List.map_congr_left
  intro p hp
  show p = (p.1, f p.1)
  rw [hf p.1 p.2 (Dict.get?_of_mem _ _ _ h hp)]

/-- setting fresh keys one after the other appends them -/
theorem foldl_set_map {κ α β : Type} [DecidableEq κ] (f : β → α) (key : β → κ) (l : List β)
    (d : Dict κ α) (hn : (l.map key).Nodup) (hd : ∀ b ∈ l, key b ∉ d.map (·.1)) :
    l.foldl (fun d b => Dict.set d (key b) (f b)) d = d ++ l.map fun b => (key b, f b) := by
  induction l generalizing d with
  | nil => simp
  | cons b l ih =>
    rw [List.map_cons, List.nodup_cons] at hn
    rw [List.foldl_cons, Dict.set_of_not_mem d (key b) (f b) (hd b (List.mem_cons_self ..)),
      ih _ hn.2 ?_, List.map_cons, List.append_assoc]
    · rfl
    · intro c hc
      rw [List.map_append, List.mem_append, not_or]
      refine ⟨hd c (List.mem_cons_of_mem _ hc), ?_⟩
      simp only [List.map_cons, List.map_nil, List.mem_singleton]
      intro e
      exact hn.1 (e ▸ List.mem_map_of_mem hc)

theorem set_get_self {κ α : Type} [DecidableEq κ] {d : Dict κ α} {k : κ} {v : α}
    (h : d.get? k = some v) : d.set k v = d := by
  induction d with
  | nil => cases h
  | cons p d ih =>
    obtain ⟨k', v'⟩ := p
    rw [Dict.get?_cons] at h
    unfold Dict.set
    split
    · rename_i e
      rw [if_pos e] at h
      injection h with h
      rw [h]
    · rename_i e
      rw [if_neg e] at h
      rw [ih h]

theorem set_append_last {κ α : Type} [DecidableEq κ] {d : Dict κ α} {k : κ} {v w : α}
    (h : k ∉ d.map (·.1)) : Dict.set (d ++ [(k, v)]) k w = d ++ [(k, w)] := by
  induction d with
  | nil => simp [Dict.set]
  | cons p d ih =>
    obtain ⟨k', v'⟩ := p
    rw [List.map_cons, List.mem_cons, not_or] at h
    simp only [List.cons_append, Dict.set]
    rw [if_neg (fun e => h.1 e.symm), ih h.2]

theorem set_set {κ α : Type} [DecidableEq κ] (d : Dict κ α) (k : κ) (v w : α) :
    (d.set k v).set k w = d.set k w := by
  induction d with
  | nil => simp [Dict.set]
  | cons p d ih =>
    obtain ⟨k', v'⟩ := p
    by_cases e : k' = k
    · simp [Dict.set, e]
    · simp [Dict.set, e, ih]

/-! ### info -/

/-- type registered for a key -/
def typeOf (d : Dict Str Str) (k : Str) : Str := (d.get? k).getD []

theorem writeInfos_defines {cfg : Cfg} {u : ULog} {b : Bytes}
    (hok : ∀ p ∈ u.info, ∀ ty, (p.1, ty) ∈ u.infoTypes → Plain p.1 ∧ Plain ty ∧ ValueFits ty p.2)
    (h : writeInfos u = .ok b) :
    Defines cfg b (fun v => u.info.foldl (fun v p =>
      addInfo v { cont := 0, type := typeOf u.infoTypes p.1, key := p.1, value := p.2 }) v) := by
  unfold writeInfos at h
  refine Defines.concat ?_ h
  rintro ⟨k, x⟩ hx b hb
  simp only at hb
  cases hty : u.infoTypes.get? k with
  | none => rw [hty] at hb; cases hb
  | some ty =>
    rw [hty] at hb
    obtain ⟨d, h1, h2⟩ := except_bind_ok.mp hb
    obtain ⟨p1, p2, p3⟩ := hok (k, x) hx ty (Dict.mem_of_get? _ _ _ hty)
    obtain ⟨d', e, h3⟩ := infoData_read cfg.ign p2 p1 (infoOk_of p3) h1
    have e : d = d' := e
    subst e
    refine Defines.one (by decide) h2 ?_
    intro v
    rw [handleDef_I, h3]
    simp only [typeOf, hty]
    rfl

theorem foldl_addInfo {tys : Dict Str Str} (l : List (Str × Value)) (v : ULog) :
    l.foldl (fun v p =>
      addInfo v { cont := 0, type := typeOf tys p.1, key := p.1, value := p.2 }) v
    = { v with
        info := l.foldl (fun d p => Dict.set d p.1 p.2) v.info
        infoTypes := l.foldl (fun d p => Dict.set d p.1 (typeOf tys p.1)) v.infoTypes } := by
  induction l generalizing v with
  | nil => rfl
  | cons p l ih => rw [List.foldl_cons, ih]; rfl

/-! ### multi-part info -/

/-- the messages of one value set -/
def setMsgs (key ty : Str) : Bool → List Value → List InfoMsg
  | _, [] => []
  | c, v :: vs => { cont := if c then 1 else 0, type := ty, key := key, value := v } :: setMsgs key ty true vs

theorem parseInfoMulti_payload {ign c : Bool} {d : Bytes} {m : InfoMsg} (h : parseInfo ign d = .ok m) :
    parseInfoMulti ign (contBytes (some c) ++ d) = .ok { m with cont := if c then 1 else 0 } := by
  unfold parseInfoMulti
  have e1 : slice 0 1 (contBytes (some c) ++ d) = leEnc 1 (if c then 1 else 0) := by
    rw [slice_zero, List.take_left' (by simp [contBytes])]; rfl
  have e2 : (contBytes (some c) ++ d).drop 1 = d := List.drop_left' (by simp [contBytes])
  rw [e1, e2, unpackU_leEnc (by split <;> decide), h]
  rfl

theorem writeValueSet_defines {cfg : Cfg} {k ty : Str} {c : Bool} {vs : List Value} {b : Bytes}
    (h1 : Plain k) (h2 : Plain ty) (hv : ∀ v ∈ vs, ValueFits ty v)
    (h : writeValueSet (typeKey ty k) ty c vs = .ok b) :
    Defines cfg b (fun v => (setMsgs k ty c vs).foldl addInfoMulti v) := by
  induction vs generalizing c b with
  | nil => injection h with h; subst h; exact Defines.nil cfg
  | cons x vs ih =>
    unfold writeValueSet at h
    obtain ⟨d, g1, h⟩ := except_bind_ok.mp h
    obtain ⟨m, g2, h⟩ := except_bind_ok.mp h
    obtain ⟨r, g3, h⟩ := except_bind_ok.mp h
    injection h with h
    subst h
    obtain ⟨d', e, g4⟩ := infoData_read cfg.ign h2 h1 (infoOk_of (hv x (List.mem_cons_self ..))) g1
    subst e
    refine Defines.append (f := fun v => addInfoMulti v
      { cont := if c then 1 else 0, type := ty, key := k, value := x }) (Defines.one (by decide) g2 ?_)
      (ih (fun v hv' => hv v (List.mem_cons_of_mem _ hv')) g3)
    intro v
    rw [handleDef_M, parseInfoMulti_payload g4]
    rfl

theorem writeInfoMulti_defines {cfg : Cfg} {u : ULog} {b : Bytes}
    (hok : ∀ p ∈ u.infoMulti, ∀ ty, (p.1, ty) ∈ u.infoMultiTypes →
      Plain p.1 ∧ Plain ty ∧ p.2 ≠ [] ∧ ∀ s ∈ p.2, s ≠ [] ∧ ∀ v ∈ s, ValueFits ty v)
    (h : writeInfoMulti u = .ok b) :
    Defines cfg b (fun v => u.infoMulti.foldl (fun v p => p.2.foldl (fun v s =>
      (setMsgs p.1 (typeOf u.infoMultiTypes p.1) false s).foldl addInfoMulti v) v) v) := by
  unfold writeInfoMulti at h
  refine Defines.concat ?_ h
  rintro ⟨k, sets⟩ hx b hb
  simp only at hb
  cases hty : u.infoMultiTypes.get? k with
  | none => rw [hty] at hb; cases hb
  | some ty =>
    rw [hty] at hb
    obtain ⟨p1, p2, _, p3⟩ := hok (k, sets) hx ty (Dict.mem_of_get? _ _ _ hty)
    have ety : typeOf u.infoMultiTypes k = ty := by simp [typeOf, hty]
    simp only [ety]
    refine Defines.concat ?_ hb
    intro s hs b hb
    exact writeValueSet_defines p1 p2 (p3 s hs).2 hb

theorem foldl_setMsgs_true {k ty : Str} (vs : List Value) (v : ULog) (L : List (List Value))
    (s : List Value) (h : v.infoMulti.get? k = some (L ++ [s])) :
    (setMsgs k ty true vs).foldl addInfoMulti v
      = { v with infoMulti := v.infoMulti.set k (L ++ [s ++ vs]) } := by
  induction vs generalizing v s with
  | nil =>
    simp only [setMsgs, List.foldl_nil, List.append_nil]
    rw [set_get_self h]
  | cons x vs ih =>
    rw [setMsgs, List.foldl_cons]
    have e : addInfoMulti v { cont := if true = true then 1 else 0, type := ty, key := k, value := x }
        = { v with infoMulti := v.infoMulti.set k (L ++ [s ++ [x]]) } := by
      unfold addInfoMulti
      rw [h]
      simp
    rw [e, ih _ (s ++ [x]) (by simp)]
    simp [set_set]

theorem foldl_setMsgs {k ty : Str} (s : List Value) (hs : s ≠ []) (v : ULog) :
    (setMsgs k ty false s).foldl addInfoMulti v
      = { v with
          infoMulti := v.infoMulti.set k ((v.infoMulti.get? k).getD [] ++ [s])
          infoMultiTypes := if v.infoMulti.get? k = none then v.infoMultiTypes.set k ty
            else v.infoMultiTypes } := by
  cases s with
  | nil => exact absurd rfl hs
  | cons x vs =>
    simp only [setMsgs, List.foldl_cons]
    cases hg : v.infoMulti.get? k with
    | none =>
      have e : addInfoMulti v { cont := if false = true then 1 else 0, type := ty, key := k, value := x }
          = { v with
              infoMulti := v.infoMulti.set k [[x]]
              infoMultiTypes := v.infoMultiTypes.set k ty } := by
        unfold addInfoMulti
        rw [hg]
      rw [e, foldl_setMsgs_true vs _ [] [x] (by simp)]
      simp [set_set]
    | some L =>
      have e : addInfoMulti v { cont := if false = true then 1 else 0, type := ty, key := k, value := x }
          = { v with infoMulti := v.infoMulti.set k (L ++ [[x]]) } := by
        unfold addInfoMulti
        rw [hg]
        simp
      rw [e, foldl_setMsgs_true vs _ L [x] (by simp)]
      simp [set_set]

theorem foldl_sets {k ty : Str} (sets : List (List Value)) (hs : ∀ s ∈ sets, s ≠ []) (v : ULog)
    (L : List (List Value)) (hg : v.infoMulti.get? k = some L) :
    sets.foldl (fun v s => (setMsgs k ty false s).foldl addInfoMulti v) v
      = { v with infoMulti := v.infoMulti.set k (L ++ sets) } := by
  induction sets generalizing v L with
  | nil => simp [set_get_self hg]
  | cons s sets ih =>
    rw [List.foldl_cons, foldl_setMsgs s (hs s (List.mem_cons_self ..)), hg]
    rw [ih (fun s h => hs s (List.mem_cons_of_mem _ h)) _ (L ++ [s]) (by simp)]
    simp [set_set]

theorem foldl_sets_new {k ty : Str} (sets : List (List Value)) (hne : sets ≠ [])
    (hs : ∀ s ∈ sets, s ≠ []) (v : ULog) (hg : v.infoMulti.get? k = none) :
    sets.foldl (fun v s => (setMsgs k ty false s).foldl addInfoMulti v) v
      = { v with
          infoMulti := v.infoMulti.set k sets
          infoMultiTypes := v.infoMultiTypes.set k ty } := by
  cases sets with
  | nil => exact absurd rfl hne
  | cons s sets =>
    rw [List.foldl_cons, foldl_setMsgs s (hs s (List.mem_cons_self ..)), hg,
      foldl_sets sets (fun s h => hs s (List.mem_cons_of_mem _ h)) _ [s] (by simp)]
    simp [set_set]

theorem foldl_multi {tys : Dict Str Str} (l : List (Str × List (List Value))) (v : ULog)
    (hn : (l.map (·.1)).Nodup) (hd : ∀ p ∈ l, p.1 ∉ v.infoMulti.map (·.1))
    (hok : ∀ p ∈ l, p.2 ≠ [] ∧ ∀ s ∈ p.2, s ≠ []) :
    l.foldl (fun v p => p.2.foldl (fun v s =>
      (setMsgs p.1 (typeOf tys p.1) false s).foldl addInfoMulti v) v) v
    = { v with
        infoMulti := l.foldl (fun d p => Dict.set d p.1 p.2) v.infoMulti
        infoMultiTypes := l.foldl (fun d p => Dict.set d p.1 (typeOf tys p.1)) v.infoMultiTypes } := by
  induction l generalizing v with
  | nil => rfl
  | cons p l ih =>
    rw [List.map_cons, List.nodup_cons] at hn
    obtain ⟨h1, h2⟩ := hok p (List.mem_cons_self ..)
    have hp := hd p (List.mem_cons_self ..)
    rw [List.foldl_cons, foldl_sets_new p.2 h1 h2 v ((Dict.get?_eq_none_iff _ _).mpr hp),
      ih _ hn.2 ?_ (fun q hq => hok q (List.mem_cons_of_mem _ hq))]
    · rfl
    · intro q hq
      show q.1 ∉ (v.infoMulti.set p.1 p.2).map (·.1)
      rw [Dict.set_of_not_mem _ _ _ hp, List.map_append, List.mem_append, not_or]
      refine ⟨hd q (List.mem_cons_of_mem _ hq), ?_⟩
      simp only [List.map_cons, List.map_nil, List.mem_singleton]
      intro e
      exact hn.1 (e ▸ List.mem_map_of_mem hq)

/-! ### parameters -/

theorem writeInitialParams_defines {cfg : Cfg} {u : ULog} {b : Bytes}
    (hok : ∀ p ∈ u.initialParams, Plain p.1 ∧ ParamOk p.2) (h : writeInitialParams u = .ok b) :
    Defines cfg b (fun v => u.initialParams.foldl (fun v p =>
      { v with initialParams := v.initialParams.set p.1 (asParam p.2) }) v) := by
  unfold writeInitialParams at h
  refine Defines.concat ?_ h
  rintro ⟨k, x⟩ hx b hb
  obtain ⟨d, h1, h2⟩ := except_bind_ok.mp hb
  obtain ⟨p1, p2⟩ := hok (k, x) hx
  refine Defines.one (by decide) h2 ?_
  intro v
  rw [handleDef_P, paramData_ok cfg.ign p1 p2 h1]
  rfl

theorem foldl_initial (l : List (Str × Value)) (v : ULog) :
    l.foldl (fun v p => { v with initialParams := v.initialParams.set p.1 (asParam p.2) }) v
    = { v with initialParams := l.foldl (fun d p => Dict.set d p.1 (asParam p.2)) v.initialParams } := by
  induction l generalizing v with
  | nil => rfl
  | cons p l ih => rw [List.foldl_cons, ih]; rfl

/-- setting a default value of one kind -/
def putDefault (bit : Nat) (d : Dict Nat (Dict Str Value)) (p : Str × Value) :
    Dict Nat (Dict Str Value) :=
  d.set bit (((d.get? bit).getD []).set p.1 (asParam p.2))

theorem addDefaultLoop_bit (k : Str) (x : Value) (bit : Nat) (hb : bit = 0 ∨ bit = 1)
    (d : Dict Nat (Dict Str Value)) :
    addDefaultLoop k x 8 (BitVec.ofNat 8 (1 <<< bit)) d
      = d.set bit (((d.get? bit).getD []).set k x) := by
  have hhas : ∀ c : Nat, ((if d.has c then d else d.set c []).set c
      ((((if d.has c then d else d.set c []).get? c).getD []).set k x))
      = d.set c (((d.get? c).getD []).set k x) := by
    intro c
    cases hg : d.get? c with
    | none => simp [Dict.has, hg, set_set]
    | some y => simp [Dict.has, hg]
  rcases hb with rfl | rfl
  · exact hhas 0
  · exact hhas 1

theorem writeDefaultParams_defines {cfg : Cfg} {u : ULog} {b : Bytes}
    (hok : ∀ p ∈ u.defaultParams, (p.1 = 0 ∨ p.1 = 1) ∧ p.2 ≠ [] ∧ (p.2.map (·.1)).Nodup ∧
      ∀ q ∈ p.2, Plain q.1 ∧ ParamOk q.2) (h : writeDefaultParams u = .ok b) :
    Defines cfg b (fun v => u.defaultParams.foldl (fun v p => p.2.foldl (fun v q =>
      { v with defaultParams := putDefault p.1 v.defaultParams q }) v) v) := by
  unfold writeDefaultParams at h
  refine Defines.concat ?_ h
  rintro ⟨bit, dict⟩ hx b hb
  obtain ⟨hbit, _, _, hq⟩ := hok (bit, dict) hx
  refine Defines.concat ?_ hb
  rintro ⟨k, x⟩ hx b hb
  obtain ⟨hm, hb⟩ := packU_bind_ok.mp hb
  obtain ⟨d, h1, h2⟩ := except_bind_ok.mp hb
  obtain ⟨p1, p2⟩ := hq (k, x) hx
  refine Defines.one (by decide) h2 ?_
  intro v
  have e : parseParamDefault cfg.ign (leEnc 1 (1 <<< bit) ++ d)
      = .ok (1 <<< bit, { cont := 0, type := paramType x, key := k, value := asParam x }) := by
    unfold parseParamDefault
    have e1 : slice 0 1 (leEnc 1 (1 <<< bit) ++ d) = leEnc 1 (1 <<< bit) := by
      rw [slice_zero, List.take_left' (by simp)]
    have e2 : (leEnc 1 (1 <<< bit) ++ d).drop 1 = d := List.drop_left' (by simp)
    rw [e1, e2, unpackU_leEnc hm, paramData_ok cfg.ign p1 p2 h1]
    rfl
  rw [handleDef_Q, e]
  show some (Out.ok (addParamDefault v _)) = _
  unfold addParamDefault
  rw [addDefaultLoop_bit _ _ _ hbit]
  rfl

theorem foldl_defaults (l : List (Nat × Dict Str Value)) (v : ULog) :
    l.foldl (fun v p => p.2.foldl (fun v q =>
      { v with defaultParams := putDefault p.1 v.defaultParams q }) v) v
    = { v with defaultParams := l.foldl (fun d p => p.2.foldl (putDefault p.1) d) v.defaultParams } := by
  have inner : ∀ (b : Nat) (l : List (Str × Value)) (v : ULog), l.foldl (fun v q =>
      { v with defaultParams := putDefault b v.defaultParams q }) v
      = { v with defaultParams := l.foldl (putDefault b) v.defaultParams } := by
    intro b l
    induction l with
    | nil => intro v; rfl
    | cons q l ih => intro v; rw [List.foldl_cons, ih]; rfl
  induction l generalizing v with
  | nil => rfl
  | cons p l ih => rw [List.foldl_cons, inner, ih]; rfl

theorem foldl_putDefault (bit : Nat) (l : List (Str × Value)) (hl : l ≠ [])
    (hn : (l.map (·.1)).Nodup) (d : Dict Nat (Dict Str Value)) (hd : bit ∉ d.map (·.1)) :
    l.foldl (putDefault bit) d = d ++ [(bit, l.map fun q => (q.1, asParam q.2))] := by
  have key : ∀ (l : List (Str × Value)) (acc : Dict Str Value),
      l.foldl (putDefault bit) (d ++ [(bit, acc)])
        = d ++ [(bit, l.foldl (fun a q => Dict.set a q.1 (asParam q.2)) acc)] := by
    intro l
    induction l with
    | nil => intro acc; rfl
    | cons q l ih =>
      intro acc
      rw [List.foldl_cons, List.foldl_cons, ← ih]
      congr 1
      unfold putDefault
      have hg : Dict.get? (d ++ [(bit, acc)]) bit = some acc := by
        rw [Dict.get?_append, (Dict.get?_eq_none_iff _ _).mpr hd]
        simp [Dict.get?_cons]
      rw [hg, Option.getD_some]
      rw [set_append_last hd]
  cases l with
  | nil => exact absurd rfl hl
  | cons q l =>
    rw [List.foldl_cons]
    have e : putDefault bit d q = d ++ [(bit, Dict.set [] q.1 (asParam q.2))] := by
      unfold putDefault
      rw [(Dict.get?_eq_none_iff _ _).mpr hd, Dict.set_of_not_mem _ _ _ hd]
      rfl
    rw [e, key]
    have := foldl_set_map (fun q : Str × Value => asParam q.2) (·.1) (q :: l) [] hn (by simp)
    rw [List.foldl_cons, List.nil_append] at this
    rw [this]


theorem foldl_defaults_eq (l : List (Nat × Dict Str Value)) (d : Dict Nat (Dict Str Value))
    (hn : (l.map (·.1)).Nodup) (hd : ∀ p ∈ l, p.1 ∉ d.map (·.1))
    (hok : ∀ p ∈ l, p.2 ≠ [] ∧ (p.2.map (·.1)).Nodup) :
    l.foldl (fun d p => p.2.foldl (putDefault p.1) d) d
      = d ++ l.map fun p => (p.1, p.2.map fun q => (q.1, asParam q.2)) := by
  induction l generalizing d with
  | nil => simp
  | cons p l ih =>
    rw [List.map_cons, List.nodup_cons] at hn
    obtain ⟨h1, h2⟩ := hok p (List.mem_cons_self ..)
    rw [List.foldl_cons, foldl_putDefault p.1 p.2 h1 h2 d (hd p (List.mem_cons_self ..)),
      ih _ hn.2 ?_ (fun q hq => hok q (List.mem_cons_of_mem _ hq)), List.append_assoc]
    · rfl
    · intro q hq
      rw [List.map_append, List.mem_append, not_or]
      refine ⟨hd q (List.mem_cons_of_mem _ hq), ?_⟩
      simp only [List.map_cons, List.map_nil, List.mem_singleton]
      intro e
      exact hn.1 (e ▸ List.mem_map_of_mem hq)

/-! ### formats -/

theorem encStr_append (a b : Str) : encStr (a ++ b) = encStr a ++ encStr b := by
  simp [encStr]

theorem encStr_flatMap {α : Type} (l : List α) (f : α → Str) :
    encStr (l.flatMap f) = l.flatMap fun x => encStr (f x) := by
  simp [encStr, List.flatMap_assoc]

/-- text of a field without the final semicolon -/
def fieldBody (f : FieldDef) : Str :=
  if f.arr > 0 then f.type ++ py! "[" ++ intDec f.arr ++ py! "] " ++ f.name
  else f.type ++ py! " " ++ f.name

theorem fieldText_eq (f : FieldDef) : fieldText f = fieldBody f ++ [';'] := by
  unfold fieldText fieldBody
  split <;> rfl

theorem intDec_pos {n : Int} (h : 0 < n) : intDec n = natDec n.toNat := by
  unfold intDec
  rw [if_neg (by omega)]
  congr 1
  omega

theorem pyFind_append {c : Char} {a b : Str} (h : c ∉ a) :
    pyFind c (a ++ c :: b) = some a.length := by
  induction a with
  | nil => simp [pyFind]
  | cons x xs ih =>
    rw [List.mem_cons, not_or] at h
    simp only [List.cons_append, pyFind]
    rw [if_neg (fun e => h.1 e.symm), ih h.2]
    simp

theorem pyFind_none {c : Char} {a : Str} (h : c ∉ a) : pyFind c a = none := by
  induction a with
  | nil => rfl
  | cons x xs ih =>
    rw [List.mem_cons, not_or] at h
    simp only [pyFind]
    rw [if_neg (fun e => h.1 e.symm), ih h.2]
    rfl

theorem intDec_not_mem {n : Int} (h : 0 < n) {c : Char} (hc : ¬ isDigitC c) : c ∉ intDec n := by
  rw [intDec_pos h]; exact natDec_not_mem _ hc

theorem pyInt_intDec {n : Int} (h : 0 < n) : pyInt (intDec n) = .ok n := by
  rw [intDec_pos h, pyInt_natDec]
  congr 1
  omega

theorem extractType_body {f : FieldDef} (h : FieldOk f) : extractType (fieldBody f) = .ok f := by
  have t1 := h.type ' ' (by simp)
  have t2 := h.type '[' (by simp)
  have n1 := h.name ' ' (by simp)
  unfold extractType fieldBody
  by_cases ha : f.arr > 0
  · rw [if_pos ha]
    have hb := h.bracket ha
    have d1 : ' ' ∉ intDec f.arr := intDec_not_mem ha (by unfold isDigitC; decide)
    have d2 : ']' ∉ intDec f.arr := intDec_not_mem ha (by unfold isDigitC; decide)
    have e : f.type ++ py! "[" ++ intDec f.arr ++ py! "] " ++ f.name
        = (f.type ++ '[' :: (intDec f.arr ++ [']'])) ++ ' ' :: f.name := by simp
    rw [e, pySplit_append (by simp [t1, d1]), pySplit_of_not_mem n1]
    simp only [pyIndex, List.getElem?_cons_zero, List.getElem?_cons_succ, ok_bind]
    rw [pyFind_append t2]
    have e2 : pyFind ']' (f.type ++ '[' :: (intDec f.arr ++ [']']))
        = some (f.type.length + 1 + (intDec f.arr).length) := by
      have : f.type ++ '[' :: (intDec f.arr ++ [']'])
          = (f.type ++ '[' :: intDec f.arr) ++ ']' :: [] := by simp
      rw [this, pyFind_append (by simp [hb, d2])]
      simp; omega
    simp only [e2]
    have e3 : slice (f.type.length + 1) (f.type.length + 1 + (intDec f.arr).length)
        (f.type ++ '[' :: (intDec f.arr ++ [']'])) = intDec f.arr := by
      have : f.type ++ '[' :: (intDec f.arr ++ [']'])
          = (f.type ++ ['[']) ++ (intDec f.arr ++ [']']) := by simp
      rw [this]
      exact slice_mid _ _ _ (by simp) rfl
    rw [e3, pyInt_intDec ha]
    simp only [ok_bind]
    rw [List.take_left' rfl]
    rfl
  · rw [if_neg ha]
    have e : f.type ++ py! " " ++ f.name = f.type ++ ' ' :: f.name := by simp
    rw [e, pySplit_append t1, pySplit_of_not_mem n1]
    simp only [pyIndex, List.getElem?_cons_zero, List.getElem?_cons_succ, ok_bind]
    rw [pyFind_none t2]
    have : f.arr = 0 := by have := h.arr; omega
    show Except.ok ({ type := f.type, arr := 0, name := f.name } : FieldDef) = _
    rw [← this]

theorem fieldBody_not_mem {f : FieldDef} (h : FieldOk f) {c : Char} (hc : c = ';' ∨ c = ':') :
    c ∉ fieldBody f := by
  have t : c ∉ f.type := by rcases hc with rfl | rfl <;> exact h.type _ (by simp)
  have n : c ∉ f.name := by rcases hc with rfl | rfl <;> exact h.name _ (by simp)
  unfold fieldBody
  split
  · rename_i ha
    have d : c ∉ intDec f.arr := intDec_not_mem ha (by rcases hc with rfl | rfl <;> (unfold isDigitC; decide))
    rcases hc with rfl | rfl <;> simp [t, n, d]
  · rcases hc with rfl | rfl <;> simp [t, n]

theorem fieldBody_ne_nil (f : FieldDef) : (fieldBody f).length > 0 := by
  unfold fieldBody
  split <;> (simp; omega)

theorem pySplit_fields (l : List FieldDef) (h : ∀ f ∈ l, FieldOk f) :
    (pySplit ';' (l.flatMap fieldText)).filter (fun t => t.length > 0) = l.map fieldBody := by
  induction l with
  | nil => rfl
  | cons f l ih =>
    rw [List.flatMap_cons, fieldText_eq, List.append_assoc, List.singleton_append,
      pySplit_append (fieldBody_not_mem (h f (List.mem_cons_self ..)) (Or.inl rfl)),
      List.filter_cons_of_pos (by simpa using fieldBody_ne_nil f), List.map_cons,
      ih fun g hg => h g (List.mem_cons_of_mem _ hg)]

theorem parseFormat_text (ign : Bool) {f : MsgFormat} (hn : ':' ∉ f.name)
    (h : ∀ x ∈ f.fields, FieldOk x) :
    parseFormat ign (encStr (f.name ++ py! ":") ++ f.fields.flatMap fun x => encStr (fieldText x))
      = .ok f := by
  rw [← encStr_flatMap, ← encStr_append]
  unfold parseFormat
  rw [C19_roundtrip]
  simp only [ok_bind]
  have e : f.name ++ py! ":" ++ f.fields.flatMap fieldText
      = f.name ++ ':' :: f.fields.flatMap fieldText := by simp
  have hc : ':' ∉ f.fields.flatMap fieldText := by
    intro hm
    obtain ⟨x, hx, hm⟩ := List.mem_flatMap.mp hm
    rw [fieldText_eq, List.mem_append] at hm
    rcases hm with hm | hm
    · exact fieldBody_not_mem (h x hx) (Or.inr rfl) hm
    · simp at hm
  rw [e, pySplit_append hn, pySplit_of_not_mem hc]
  simp only [pyIndex, List.getElem?_cons_zero, List.getElem?_cons_succ, ok_bind]
  rw [pySplit_fields _ h]
  have : (f.fields.map fieldBody).mapM extractType = .ok f.fields := by
    have := mapM_ok (f := extractType) (g := fun s => ((extractType s).toOption).getD ⟨[], 0, []⟩)
      (l := f.fields.map fieldBody) ?_
    · rw [this, List.map_map]
      congr 1
      conv => rhs; rw [← List.map_id f.fields]
      apply List.map_congr_left
      intro x hx
      simp [extractType_body (h x hx), Except.toOption]
    · intro s hs
      obtain ⟨x, hx, rfl⟩ := List.mem_map.mp hs
      rw [extractType_body (h x hx)]
      rfl
  rw [this]
  rfl

theorem writeFormats_defines {cfg : Cfg} {u : ULog} {b : Bytes}
    (hok : ∀ p ∈ u.formats, p.1 = p.2.name ∧ ':' ∉ p.2.name ∧ ∀ f ∈ p.2.fields, FieldOk f)
    (h : writeFormats u = .ok b) :
    Defines cfg b (fun v => u.formats.foldl (fun v p =>
      { v with formats := v.formats.set p.1 p.2 }) v) := by
  unfold writeFormats at h
  refine Defines.concat ?_ h
  rintro ⟨k, f⟩ hx b hb
  obtain ⟨h1, h2, h3⟩ := hok (k, f) hx
  refine Defines.one (by decide) hb ?_
  intro v
  rw [handleDef_F, parseFormat_text cfg.ign h2 h3]
  have h1 : k = f.name := h1
  subst h1
  rfl

theorem foldl_formats (l : List (Str × MsgFormat)) (v : ULog) :
    l.foldl (fun v p => { v with formats := v.formats.set p.1 p.2 }) v
    = { v with formats := l.foldl (fun d p => Dict.set d p.1 p.2) v.formats } := by
  induction l generalizing v with
  | nil => rfl
  | cons p l ih => rw [List.foldl_cons, ih]; rfl

/-! ### flags and header -/

theorem packFlags_bytes {l : List Nat} {b : Bytes} (h : packFlags l = .ok b) :
    b.map UInt8.toNat = l ∧ b.length = 8 := by
  obtain ⟨h1, h2, h3⟩ := packFlags_ok h
  refine ⟨?_, h2⟩
  apply List.ext_getElem (by simp [h1, h2])
  intro i hi1 hi2
  have := h3 i
  simp only [byteAt] at this
  rw [List.getElem_map]
  simp only [List.getD_eq_getElem?_getD, List.getElem?_eq_getElem hi2] at this
  rw [List.length_map] at hi1
  rw [List.getElem?_eq_getElem hi1] at this
  simpa using this

/-- the incompatible flags that are written -/
def clearedFlags (l : List Nat) : List Nat :=
  match l with
  | [] => []
  | _ :: xs => 0 :: xs

theorem writeFlags_defines {cfg : Cfg} {u : ULog} {b : Bytes}
    (hok : u.incompat.getD 0 0 < 2 ∧ ∀ x ∈ u.incompat.drop 1, x = 0) (h : writeFlags u = .ok b) :
    Defines cfg b (fun v =>
      { v with
        compat := u.compat
        incompat := clearedFlags u.incompat
        appendedOffsets := [] }) := by
  unfold writeFlags at h
  obtain ⟨c, h3, hf⟩ := except_bind_ok.mp h
  obtain ⟨i, h4, hf⟩ := except_bind_ok.mp hf
  obtain ⟨j, h5, hf⟩ := except_bind_ok.mp hf
  obtain ⟨c1, c2⟩ := packFlags_bytes h3
  obtain ⟨j1, j2⟩ := packFlags_bytes h5
  have hi : i = clearedFlags u.incompat := by
    revert h4 hok
    cases u.incompat with
    | nil => intro _ h4; cases h4
    | cons x xs =>
      intro hok h4
      injection h4 with h4
      rw [← h4, and_0xFE]
      have : x < 2 := hok.1
      show (x % 256 - x % 2) :: xs = 0 :: xs
      congr 1
      omega
  refine Defines.one (by decide) hf ?_
  intro v
  rw [handleDef_B]
  have e : parseFlagBits (c ++ j ++ leEnc 8 0 ++ leEnc 8 0 ++ leEnc 8 0)
      = .ok (u.compat, clearedFlags u.incompat, []) := by
    unfold parseFlagBits
    have e1 : slice 0 8 (c ++ j ++ leEnc 8 0 ++ leEnc 8 0 ++ leEnc 8 0) = c := by
      rw [slice_zero, List.append_assoc, List.append_assoc, List.append_assoc, List.take_left' c2]
    have e2 : slice 8 16 (c ++ j ++ leEnc 8 0 ++ leEnc 8 0 ++ leEnc 8 0) = j := by
      rw [List.append_assoc, List.append_assoc, List.append_assoc c]
      have := slice_mid (a := 8) (b := 16) c j (leEnc 8 0 ++ (leEnc 8 0 ++ leEnc 8 0)) c2 (by omega)
      simpa using this
    have e3 : slice 16 (16 + 24) (c ++ j ++ leEnc 8 0 ++ leEnc 8 0 ++ leEnc 8 0)
        = List.replicate 24 0 := by
      have := slice_mid (a := 16) (b := 40) (c ++ j) (leEnc 8 0 ++ leEnc 8 0 ++ leEnc 8 0) []
        (by simp [c2, j2]) (by simp)
      rw [List.append_nil] at this
      rw [List.append_assoc, List.append_assoc, ← List.append_assoc (leEnc 8 0)]
      exact this
    rw [e1, e2, e3]
    unfold unpackBytes
    rw [if_pos c2, if_pos j2, c1, j1, hi]
    rfl
  rw [e]
  simp only [applyFlagBits]
  have z : ((clearedFlags u.incompat).getD 0 0) / 2 = 0 := by
    cases u.incompat <;> simp [clearedFlags]
  have z2 : ((clearedFlags u.incompat).drop 1).any (· ≠ 0) = false := by
    have := hok.2
    revert this
    cases u.incompat with
    | nil => intro _; rfl
    | cons x xs =>
      intro h
      simp only [clearedFlags, List.drop_succ_cons, List.drop_zero] at h ⊢
      rw [List.any_eq_false]
      intro y hy
      simp [h y hy]
  rw [if_neg (by omega), if_neg (by rw [z2]; decide)]

theorem writeHeader_read {u : ULog} {b : Bytes} (h : writeHeader u = .ok b) :
    b.length = 16 ∧ readHeader b
      = .ok { fileVersion := u.fileVersion, startTs := u.startTs, lastTs := u.startTs } := by
  unfold writeHeader at h
  obtain ⟨h1, h⟩ := packU_bind_ok.mp h
  obtain ⟨h2, h⟩ := packU_bind_ok.mp h
  split at h
  · cases h
  · injection h with h
    subst h
    have hlen : (HEADER_BYTES ++ leEnc 1 u.fileVersion ++ leEnc 8 u.startTs).length = 16 := by
      simp [HEADER_BYTES]
    refine ⟨hlen, ?_⟩
    unfold readHeader
    have e0 : readAt (HEADER_BYTES ++ leEnc 1 u.fileVersion ++ leEnc 8 u.startTs) 0 16
        = HEADER_BYTES ++ leEnc 1 u.fileVersion ++ leEnc 8 u.startTs := by
      unfold readAt
      rw [List.drop_zero, List.take_of_length_le (by omega)]
    have e1 : slice 0 7 (HEADER_BYTES ++ leEnc 1 u.fileVersion ++ leEnc 8 u.startTs)
        = HEADER_BYTES := by
      rw [slice_zero, List.append_assoc]
      exact List.take_left' rfl
    have e2 : slice 7 8 (HEADER_BYTES ++ leEnc 1 u.fileVersion ++ leEnc 8 u.startTs)
        = leEnc 1 u.fileVersion := by
      rw [List.append_assoc]
      exact slice_mid _ _ _ rfl (by simp)
    have e3 : (HEADER_BYTES ++ leEnc 1 u.fileVersion ++ leEnc 8 u.startTs).drop 8
        = leEnc 8 u.startTs := List.drop_left' (by simp [HEADER_BYTES])
    simp only [e0, e1, e2, e3]
    rw [if_neg (by omega), if_neg (by simp), leNat_leEnc _ _ h1, leNat_leEnc _ _ h2]

/-- the log after the definition section of the written file -/
def defined (u : ULog) : ULog :=
  { fileVersion := u.fileVersion
    startTs := u.startTs
    lastTs := u.startTs
    compat := u.compat
    incompat := clearedFlags u.incompat
    appendedOffsets := []
    formats := u.formats
    info := u.info
    infoTypes := u.infoTypes
    infoMulti := u.infoMulti
    infoMultiTypes := u.infoMultiTypes
    initialParams := u.initialParams.map fun p => (p.1, asParam p.2)
    defaultParams := u.defaultParams.map fun p => (p.1, p.2.map fun q => (q.1, asParam q.2)) }

theorem foldl_set_self {κ α : Type} [DecidableEq κ] (l : Dict κ α) (hn : (l.map (·.1)).Nodup) :
    l.foldl (fun d p => Dict.set d p.1 p.2) [] = l := by
  have := foldl_set_map (fun p : κ × α => p.2) (·.1) l [] hn (by simp)
  rw [this, List.nil_append]
  exact List.map_id l

theorem foldl_set_types {α : Type} (l : Dict Str α) (tys : Dict Str Str)
    (hn : (l.map (·.1)).Nodup) (ht : tys.map (·.1) = l.map (·.1)) :
    l.foldl (fun d p => Dict.set d p.1 (typeOf tys p.1)) [] = tys := by
  have := foldl_set_map (fun p : Str × α => typeOf tys p.1) (·.1) l [] hn (by simp)
  rw [this, List.nil_append]
  have e := dict_eq_map (d := tys) (ht ▸ hn) (typeOf tys) (fun k v h => by simp [typeOf, h])
  conv => rhs; rw [e, ht, List.map_map]
  rfl

/-- reading back the definition section -/
theorem definitions_read {cfg : Cfg} {depth : Nat} {u : ULog} {b : Bytes} (hu : Writable depth u)
    (w : Written u b) :
    ∃ defs, w.flags ++ (w.fmts ++ (w.infos ++ (w.multi ++ (w.init ++ w.dflt)))) = encMsgs defs ∧
      (∀ m ∈ defs, DefFrame m) ∧
      runDefs cfg defs { fileVersion := u.fileVersion, startTs := u.startTs, lastTs := u.startTs }
        = .done (defined u) := by
  have d1 := writeFlags_defines (cfg := cfg) hu.flags w.h_flags
  have d2 := writeFormats_defines (cfg := cfg) hu.formats w.h_fmts
  have d3 := writeInfos_defines (cfg := cfg) hu.info_ok w.h_infos
  have d4 := writeInfoMulti_defines (cfg := cfg) hu.multi_ok w.h_multi
  have d5 := writeInitialParams_defines (cfg := cfg) hu.initial w.h_init
  have d6 := writeDefaultParams_defines (cfg := cfg) hu.defaults w.h_dflt
  obtain ⟨defs, e1, e2, e3⟩ := d1.append (d2.append (d3.append (d4.append (d5.append d6))))
  refine ⟨defs, e1, e2, ?_⟩
  rw [e3]
  simp only [foldl_formats, foldl_addInfo, foldl_initial, foldl_defaults]
  rw [foldl_multi _ _ hu.multi_nodup (by simp) (fun p hp => ?_)]
  · simp only [foldl_set_self _ hu.formats_nodup, foldl_set_self _ hu.info_nodup,
      foldl_set_types _ _ hu.info_nodup hu.info, foldl_set_self _ hu.multi_nodup,
      foldl_set_types _ _ hu.multi_nodup hu.multi]
    rw [foldl_set_map (fun p : Str × Value => asParam p.2) (·.1) u.initialParams [] hu.initial_nodup
      (by simp), foldl_defaults_eq _ _ hu.defaults_nodup (by simp)
      (fun p hp => ⟨(hu.defaults p hp).2.1, (hu.defaults p hp).2.2.1⟩)]
    rfl
  · have hk : p.1 ∈ u.infoMultiTypes.map (·.1) := hu.multi ▸ List.mem_map_of_mem hp
    obtain ⟨q, hq, e⟩ := List.mem_map.mp hk
    have := hu.multi_ok p hp q.2 (e ▸ hq)
    exact ⟨this.2.2.1, fun s hs => (this.2.2.2 s hs).1⟩

end PyULog
