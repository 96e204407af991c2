import Verif.Lemmas.Attr
import Verif.Model.Api
import Verif.Spec.SampleRun
/-
Property theorems: C09 (parameters and dropouts), C10 (default parameters), C11 (multi-part info),
C51 (info).
-/
namespace PyULog
open Spec

/-! ### lists of pairs as dictionaries -/

theorem lastOf_snoc [DecidableEq κ] (k : κ) (l : List (κ × α)) (p : κ × α) :
    lastOf k (l ++ [p]) = if p.1 = k then some p.2 else lastOf k l := by
  unfold lastOf
  rw [List.filter_append]
  by_cases h : p.1 = k <;> simp [h]

theorem firstOf_snoc [DecidableEq κ] (k : κ) (l : List (κ × α)) (p : κ × α) :
    firstOf k (l ++ [p]) = (firstOf k l).or (if p.1 = k then some p.2 else none) := by
  unfold firstOf
  rw [List.filter_append]
  cases h : l.filter (fun p => decide (p.1 = k)) with
  | nil => by_cases hk : p.1 = k <;> simp [hk]
  | cons a as => simp

theorem keyValue_ok {ign : Bool} {d : Bytes} {m : InfoMsg} (h : parseInfo ign d = .ok m) :
    keyValue ign d = some (m.type, m.key, m.value) := by
  rw [keyValue_eq, h]; rfl

theorem keyValue_err {ign : Bool} {d : Bytes} {e : PyErr} (h : parseInfo ign d = .error e) :
    keyValue ign d = none := by
  rw [keyValue_eq, h]; rfl

/-! ### C09 -/

theorem paramOf_P (ign : Bool) (u : ULog) (d : Bytes) :
    paramOf ign (u, tyP, d) = (keyValue ign d).map (·.2) := by simp [paramOf]

theorem handleData_changed {cfg : Cfg} {u : ULog} {ty : Nat} {d : Bytes} {o : Out}
    (h : handleData cfg u ty d = some o) :
    o.state.changedParams
      = u.changedParams ++ (paramOf cfg.ign (u, ty, d)).toList.map fun p => (u.lastTs, p) := by
  by_cases hP : ty = tyP
  · subst hP
    rw [show tyP = MSG_TYPE_PARAMETER from rfl, handleData_P] at h
    cases h
    rw [paramOf_P]
    cases hp : parseInfo cfg.ign d with
    | error e => rw [keyValue_err hp]; exact (List.append_nil _).symm
    | ok m => rw [keyValue_ok hp]; rfl
  · have : paramOf cfg.ign (u, ty, d) = none := by simp [paramOf, hP]
    rw [this]
    simp only [Option.toList, List.map_nil, List.append_nil]
    exact handleData_frame (fun u => u.changedParams) h (hP := fun e => absurd e hP)

theorem handleData_dropouts {cfg : Cfg} {u : ULog} {ty : Nat} {d : Bytes} {o : Out}
    (h : handleData cfg u ty d = some o) :
    o.state.dropouts.map (fun d => (d.ts, d.duration))
      = u.dropouts.map (fun d => (d.ts, d.duration))
        ++ (dropoutOf (u, ty, d)).toList.map fun p => (u.lastTs, p) := by
  by_cases hO : ty = tyO
  · subst hO
    rw [show tyO = MSG_TYPE_DROPOUT from rfl, handleData_O] at h
    cases h
    unfold dropoutOf
    simp only [true_and]
    by_cases hl : d.length = 2
    · rw [if_pos hl]
      unfold parseDropout
      rw [unpackU_ok hl, leAt_eq d 0 2 (by omega)]
      simp only [ok_bind, Out.bind, pure, Except.pure, Out.state, List.map_append, List.map_cons,
        List.map_nil, Option.toList, List.drop_zero]
      rw [List.take_of_length_le (by omega)]
    · rw [if_neg hl]
      unfold parseDropout unpackU
      rw [if_neg hl]
      exact (List.append_nil _).symm
  · have : dropoutOf (u, ty, d) = none := by simp [dropoutOf, hO]
    rw [this]
    simp only [Option.toList, List.map_nil, List.append_nil]
    exact congrArg _ (handleData_frame (fun u => u.dropouts) h (hO := fun e => absurd e hO))

theorem lastSeen_cons (start : Nat) (x : Tr) (t : List Tr) :
    lastSeen start (x :: t) = lastSeen (match acceptedTs x with
      | some t => max start t
      | none => start) t := by
  unfold lastSeen
  cases h : acceptedTs x <;> simp [h]

theorem stamped_snoc (f : Tr → Option α) (start : Nat) (t : List Tr) (x : Tr) :
    stamped f start (t ++ [x])
      = stamped f start t ++ (f x).toList.map fun a => (lastSeen start t, a) := by
  induction t generalizing start with
  | nil =>
    simp only [List.nil_append, stamped]
    cases f x <;> rfl
  | cons y ys ih =>
    simp only [List.cons_append, stamped, List.append_assoc]
    rw [ih, lastSeen_cons]
    rfl

theorem stamped_ge (f : Tr → Option α) (start : Nat) (t : List Tr) :
    ∀ p ∈ stamped f start t, start ≤ p.1 := by
  induction t generalizing start with
  | nil => intro p hp; cases hp
  | cons y ys ih =>
    intro p hp
    simp only [stamped] at hp
    rcases List.mem_append.mp hp with hp | hp
    · cases hf : f y with
      | none => rw [hf] at hp; cases hp
      | some a => rw [hf] at hp; simp at hp; rw [hp]; exact Nat.le_refl _
    · refine Nat.le_trans ?_ (ih _ p hp)
      split
      · exact Nat.le_max_left _ _
      · exact Nat.le_refl _

theorem stamped_sorted (f : Tr → Option α) (start : Nat) (t : List Tr) :
    ((stamped f start t).map (·.1)).Pairwise (· ≤ ·) := by
  induction t generalizing start with
  | nil => exact List.Pairwise.nil
  | cons y ys ih =>
    simp only [stamped]
    cases hf : f y with
    | none => exact ih _
    | some a =>
      simp only [List.cons_append, List.nil_append, List.map_cons, List.pairwise_cons]
      refine ⟨?_, ih _⟩
      intro b hb
      obtain ⟨p, hp, rfl⟩ := List.mem_map.mp hb
      refine Nat.le_trans ?_ (stamped_ge f _ ys p hp)
      split
      · exact Nat.le_max_left _ _
      · exact Nat.le_refl _

/-- **C09** (changed parameters and dropouts): after loading any file, `changed_parameters` is the
list of the parameter messages of the data section in file order, each with the latest data
timestamp accepted before it (the start timestamp when there is none), so the stamps never decrease;
the same holds of the dropouts. -/
theorem C09_changed_parameters (fuel : Nat) (cfg : Cfg) (bs : Bytes) (u : ULog)
    (h : load fuel cfg bs = .ok u) :
    let t := (fileTrace fuel cfg bs).flatten
    u.changedParams = stamped (paramOf cfg.ign) u.startTs t ∧
    u.dropouts.map (fun d => (d.ts, d.duration)) = stamped dropoutOf u.startTs t ∧
    (u.changedParams.map (·.1)).Pairwise (· ≤ ·) ∧ (u.dropouts.map (·.ts)).Pairwise (· ≤ ·) := by
  intro t
  obtain ⟨s, hs⟩ := load_afterDefs h
  have hi := afterDefs_init hs
  have key := load_inv
    (P := fun t v => (TsInv s.u.startTs t v ∧ v.startTs = s.u.startTs) ∧
      v.changedParams = stamped (paramOf cfg.ign) s.u.startTs t ∧
      v.dropouts.map (fun d => (d.ts, d.duration)) = stamped dropoutOf s.u.startTs t)
    (fun t v c hh hp => hp) (fun t v d hp => ⟨⟨tsInv_insensF _ t v d hp.1.1, hp.1.2⟩, hp.2⟩)
    (fun t v ty d o hp hd => ⟨⟨tsInv_msg cfg _ t v ty d o hp.1.1 hd,
        (handleData_pres _ _ _ _ _ hd).startTs.trans hp.1.2⟩,
      by rw [handleData_changed hd, stamped_snoc, hp.2.1, hp.1.1.2.1],
      by rw [handleData_dropouts hd, stamped_snoc, hp.2.2, hp.1.1.2.1]⟩)
    (fun s' hs' => by
      rw [hs] at hs'; cases hs'
      refine ⟨⟨⟨SubsOk.empty hi.1, hi.2.1, by simp, by simp⟩, rfl⟩, ?_, ?_⟩
      · rw [hi.2.2.2.2.2.1]; rfl
      · rw [hi.2.2.2.2.1]; rfl) h
  obtain ⟨⟨_, he⟩, h1, h2⟩ := key
  rw [← he] at h1 h2
  refine ⟨h1, h2, ?_, ?_⟩
  · rw [h1]; exact stamped_sorted _ _ _
  · have := stamped_sorted dropoutOf u.startTs t
    rw [← h2, List.map_map] at this
    exact this

/-- **C09** (initial parameters): `initial_parameters[k]` is the value of the last parameter message
for `k` in the definition section, absent when there is none; parameter messages of the data section
do not change it. -/
theorem C09_initial_parameters (fuel : Nat) (cfg : Cfg) (bs : Bytes) (u : ULog)
    (h : load fuel cfg bs = .ok u) (k : Str) :
    u.initialParams.get? k = lastOf k ((defTrace fuel cfg bs).filterMap (paramOf cfg.ign)) := by
  obtain ⟨s, hs⟩ := load_afterDefs h
  have h1 : u.initialParams = s.u.initialParams :=
    load_inv (P := fun _ v => v.initialParams = s.u.initialParams)
      (fun t v c hh hp => hp) (fun t v d hp => hp)
      (fun t v ty d o hp hd => (handleData_pres _ _ _ _ _ hd).initialParams.trans hp)
      (fun s' hs' => by rw [hs] at hs'; cases hs'; rfl) h
  rw [h1]
  refine afterDefs_inv (P := fun t v => v.initialParams.get? k
    = lastOf k (t.filterMap (paramOf cfg.ign))) (fun t v c hh hp => hp) ?_ ?_ hs
  · intro t v ty d o hp hd
    rw [filterMap_snoc]
    by_cases hP : ty = tyP
    · subst hP
      rw [show tyP = MSG_TYPE_PARAMETER from rfl, handleDef_P] at hd
      cases hd
      rw [paramOf_P]
      cases hi : parseInfo cfg.ign d with
      | error e =>
        rw [keyValue_err hi]
        simp only [Option.map_none, Option.toList, List.append_nil]
        exact hp
      | ok m =>
        rw [keyValue_ok hi]
        simp only [Option.map_some, Option.toList, Out.bind, Out.state, lastOf_snoc, Dict.get?_set]
        rw [hp]
    · have : paramOf cfg.ign (v, ty, d) = none := by simp [paramOf, hP]
      rw [this]
      simp only [Option.toList, List.append_nil]
      rw [handleDef_frame (fun u => u.initialParams) hd (hP := fun e => absurd e hP)]
      exact hp
  · intro v hv
    rw [readHeader_init hv]; rfl

/-- the sample file has parameter messages in both sections, a dropout, and data that goes back
in time -/
example : Sample.loaded.initialParams = [(py! "K", .int 6)] ∧
    Sample.loaded.changedParams = [(110, py! "K", .int 8), (120, py! "K", .int 10)] ∧
    Sample.loaded.dropouts = [⟨20, 120⟩] ∧
    Sample.trace.filterMap acceptedTs = [110, 120, 115] := by decide +kernel

/-! ### C10 -/

/-- the keys that one default parameter message touches -/
def lows : Nat → BitVec 8 → List Nat
  | 0, _ => []
  | n + 1, m =>
    if m = 0 then []
    else
      let low := m &&& (~~~m + 1)
      (low.toNat - 1) :: lows n (m ^^^ low)

theorem lows_eq (m : BitVec 8) :
    lows 8 m = ((List.range 8).filter fun b => m.toNat.testBit b).map fun b => 2 ^ b - 1 := by
  revert m
  decide +kernel

theorem addDefaultLoop_get (key : Str) (value : Value) (n : Nat) (m : BitVec 8)
    (d : Dict Nat (Dict Str Value)) (i : Nat) (k : Str) :
    (((addDefaultLoop key value n m d).get? i).getD []).get? k
      = if i ∈ lows n m ∧ key = k then some value else ((d.get? i).getD []).get? k := by
  induction n generalizing m d with
  | zero => simp [addDefaultLoop, lows]
  | succ n ih =>
    unfold addDefaultLoop lows
    by_cases hm : m = 0
    · simp [hm]
    · rw [if_neg hm, if_neg hm]
      simp only [ih, List.mem_cons]
      generalize (m &&& (~~~m + 1)).toNat - 1 = l
      by_cases h1 : i ∈ lows n (m ^^^ (m &&& (~~~m + 1))) ∧ key = k
      · rw [if_pos h1, if_pos ⟨Or.inr h1.1, h1.2⟩]
      · rw [if_neg h1, Dict.get?_set]
        by_cases h2 : l = i
        · subst h2
          rw [if_pos rfl]
          have hg : ((if d.has l then d else d.set l []).get? l).getD [] = (d.get? l).getD [] := by
            unfold Dict.has
            cases hd : d.get? l with
            | some v => simp [hd]
            | none => simp
          rw [hg, Option.getD_some, Dict.get?_set]
          by_cases hk : key = k
          · simp [hk]
          · simp [hk]
        · rw [if_neg h2]
          have hg : (if d.has l then d else d.set l []).get? i = d.get? i := by
            split
            · rfl
            · rw [Dict.get?_set, if_neg h2]
          rw [hg, if_neg]
          rintro ⟨h3 | h3, h4⟩
          · exact h2 h3.symm
          · exact h1 ⟨h3, h4⟩

theorem parseParamDefault_spec (ign : Bool) (d : Bytes) :
    ((parseParamDefault ign d).toOption.map fun p => (p.1, p.2.key, p.2.value))
      = if 1 ≤ d.length then (keyValue ign (d.drop 1)).map fun r => (byteAt d 0, r.2) else none := by
  unfold parseParamDefault
  by_cases h : 1 ≤ d.length
  · rw [if_pos h, unpackU_ok (by simp; omega), ok_bind, ← byteAt_zero _ (by omega)]
    cases hp : parseInfo ign (d.drop 1) with
    | error e => rw [keyValue_err hp]; rfl
    | ok m => rw [keyValue_ok hp]; rfl
  · rw [if_neg h]
    have : unpackU 1 (slice 0 1 d) = .error .structError := by
      unfold unpackU; rw [if_neg]; simp; omega
    rw [this]; rfl

/-- default messages whose mask has a bit `b` with `2^b - 1 = i`, as key/value pairs -/
def defaultsFor (ign : Bool) (i : Nat) (t : List Tr) : List (Str × Value) :=
  ((t.filterMap (defaultOf ign)).filter fun r =>
    (List.range 8).any fun b => r.1.testBit b && decide (2 ^ b - 1 = i)).map (·.2)

theorem byteAt_lt (d : Bytes) (i : Nat) : byteAt d i < 256 := by
  unfold byteAt
  exact UInt8.toNat_lt _

theorem addParamDefault_get {ign : Bool} {u : ULog} {ty : Nat} {d : Bytes} {t : List Tr}
    {i : Nat} {k : Str} (hQ : ty = tyQ)
    (hp : ((u.defaultParams.get? i).getD []).get? k = lastOf k (defaultsFor ign i t)) :
    (((Out.bind (parseParamDefault ign d) u (addParamDefault u)).state.defaultParams.get? i).getD
      []).get? k = lastOf k (defaultsFor ign i (t ++ [(u, ty, d)])) := by
  have hspec := parseParamDefault_spec ign d
  have hof : defaultOf ign (u, ty, d)
      = (parseParamDefault ign d).toOption.map fun p => (p.1, p.2.key, p.2.value) := by
    rw [hspec]; unfold defaultOf; simp [hQ]
  unfold defaultsFor
  rw [filterMap_snoc, hof]
  cases hd : parseParamDefault ign d with
  | error e =>
    simp only [Except.toOption, Option.map_none, Option.toList, List.append_nil]
    exact hp
  | ok p =>
    have hlt : p.1 < 256 := by
      rw [hd] at hspec
      by_cases h1 : 1 ≤ d.length
      · rw [if_pos h1] at hspec
        simp only [Except.toOption, Option.map_some] at hspec
        cases hkv : keyValue ign (d.drop 1) with
        | none => rw [hkv] at hspec; cases hspec
        | some r =>
          rw [hkv] at hspec
          simp only [Option.map_some, Option.some.injEq, Prod.mk.injEq] at hspec
          rw [hspec.1]; exact byteAt_lt _ _
      · rw [if_neg h1] at hspec; cases hspec
    simp only [Except.toOption, Option.map_some, Option.toList, List.filter_append, List.map_append,
      Out.bind, Out.state, addParamDefault, addDefaultLoop_get, lows_eq]
    have hmem : i ∈ ((List.range 8).filter fun b => (BitVec.ofNat 8 p.1).toNat.testBit b).map
          (fun b => 2 ^ b - 1)
        ↔ ((List.range 8).any fun b => p.1.testBit b && decide (2 ^ b - 1 = i)) = true := by
      rw [BitVec.toNat_ofNat, Nat.mod_eq_of_lt (by omega)]
      simp only [List.mem_map, List.mem_filter, List.any_eq_true, Bool.and_eq_true,
        decide_eq_true_eq, and_assoc]
    by_cases hin : i ∈ ((List.range 8).filter fun b => (BitVec.ofNat 8 p.1).toNat.testBit b).map
          (fun b => 2 ^ b - 1)
    · rw [List.filter_cons_of_pos (by exact hmem.mp hin)]
      simp only [List.filter_nil, List.map_cons, List.map_nil]
      rw [lastOf_snoc]
      by_cases hk : p.2.key = k
      · rw [if_pos ⟨hin, hk⟩, if_pos hk]
      · rw [if_neg (fun h => hk h.2), if_neg hk]; exact hp
    · rw [if_neg (fun h => hin h.1), List.filter_cons_of_neg (by intro h; exact hin (hmem.mpr h))]
      simp only [List.filter_nil, List.map_nil, List.append_nil]
      exact hp

/-- **C10** (what the code does, all masks and histories): after loading any file, the value of `k`
in `get_default_parameters(i)` is that of the last default message for `k` whose mask has a set bit
`b` with `2^b - 1 = i`. -/
theorem C10_default_parameters_actual (fuel : Nat) (cfg : Cfg) (bs : Bytes) (u : ULog)
    (h : load fuel cfg bs = .ok u) (i : Nat) (k : Str) :
    (getDefaultParameters u i).get? k = lastOf k
      (((defTrace fuel cfg bs ++ (fileTrace fuel cfg bs).flatten).filterMap (defaultOf cfg.ign)
        |>.filter fun r => (List.range 8).any fun b =>
          r.1.testBit b && decide (2 ^ b - 1 = i)).map (·.2)) := by
  refine load_inv_all (P := fun t v => ((v.defaultParams.get? i).getD []).get? k
    = lastOf k (defaultsFor cfg.ign i t)) (fun t v c hh hp => hp) (fun t v d hp => hp)
    ?_ ?_ ?_ h
  · intro t v ty d o hp hd
    by_cases hQ : ty = tyQ
    · have hQ' := hQ
      rw [hQ, show tyQ = MSG_TYPE_PARAMETER_DEFAULT from rfl, handleDef_Q] at hd
      cases hd
      exact addParamDefault_get hQ' hp
    · have : defaultOf cfg.ign (v, ty, d) = none := by simp [defaultOf, hQ]
      rw [defaultsFor, filterMap_snoc, this]
      simp only [Option.toList, List.append_nil]
      rw [handleDef_frame (fun u => u.defaultParams) hd (hQ := fun e => absurd e hQ)]
      exact hp
  · intro t v ty d o hp hd
    by_cases hQ : ty = tyQ
    · have hQ' := hQ
      rw [hQ, show tyQ = MSG_TYPE_PARAMETER_DEFAULT from rfl, handleData_Q] at hd
      cases hd
      exact addParamDefault_get hQ' hp
    · have : defaultOf cfg.ign (v, ty, d) = none := by simp [defaultOf, hQ]
      rw [defaultsFor, filterMap_snoc, this]
      simp only [Option.toList, List.append_nil]
      rw [handleData_frame (fun u => u.defaultParams) hd (hQ := fun e => absurd e hQ)]
      exact hp
  · intro v hv
    rw [readHeader_init hv]; rfl

/-- **C10** for the default types 0 (system wide) and 1 (current setup): the value of `k` in
`get_default_parameters(i)` is that of the last default message for `k` with bit `i` set. -/
theorem C10_default_parameters_partial (fuel : Nat) (cfg : Cfg) (bs : Bytes) (u : ULog)
    (h : load fuel cfg bs = .ok u) (i : Nat) (hi : i < 2) (k : Str) :
    (getDefaultParameters u i).get? k = lastOf k
      (((defTrace fuel cfg bs ++ (fileTrace fuel cfg bs).flatten).filterMap (defaultOf cfg.ign)
        |>.filter fun r => r.1.testBit i).map (·.2)) := by
  rw [C10_default_parameters_actual fuel cfg bs u h i k]
  congr 3
  funext r
  have : i = 0 ∨ i = 1 := by omega
  rcases this with rfl | rfl <;> simp [List.range_succ]

/-- **C10 is false for the other bits**: the sample file has a default message for `K` with mask
`5`, that is bits 0 and 2, but `get_default_parameters(2)` is empty: the value is stored under 3. -/
theorem C10_mask_bit_2_lost :
    ∃ (bs : Bytes) (u : ULog), load 20 {} bs = .ok u ∧
      ((defTrace 20 {} bs).filterMap (defaultOf true)) = [(5, py! "K", .int 7)] ∧
      getDefaultParameters u 2 = [] ∧ getDefaultParameters u 3 = [(py! "K", .int 7)] :=
  ⟨Sample.file, Sample.loaded, Sample.load_file, by decide +kernel⟩

example : (getDefaultParameters Sample.loaded 0).get? (py! "K") = some (.int 7) ∧
    (getDefaultParameters Sample.loaded 1).get? (py! "K") = some (.int 9) := by decide +kernel

/-! ### C11 -/

theorem splitGroups_snoc (l : List (Nat × α)) (c : Nat) (v : α) :
    splitGroups (l ++ [(c, v)]) =
      if c ≠ 0 then
        if (splitGroups l).2.isEmpty then ((splitGroups l).1 ++ [v], [])
        else ((splitGroups l).1, (splitGroups l).2.dropLast
          ++ [((splitGroups l).2.getLast?.getD []) ++ [v]])
      else ((splitGroups l).1, (splitGroups l).2 ++ [[v]]) := by
  induction l with
  | nil => by_cases h : c = 0 <;> simp [splitGroups, h]
  | cons p l ih =>
    obtain ⟨c', v'⟩ := p
    have e : ∀ m : List (Nat × α), splitGroups ((c', v') :: m)
        = if c' ≠ 0 then (v' :: (splitGroups m).1, (splitGroups m).2)
          else ([], (v' :: (splitGroups m).1) :: (splitGroups m).2) := fun _ => rfl
    rw [List.cons_append, e, e, ih]
    generalize splitGroups l = q
    obtain ⟨q1, q2⟩ := q
    by_cases h : c = 0 <;> by_cases h' : c' = 0 <;> cases q2 <;> simp [h, h']

theorem groups_snoc (l : List (Nat × α)) (c : Nat) (v : α) :
    groups (l ++ [(c, v)]) =
      if l = [] then [[v]]
      else if c ≠ 0 then (groups l).dropLast ++ [((groups l).getLast?.getD []) ++ [v]]
      else groups l ++ [[v]] := by
  cases l with
  | nil => simp [groups, splitGroups]
  | cons p l =>
    obtain ⟨c', v'⟩ := p
    simp only [List.cons_append, groups, splitGroups_snoc]
    by_cases h : c = 0
    · simp [h]
    · generalize splitGroups l = q
      obtain ⟨q1, q2⟩ := q
      cases q2 with
      | nil => simp [h]
      | cons g gs => simp [h]

theorem groups_eq_nil (l : List (Nat × α)) : groups l = [] ↔ l = [] := by
  cases l <;> simp [groups]

theorem splitGroups_flatten (l : List (Nat × α)) :
    (splitGroups l).1 ++ (splitGroups l).2.flatten = l.map (·.2) ∧ [] ∉ (splitGroups l).2 := by
  induction l with
  | nil => exact ⟨rfl, by simp [splitGroups]⟩
  | cons p l ih =>
    obtain ⟨c, v⟩ := p
    by_cases h : c = 0
    · simp only [splitGroups, h, ne_eq, not_true_eq_false, if_false, List.nil_append,
        List.flatten_cons, List.cons_append, ih.1, List.map_cons, List.mem_cons, not_or, true_and]
      exact ⟨by simp, ih.2⟩
    · simp only [splitGroups, h, ne_eq, not_false_eq_true, if_true, List.cons_append, ih.1,
        List.map_cons, true_and]
      exact ih.2

/-- messages for one key, as continued flag and value -/
def multiFor (ign : Bool) (key : Str) (t : List Tr) : List (Nat × Value) :=
  ((t.filterMap (infoMultiOf ign)).filter fun r => r.2.2.1 = key).map fun r => (r.1, r.2.2.2)

/-- types announced for a key by the info-multiple messages -/
def multiTypes (ign : Bool) (t : List Tr) : List (Str × Str) :=
  (t.filterMap (infoMultiOf ign)).map fun r => (r.2.2.1, r.2.1)

theorem parseInfoMulti_spec (ign : Bool) (d : Bytes) :
    ((parseInfoMulti ign d).toOption.map fun m => (m.cont, m.type, m.key, m.value))
      = if 1 ≤ d.length then (keyValue ign (d.drop 1)).map fun r => (byteAt d 0, r) else none := by
  unfold parseInfoMulti
  by_cases h : 1 ≤ d.length
  · rw [if_pos h, unpackU_ok (by simp; omega), ok_bind, ← byteAt_zero _ (by omega)]
    cases hp : parseInfo ign (d.drop 1) with
    | error e => rw [keyValue_err hp]; rfl
    | ok m => rw [keyValue_ok hp]; rfl
  · rw [if_neg h]
    have : unpackU 1 (slice 0 1 d) = .error .structError := by
      unfold unpackU; rw [if_neg]; simp; omega
    rw [this]; rfl

/-- assertion kept by every message -/
def MultiInv (ign : Bool) (t : List Tr) (u : ULog) : Prop :=
  ∀ key, u.infoMulti.get? key = entry (groups (multiFor ign key t)) ∧
    u.infoMultiTypes.get? key = firstOf key (multiTypes ign t)

theorem firstOf_none_iff {ign : Bool} {key : Str} {t : List Tr} :
    firstOf key (multiTypes ign t) = none ↔ multiFor ign key t = [] := by
  unfold firstOf multiTypes multiFor
  rw [List.filter_map]
  simp only [Option.map_eq_none_iff, List.head?_eq_none_iff, List.map_eq_nil_iff]
  rfl

theorem multiInv_msg {ign : Bool} {u : ULog} {ty : Nat} {d : Bytes} {t : List Tr}
    (hM : ty = tyM) (hp : MultiInv ign t u) :
    MultiInv ign (t ++ [(u, ty, d)])
      (Out.bind (parseInfoMulti ign d) u (addInfoMulti u)).state := by
  have hof : infoMultiOf ign (u, ty, d)
      = (parseInfoMulti ign d).toOption.map fun m => (m.cont, m.type, m.key, m.value) := by
    rw [parseInfoMulti_spec]; unfold infoMultiOf; simp [hM]
  intro key
  obtain ⟨h1, h2⟩ := hp key
  unfold multiFor multiTypes
  rw [filterMap_snoc, hof]
  cases hd : parseInfoMulti ign d with
  | error e =>
    simp only [Except.toOption, Option.map_none, Option.toList, List.append_nil]
    exact ⟨h1, h2⟩
  | ok m =>
    simp only [Except.toOption, Option.map_some, Option.toList, List.filter_append, List.map_append,
      Out.bind, Out.state, List.map_cons, List.map_nil]
    rw [firstOf_snoc]
    change _ ∧ _ = (firstOf key (multiTypes ign t)).or _
    by_cases hk : m.key = key
    · subst hk
      rw [List.filter_cons_of_pos (by simp)]
      simp only [List.filter_nil, List.map_cons, List.map_nil]
      change _ = entry (groups (multiFor ign m.key t ++ [(m.cont, m.value)])) ∧ _
      rw [groups_snoc]
      unfold addInfoMulti
      by_cases hn : multiFor ign m.key t = []
      · have hg : u.infoMulti.get? m.key = none := by rw [h1, hn]; rfl
        rw [hg, if_pos hn, firstOf_none_iff.mpr hn]
        simp [entry]
      · have hgne : groups (multiFor ign m.key t) ≠ [] := fun h => hn ((groups_eq_nil _).mp h)
        have hg : u.infoMulti.get? m.key = some (groups (multiFor ign m.key t)) := by
          rw [h1]
          cases hgr : groups (multiFor ign m.key t) with
          | nil => exact absurd hgr hgne
          | cons a b => rfl
        have h2' : ∃ a, firstOf m.key (multiTypes ign t) = some a := by
          cases hf : firstOf m.key (multiTypes ign t) with
          | some a => exact ⟨a, rfl⟩
          | none => exact absurd (firstOf_none_iff.mp hf) hn
        obtain ⟨a, ha⟩ := h2'
        rw [hg, if_neg hn, ha]
        rw [ha] at h2
        by_cases hc : m.cont = 0
        · simp only [hc, ne_eq, not_true_eq_false, if_false, Dict.get?_set, if_true]
          exact ⟨(by cases groups (multiFor ign m.key t) <;> rfl), h2⟩
        · simp only [ne_eq, hc, not_false_eq_true, if_true, Dict.get?_set]
          refine ⟨?_, h2⟩
          rw [entry_snoc]
          cases (groups (multiFor ign m.key t)).dropLast <;> rfl
    · rw [List.filter_cons_of_neg (by simpa using hk)]
      simp only [List.filter_nil, List.map_nil, List.append_nil]
      have hother : (addInfoMulti u m).infoMulti.get? key = u.infoMulti.get? key ∧
          (addInfoMulti u m).infoMultiTypes.get? key = u.infoMultiTypes.get? key := by
        unfold addInfoMulti
        split
        · split
          · exact ⟨by simp [Dict.get?_set, hk], rfl⟩
          · exact ⟨by simp [Dict.get?_set, hk], rfl⟩
        · exact ⟨by simp [Dict.get?_set, hk], by simp [Dict.get?_set, hk]⟩
      rw [hother.1, hother.2, if_neg hk]
      refine ⟨h1, ?_⟩
      rw [h2]
      cases firstOf key (multiTypes ign t) <;> rfl

/-- **C11.** After loading any file, `msg_info_multiple_dict[key]` is the grouping of the values of
all info-multiple messages for `key` in file order (absent when there are none); the type recorded
for the key is that of the first of these messages. -/
theorem C11_info_multiple (fuel : Nat) (cfg : Cfg) (bs : Bytes) (u : ULog)
    (h : load fuel cfg bs = .ok u) (key : Str) :
    let r := (defTrace fuel cfg bs ++ (fileTrace fuel cfg bs).flatten).filterMap
      (infoMultiOf cfg.ign)
    u.infoMulti.get? key
        = entry (groups ((r.filter fun m => m.2.2.1 = key).map fun m => (m.1, m.2.2.2))) ∧
      u.infoMultiTypes.get? key = firstOf key (r.map fun m => (m.2.2.1, m.2.1)) := by
  have key' : MultiInv cfg.ign (defTrace fuel cfg bs ++ (fileTrace fuel cfg bs).flatten) u := by
    refine load_inv_all (P := MultiInv cfg.ign) (fun t v c hh hp => hp) (fun t v d hp => hp)
      ?_ ?_ ?_ h
    · intro t v ty d o hp hd
      by_cases hM : ty = tyM
      · have hM' := hM
        rw [hM, show tyM = MSG_TYPE_INFO_MULTIPLE from rfl, handleDef_M] at hd
        cases hd
        exact multiInv_msg hM' hp
      · have : infoMultiOf cfg.ign (v, ty, d) = none := by simp [infoMultiOf, hM]
        have hfr := handleDef_frame (fun u => (u.infoMulti, u.infoMultiTypes)) hd
          (hM := fun e => absurd e hM)
        simp only [Prod.mk.injEq] at hfr
        unfold MultiInv multiFor multiTypes
        rw [filterMap_snoc, this, hfr.1, hfr.2]
        simp only [Option.toList, List.append_nil]
        exact hp
    · intro t v ty d o hp hd
      by_cases hM : ty = tyM
      · have hM' := hM
        rw [hM, show tyM = MSG_TYPE_INFO_MULTIPLE from rfl, handleData_M] at hd
        cases hd
        exact multiInv_msg hM' hp
      · have : infoMultiOf cfg.ign (v, ty, d) = none := by simp [infoMultiOf, hM]
        have hfr := handleData_frame (fun u => (u.infoMulti, u.infoMultiTypes)) hd
          (hM := fun e => absurd e hM)
        simp only [Prod.mk.injEq] at hfr
        unfold MultiInv multiFor multiTypes
        rw [filterMap_snoc, this, hfr.1, hfr.2]
        simp only [Option.toList, List.append_nil]
        exact hp
    · intro v hv key
      rw [readHeader_init hv]
      exact ⟨rfl, rfl⟩
  exact key' key

/-- **C11** (the grouping loses nothing): the groups concatenate to the values in order and none is
empty; appending a value starts a new group iff it is the first or its continued flag is 0. -/
theorem C11_groups_lossless (l : List (Nat × α)) (c : Nat) (v : α) :
    (groups l).flatten = l.map (·.2) ∧ [] ∉ groups l ∧
    groups (l ++ [(c, v)]) =
      (if l = [] ∨ c = 0 then groups l ++ [[v]]
       else (groups l).dropLast ++ [((groups l).getLast?.getD []) ++ [v]]) := by
  refine ⟨?_, ?_, ?_⟩
  · cases l with
    | nil => rfl
    | cons p l =>
      simp only [groups, List.flatten_cons, List.cons_append, List.map_cons,
        (splitGroups_flatten l).1]
  · cases l with
    | nil => simp [groups]
    | cons p l =>
      simp only [groups, List.mem_cons, not_or]
      exact ⟨by simp, (splitGroups_flatten l).2⟩
  · rw [groups_snoc]
    by_cases hl : l = []
    · simp [hl, groups]
    · by_cases hc : c = 0 <;> simp [hl, hc]

example : Sample.loaded.infoMulti.get? (py! "m")
    = some [[.str (py! "u"), .str (py! "v")], [.str (py! "w")]] := by decide +kernel

/-! ### C51 -/

/-- info messages as key and (type, value) -/
def infos (ign : Bool) (t : List Tr) : List (Str × Str × Value) :=
  (t.filterMap (infoOf ign)).map fun r => (r.2.1, r.1, r.2.2)

/-- assertion kept by every message -/
def InfoInv (ign : Bool) (t : List Tr) (u : ULog) : Prop :=
  ∀ key, u.info.get? key = (lastOf key (infos ign t)).map (·.2) ∧
    u.infoTypes.get? key = (lastOf key (infos ign t)).map (·.1)

theorem infoInv_msg {ign : Bool} {u : ULog} {ty : Nat} {d : Bytes} {t : List Tr}
    (hI : ty = tyI) (hp : InfoInv ign t u) :
    InfoInv ign (t ++ [(u, ty, d)]) (Out.bind (parseInfo ign d) u (addInfo u)).state := by
  intro key
  obtain ⟨h1, h2⟩ := hp key
  unfold infos
  rw [filterMap_snoc]
  unfold infoOf
  simp only [hI, if_true]
  cases hd : parseInfo ign d with
  | error e =>
    rw [keyValue_err hd]
    simp only [Option.toList, List.append_nil]
    exact ⟨h1, h2⟩
  | ok m =>
    rw [keyValue_ok hd]
    simp only [Option.toList, List.map_append, List.map_cons, List.map_nil]
    rw [lastOf_snoc]
    simp only [Out.bind, Out.state, addInfo, Dict.get?_set]
    by_cases hk : m.key = key
    · simp [hk]
    · rw [if_neg hk, if_neg hk, if_neg hk]
      exact ⟨h1, h2⟩

/-- **C51.** After loading any file, `msg_info_dict[key]` and `msg_info_dict_types[key]` are the
value and the type of the last info message for `key` in either section (absent when there is
none). -/
theorem C51_info (fuel : Nat) (cfg : Cfg) (bs : Bytes) (u : ULog)
    (h : load fuel cfg bs = .ok u) (key : Str) :
    let r := lastOf key (((defTrace fuel cfg bs ++ (fileTrace fuel cfg bs).flatten).filterMap
      (infoOf cfg.ign)).map fun m => (m.2.1, m.1, m.2.2))
    u.info.get? key = r.map (·.2) ∧ u.infoTypes.get? key = r.map (·.1) := by
  have key' : InfoInv cfg.ign (defTrace fuel cfg bs ++ (fileTrace fuel cfg bs).flatten) u := by
    refine load_inv_all (P := InfoInv cfg.ign) (fun t v c hh hp => hp) (fun t v d hp => hp)
      ?_ ?_ ?_ h
    · intro t v ty d o hp hd
      by_cases hI : ty = tyI
      · have hI' := hI
        rw [hI, show tyI = MSG_TYPE_INFO from rfl, handleDef_I] at hd
        cases hd
        exact infoInv_msg hI' hp
      · have : infoOf cfg.ign (v, ty, d) = none := by simp [infoOf, hI]
        have hfr := handleDef_frame (fun u => (u.info, u.infoTypes)) hd
          (hI := fun e => absurd e hI)
        simp only [Prod.mk.injEq] at hfr
        unfold InfoInv infos
        rw [filterMap_snoc, this, hfr.1, hfr.2]
        simp only [Option.toList, List.append_nil]
        exact hp
    · intro t v ty d o hp hd
      by_cases hI : ty = tyI
      · have hI' := hI
        rw [hI, show tyI = MSG_TYPE_INFO from rfl, handleData_I] at hd
        cases hd
        exact infoInv_msg hI' hp
      · have : infoOf cfg.ign (v, ty, d) = none := by simp [infoOf, hI]
        have hfr := handleData_frame (fun u => (u.info, u.infoTypes)) hd
          (hI := fun e => absurd e hI)
        simp only [Prod.mk.injEq] at hfr
        unfold InfoInv infos
        rw [filterMap_snoc, this, hfr.1, hfr.2]
        simp only [Option.toList, List.append_nil]
        exact hp
    · intro v hv key
      rw [readHeader_init hv]
      exact ⟨rfl, rfl⟩
  exact key' key

example : Sample.loaded.info.get? (py! "sys") = some (.str (py! "PX4")) ∧
    Sample.loaded.infoTypes.get? (py! "sys") = some (py! "char[3]") := by decide +kernel

end PyULog
