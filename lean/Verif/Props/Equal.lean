import Verif.Lemmas.Values
import Verif.Props.Api
import Verif.Props.Tools
/-
Property theorems: C53 (comparison of two loaded logs).
-/
namespace PyULog
open Spec

/-! ### what two equal logs have in common, restated without the model's comparison functions -/

/-- a number: a finite one in units of 2^-1074, or an infinity -/
inductive Spec.Num
  | fin (units : Int)
  | inf (negative : Bool)
  deriving DecidableEq

/-- the number a Python value stands for; nothing for text, bytes and NaN -/
def Spec.numOf : Value → Option Num
  | .int n => some (.fin (n * 2 ^ 1074))
  | .bool b => some (.fin (if b then 2 ^ 1074 else 0))
  | .float b =>
    if exp64 b = 2047 then (if frac64 b = 0 then some (.inf (decide (sign64 b ≠ 0))) else none)
    else some (.fin (val64 b))
  | _ => none

/-- the same text, the same bytes, or the same number -/
def Spec.SameValue (v w : Value) : Prop :=
  (∃ s, v = .str s ∧ w = .str s) ∨ (∃ s, v = .bytes s ∧ w = .bytes s) ∨
    ∃ n, numOf v = some n ∧ numOf w = some n

/-- a float that is not a number -/
def Spec.NaNValue (v : Value) : Prop := ∃ b, v = .float b ∧ exp64 b = 2047 ∧ frac64 b ≠ 0

/-- the same keys, with related values -/
def Spec.SameMap {κ α : Type} [DecidableEq κ] (R : α → α → Prop) (a b : Dict κ α) : Prop :=
  (∀ k x, a.get? k = some x → ∃ y, b.get? k = some y ∧ R x y) ∧ ∀ k, a.get? k = none → b.get? k = none

/-- related elements at the same positions -/
def Spec.SameList {α : Type} (R : α → α → Prop) (a b : List α) : Prop :=
  a.length = b.length ∧ ∀ (i : Nat) x y, a[i]? = some x → b[i]? = some y → R x y

/-- the same content of the compared attributes -/
structure Spec.SameLog (a b : ULog) : Prop where
  corrupt : a.fileCorrupt = b.fileCorrupt
  start : a.startTs = b.startTs
  last : a.lastTs = b.lastTs
  info : SameMap SameValue a.info b.info
  infoTypes : SameMap Eq a.infoTypes b.infoTypes
  infoMulti : SameMap (SameList (SameList SameValue)) a.infoMulti b.infoMulti
  infoMultiTypes : SameMap Eq a.infoMultiTypes b.infoMultiTypes
  initial : SameMap SameValue a.initialParams b.initialParams
  defaults : SameMap (SameMap SameValue) a.defaultParams b.defaultParams
  changed : SameList (fun x y => x.1 = y.1 ∧ x.2.1 = y.2.1 ∧ SameValue x.2.2 y.2.2) a.changedParams b.changedParams
  formats : SameMap Eq a.formats b.formats
  logged : a.logged = b.logged
  tagged : SameMap Eq a.tagged b.tagged
  dropouts : a.dropouts = b.dropouts
  data : SameList SameData a.dataList b.dataList
  filtered : ∀ k, k ∈ a.filteredIds ↔ k ∈ b.filteredIds
  missing : ∀ k, k ∈ a.missingIds ↔ k ∈ b.missingIds
  version : a.fileVersion = b.fileVersion
  compat : a.compat = b.compat
  incompat : a.incompat = b.incompat
  appended : a.appendedOffsets = b.appendedOffsets
  hasSync : a.hasSync = b.hasSync
  syncCnt : a.syncCnt = b.syncCnt

/-! ### values -/

/-- float bit patterns have 64 bits -/
def ValueOk (v : Value) : Prop := ∀ b, v = .float b → b < 2 ^ 64

theorem numOf_int_eq {m n : Int} : m * 2 ^ 1074 = n * 2 ^ 1074 ↔ m = n :=
  ⟨fun h => Int.eq_of_mul_eq_mul_right (Int.ne_of_gt (Int.pow_pos (by decide))) h, fun h => by rw [h]⟩

theorem numEq_float_iff {b : Nat} (hb : b < 2 ^ 64) (n : Int) :
    NumEq (.float b) n ↔ numOf (.float b) = some (.fin (n * 2 ^ 1074)) := by
  have hs : sign64 b < 2 := by unfold sign64; omega
  have ht : b.testBit 63 = true ↔ sign64 b = 1 := by
    rw [Nat.testBit_eq_decide_div_mod_eq, decide_eq_true_eq]
    unfold sign64
    omega
  unfold NumEq numOf finite64
  dsimp only
  by_cases he : exp64 b = 2047
  · rw [if_pos he]
    constructor
    · intro h; exact absurd he h.1
    · intro h
      split at h
      · injection h with h
        cases h
      · cases h
  · rw [if_neg he]
    have h1 : (some (Num.fin (val64 b)) = some (Num.fin (n * 2 ^ 1074))) ↔ val64 b = n * 2 ^ 1074 := by
      constructor
      · intro h; injection h with h; injection h
      · intro h; rw [h]
    rw [h1, ht]
    unfold val64
    have hP : (0 : Int) < 2 ^ 1074 := Int.pow_pos (by decide)
    have hcast : ((2 ^ 1074 : Nat) : Int) = (2 : Int) ^ 1074 := Int.natCast_pow 2 1074
    have hnat : mag64 b = n.natAbs * 2 ^ 1074 ↔ (mag64 b : Int) = (n.natAbs : Int) * 2 ^ 1074 := by
      rw [← hcast, ← Int.natCast_mul]
      exact Int.ofNat_inj.symm
    rw [hnat]
    have hm : (0 : Int) ≤ (mag64 b : Int) := Int.natCast_nonneg _
    generalize (mag64 b : Int) = M at hm
    generalize (2 : Int) ^ 1074 = P at hP
    have hz : 0 * P = 0 := Int.zero_mul P
    rcases Int.lt_trichotomy n 0 with hn | hn | hn
    · have hab : (n.natAbs : Int) = -n := by omega
      rw [hab, Int.neg_mul]
      have hneg : n * P < 0 := Int.mul_neg_of_neg_of_pos hn hP
      constructor
      · rintro ⟨_, h2, h3 | h3⟩
        · omega
        · rw [if_neg (by have := h3.mpr hn; omega)]; omega
      · intro h
        split at h
        · omega
        · exact ⟨he, by omega, Or.inr ⟨fun _ => hn, fun _ => by omega⟩⟩
    · subst hn
      simp only [Int.natAbs_zero, Int.natCast_zero, Int.zero_mul]
      constructor
      · rintro ⟨_, h2, _⟩; rw [h2]; split <;> rfl
      · intro h
        refine ⟨he, ?_, Or.inl trivial⟩
        split at h <;> omega
    · have hab : (n.natAbs : Int) = n := by omega
      rw [hab]
      have hpos : 0 < n * P := Int.mul_pos hn hP
      constructor
      · rintro ⟨_, h2, h3 | h3⟩
        · omega
        · by_cases h0 : sign64 b = 0
          · rw [if_pos h0]; exact h2
          · have := h3.mp (by omega)
            omega
      · intro h
        split at h
        · exact ⟨he, h, Or.inr ⟨fun h' => by omega, fun h' => by omega⟩⟩
        · omega

theorem sameNum_float {a b : Nat} (ha : a < 2 ^ 64) (hb : b < 2 ^ 64) :
    eq64 a b = true ↔ ∃ n, numOf (.float a) = some n ∧ numOf (.float b) = some n := by
  have sa : sign64 a < 2 := by unfold sign64; omega
  have sb : sign64 b < 2 := by unfold sign64; omega
  rw [eq64_iff ha hb]
  unfold SameNumber numOf finite64
  dsimp only
  constructor
  · rintro (⟨f1, f2, hv⟩ | ⟨e1, z1, e2, z2, hs⟩)
    · exact ⟨.fin (val64 a), by rw [if_neg f1], by rw [if_neg f2, hv]⟩
    · exact ⟨.inf (decide (sign64 a ≠ 0)), by rw [if_pos e1, if_pos z1], by rw [if_pos e2, if_pos z2, hs]⟩
  · rintro ⟨n, h1, h2⟩
    by_cases e1 : exp64 a = 2047
    · rw [if_pos e1] at h1
      by_cases z1 : frac64 a = 0
      · rw [if_pos z1] at h1
        injection h1 with h1
        subst h1
        by_cases e2 : exp64 b = 2047
        · rw [if_pos e2] at h2
          by_cases z2 : frac64 b = 0
          · rw [if_pos z2] at h2
            injection h2 with h2
            injection h2 with h2
            refine Or.inr ⟨e1, z1, e2, z2, ?_⟩
            rw [decide_eq_decide] at h2
            omega
          · rw [if_neg z2] at h2; cases h2
        · rw [if_neg e2] at h2
          injection h2 with h2
          cases h2
      · rw [if_neg z1] at h1; cases h1
    · rw [if_neg e1] at h1
      injection h1 with h1
      subst h1
      by_cases e2 : exp64 b = 2047
      · rw [if_pos e2] at h2
        by_cases z2 : frac64 b = 0
        · rw [if_pos z2] at h2
          injection h2 with h2
          cases h2
        · rw [if_neg z2] at h2; cases h2
      · rw [if_neg e2] at h2
        injection h2 with h2
        injection h2 with h2
        exact Or.inl ⟨e1, e2, h2.symm⟩

theorem numOf_bool (b : Bool) : numOf (.bool b) = some (.fin (boolInt b * 2 ^ 1074)) := by
  cases b
  · show some (Num.fin 0) = some (Num.fin (0 * 2 ^ 1074))
    rw [Int.zero_mul]
  · show some (Num.fin (2 ^ 1074)) = some (Num.fin (1 * 2 ^ 1074))
    rw [Int.one_mul]

theorem some_fin_inj {m n : Int} : (some (Num.fin (m * 2 ^ 1074)) = some (Num.fin (n * 2 ^ 1074))) ↔ m = n := by
  rw [← numOf_int_eq]
  constructor
  · intro h; injection h with h; injection h
  · intro h; rw [h]

theorem ex_num {o p : Option Num} {n : Num} (ho : o = some n) :
    (∃ k, o = some k ∧ p = some k) ↔ p = some n := by
  constructor
  · rintro ⟨k, h1, h2⟩
    rw [ho] at h1
    injection h1 with h1
    rw [h2, h1]
  · intro h; exact ⟨n, ho, h⟩

theorem ex_num' {o p : Option Num} {n : Num} (ho : p = some n) :
    (∃ k, o = some k ∧ p = some k) ↔ o = some n := by
  constructor
  · rintro ⟨k, h1, h2⟩
    rw [ho] at h2
    injection h2 with h2
    rw [h1, h2]
  · intro h; exact ⟨n, h, ho⟩

theorem boolInt_inj {a b : Bool} : boolInt a = boolInt b ↔ a = b := by
  cases a <;> cases b <;> decide

/-- `==` of two values holds exactly for the same text, bytes or number -/
theorem valueEq_iff {v w : Value} (hv : ValueOk v) (hw : ValueOk w) : valueEq v w = true ↔ SameValue v w := by
  have hnum : ∀ {v w : Value}, (∀ s, v ≠ .str s) → (∀ s, v ≠ .bytes s) →
      (SameValue v w ↔ ∃ n, numOf v = some n ∧ numOf w = some n) := by
    intro v w h1 h2
    constructor
    · rintro (⟨s, h, _⟩ | ⟨s, h, _⟩ | h)
      · exact absurd h (h1 s)
      · exact absurd h (h2 s)
      · exact h
    · intro h; exact Or.inr (Or.inr h)
  cases v with
  | str s =>
    cases w with
    | str t =>
      unfold valueEq
      rw [decide_eq_true_eq]
      constructor
      · intro h; subst h; exact Or.inl ⟨s, rfl, rfl⟩
      · rintro (⟨x, h1, h2⟩ | ⟨x, h1, h2⟩ | ⟨n, h1, h2⟩)
        · injection h1 with h1
          injection h2 with h2
          rw [h1, h2]
        · cases h1
        · cases h1
    | _ =>
      unfold valueEq
      constructor
      · intro h; cases h
      · rintro (⟨x, h1, h2⟩ | ⟨x, h1, h2⟩ | ⟨n, h1, h2⟩)
        · cases h2
        · cases h1
        · cases h1
  | bytes s =>
    cases w with
    | bytes t =>
      unfold valueEq
      rw [decide_eq_true_eq]
      constructor
      · intro h; subst h; exact Or.inr (Or.inl ⟨s, rfl, rfl⟩)
      · rintro (⟨x, h1, h2⟩ | ⟨x, h1, h2⟩ | ⟨n, h1, h2⟩)
        · cases h1
        · injection h1 with h1
          injection h2 with h2
          rw [h1, h2]
        · cases h1
    | _ =>
      unfold valueEq
      constructor
      · intro h; cases h
      · rintro (⟨x, h1, h2⟩ | ⟨x, h1, h2⟩ | ⟨n, h1, h2⟩)
        · cases h1
        · cases h2
        · cases h1
  | int m =>
    rw [hnum (fun s h => (by cases h)) (fun s h => (by cases h)), ex_num (o := numOf (.int m)) (n := .fin (m * 2 ^ 1074)) rfl]
    cases w with
    | str t => exact ⟨fun h => (by cases h), fun h => by cases h⟩
    | bytes t => exact ⟨fun h => (by cases h), fun h => by cases h⟩
    | int n =>
      unfold valueEq
      rw [decide_eq_true_eq]
      exact eq_comm.trans some_fin_inj.symm
    | bool b =>
      unfold valueEq
      rw [decide_eq_true_eq, numOf_bool]
      exact eq_comm.trans some_fin_inj.symm
    | float b => exact (floatEqInt_spec b m).trans (numEq_float_iff (hw b rfl) m)
  | bool c =>
    rw [hnum (fun s h => (by cases h)) (fun s h => (by cases h)), ex_num (numOf_bool c)]
    cases w with
    | str t => exact ⟨fun h => (by cases h), fun h => by cases h⟩
    | bytes t => exact ⟨fun h => (by cases h), fun h => by cases h⟩
    | int n =>
      unfold valueEq
      rw [decide_eq_true_eq]
      exact eq_comm.trans some_fin_inj.symm
    | bool b =>
      unfold valueEq
      rw [decide_eq_true_eq, numOf_bool, some_fin_inj, boolInt_inj]
      exact eq_comm
    | float b => exact (floatEqInt_spec b _).trans (numEq_float_iff (hw b rfl) _)
  | float a =>
    rw [hnum (fun s h => (by cases h)) (fun s h => (by cases h))]
    cases w with
    | str t => exact ⟨fun h => (by cases h), fun ⟨n, h1, h2⟩ => by cases h2⟩
    | bytes t => exact ⟨fun h => (by cases h), fun ⟨n, h1, h2⟩ => by cases h2⟩
    | int n =>
      rw [ex_num' (p := numOf (.int n)) (n := .fin (n * 2 ^ 1074)) rfl]
      exact (floatEqInt_spec a n).trans (numEq_float_iff (hv a rfl) n)
    | bool b =>
      rw [ex_num' (numOf_bool b)]
      exact (floatEqInt_spec a _).trans (numEq_float_iff (hv a rfl) _)
    | float b => exact sameNum_float (hv a rfl) (hw b rfl)

theorem SameValue.symm {v w : Value} (h : SameValue v w) : SameValue w v := by
  rcases h with ⟨s, h1, h2⟩ | ⟨s, h1, h2⟩ | ⟨n, h1, h2⟩
  · exact Or.inl ⟨s, h2, h1⟩
  · exact Or.inr (Or.inl ⟨s, h2, h1⟩)
  · exact Or.inr (Or.inr ⟨n, h2, h1⟩)

theorem SameValue.trans {v w x : Value} (h : SameValue v w) (h' : SameValue w x) : SameValue v x := by
  rcases h with ⟨s, h1, h2⟩ | ⟨s, h1, h2⟩ | ⟨n, h1, h2⟩ <;>
    rcases h' with ⟨t, g1, g2⟩ | ⟨t, g1, g2⟩ | ⟨m, g1, g2⟩
  · rw [h2] at g1; injection g1 with g1; exact Or.inl ⟨s, h1, by rw [g2, g1]⟩
  · rw [h2] at g1; cases g1
  · rw [h2] at g1; cases g1
  · rw [h2] at g1; cases g1
  · rw [h2] at g1; injection g1 with g1; exact Or.inr (Or.inl ⟨s, h1, by rw [g2, g1]⟩)
  · rw [h2] at g1; cases g1
  · rw [g1] at h2; cases h2
  · rw [g1] at h2; cases h2
  · rw [h2] at g1; injection g1 with g1; exact Or.inr (Or.inr ⟨n, h1, by rw [g2, g1]⟩)

/-- a value equals itself unless it is a NaN -/
theorem sameValue_self (v : Value) : SameValue v v ↔ ¬ NaNValue v := by
  cases v with
  | str s => exact ⟨fun _ ⟨b, h, _⟩ => (by cases h), fun _ => Or.inl ⟨s, rfl, rfl⟩⟩
  | bytes s => exact ⟨fun _ ⟨b, h, _⟩ => (by cases h), fun _ => Or.inr (Or.inl ⟨s, rfl, rfl⟩)⟩
  | int n => exact ⟨fun _ ⟨b, h, _⟩ => (by cases h), fun _ => Or.inr (Or.inr ⟨_, rfl, rfl⟩)⟩
  | bool n => exact ⟨fun _ ⟨b, h, _⟩ => (by cases h), fun _ => Or.inr (Or.inr ⟨_, rfl, rfl⟩)⟩
  | float b =>
    constructor
    · rintro (⟨s, h, _⟩ | ⟨s, h, _⟩ | ⟨n, h, _⟩)
      · cases h
      · cases h
      · rintro ⟨b', hb, h1, h2⟩
        injection hb with hb
        subst hb
        unfold numOf at h
        dsimp only at h
        rw [if_pos h1, if_neg h2] at h
        cases h
    · intro h
      refine Or.inr (Or.inr ?_)
      by_cases h1 : exp64 b = 2047
      · by_cases h2 : frac64 b = 0
        · exact ⟨.inf (decide (sign64 b ≠ 0)), by unfold numOf; dsimp only; rw [if_pos h1, if_pos h2],
            by unfold numOf; dsimp only; rw [if_pos h1, if_pos h2]⟩
        · exact absurd ⟨b, rfl, h1, h2⟩ h
      · exact ⟨.fin (val64 b), by unfold numOf; dsimp only; rw [if_neg h1],
            by unfold numOf; dsimp only; rw [if_neg h1]⟩

/-! ### lists and dictionaries -/

theorem listEq_iff {α : Type} {veq : α → α → Bool} {R : α → α → Prop} {a b : List α}
    (h : ∀ x ∈ a, ∀ y ∈ b, (veq x y = true ↔ R x y)) : listEq veq a b = true ↔ SameList R a b := by
  unfold listEq SameList
  rw [Bool.and_eq_true, decide_eq_true_eq, List.all_eq_true]
  refine and_congr_right fun hl => ?_
  constructor
  · intro hz i x y hx hy
    refine (h x (List.mem_of_getElem? hx) y (List.mem_of_getElem? hy)).mp (hz (x, y) ?_)
    exact List.mem_of_getElem? (i := i) (List.getElem?_zip_eq_some.mpr ⟨hx, hy⟩)
  · intro hz p hp
    obtain ⟨i, hi⟩ := List.getElem?_of_mem hp
    obtain ⟨hx, hy⟩ := List.getElem?_zip_eq_some.mp hi
    exact (h _ (List.mem_of_getElem? hx) _ (List.mem_of_getElem? hy)).mpr (hz i _ _ hx hy)

theorem get?_eq_none_of {κ α : Type} [DecidableEq κ] {d : Dict κ α} {k : κ} (h : k ∉ d.keys) : d.get? k = none := by
  cases hg : d.get? k with
  | none => rfl
  | some x => exact absurd (List.mem_map.mpr ⟨_, Dict.mem_of_get? _ _ _ hg, rfl⟩) h

theorem get?_some_of_key {κ α : Type} [DecidableEq κ] {d : Dict κ α} {k : κ} (h : k ∈ d.keys) : ∃ x, d.get? k = some x := by
  cases hg : d.get? k with
  | some x => exact ⟨x, rfl⟩
  | none =>
    exfalso
    rw [Dict.mem_keys_iff, hg] at h
    cases h

theorem nodup_subset_of_length {α : Type} {l m : List α} (hl : l.Nodup) (hs : ∀ x ∈ l, x ∈ m)
    (hlen : m.length ≤ l.length) : ∀ x ∈ m, x ∈ l := by
  intro x hx
  apply Classical.byContradiction
  intro hn
  have h1 : (x :: l).Nodup := List.nodup_cons.mpr ⟨hn, hl⟩
  have h2 : (x :: l).length ≤ m.length := h1.length_le_of_subset (fun y hy => by
    rcases List.mem_cons.mp hy with rfl | hy
    · exact hx
    · exact hs y hy)
  rw [List.length_cons] at h2
  omega

theorem keys_length {κ α : Type} (d : Dict κ α) : d.keys.length = d.length := by
  unfold Dict.keys
  exact List.length_map ..

theorem dictEq_iff {κ α : Type} [DecidableEq κ] {veq : α → α → Bool} {R : α → α → Prop} {a b : Dict κ α}
    (ha : DictOk a) (hb : DictOk b) (h : ∀ p ∈ a, ∀ q ∈ b, (veq p.2 q.2 = true ↔ R p.2 q.2)) :
    dictEq veq a b = true ↔ SameMap R a b := by
  unfold dictEq SameMap
  rw [Bool.and_eq_true, decide_eq_true_eq, List.all_eq_true]
  constructor
  · rintro ⟨hl, hz⟩
    have hkey : ∀ k x, a.get? k = some x → ∃ y, b.get? k = some y ∧ R x y := by
      intro k x hx
      have hm := Dict.mem_of_get? _ _ _ hx
      have := hz _ hm
      cases hg : b.get? k with
      | none => dsimp only at this; rw [hg] at this; cases this
      | some y =>
        dsimp only at this
        rw [hg] at this
        exact ⟨y, rfl, (h _ hm _ (Dict.mem_of_get? _ _ _ hg)).mp this⟩
    refine ⟨hkey, fun k hk => get?_eq_none_of ?_⟩
    intro hkb
    have hsub : ∀ x ∈ a.keys, x ∈ b.keys := by
      intro x hx
      obtain ⟨v, hv⟩ := get?_some_of_key hx
      obtain ⟨y, hy, _⟩ := hkey x v hv
      exact List.mem_map.mpr ⟨_, Dict.mem_of_get? _ _ _ hy, rfl⟩
    have := nodup_subset_of_length ha hsub (by rw [keys_length, keys_length]; omega) k hkb
    obtain ⟨v, hv⟩ := get?_some_of_key this
    rw [hk] at hv
    cases hv
  · rintro ⟨h1, h2⟩
    have hab : ∀ x ∈ a.keys, x ∈ b.keys := by
      intro x hx
      obtain ⟨v, hv⟩ := get?_some_of_key hx
      obtain ⟨y, hy, _⟩ := h1 x v hv
      exact List.mem_map.mpr ⟨_, Dict.mem_of_get? _ _ _ hy, rfl⟩
    have hba : ∀ x ∈ b.keys, x ∈ a.keys := by
      intro x hx
      apply Classical.byContradiction
      intro hn
      obtain ⟨v, hv⟩ := get?_some_of_key hx
      rw [h2 x (get?_eq_none_of hn)] at hv
      cases hv
    refine ⟨?_, ?_⟩
    · have l1 := List.Nodup.length_le_of_subset ha hab
      have l2 := List.Nodup.length_le_of_subset hb hba
      rw [keys_length, keys_length] at l1 l2
      omega
    · rintro ⟨k, x⟩ hp
      have hx := Dict.get?_of_mem _ _ _ ha hp
      obtain ⟨y, hy, hr⟩ := h1 k x hx
      dsimp only
      rw [hy]
      exact (h _ hp _ (Dict.mem_of_get? _ _ _ hy)).mpr hr

theorem Spec.SameMap.symm {κ α : Type} [DecidableEq κ] {R : α → α → Prop} {a b : Dict κ α}
    (hR : ∀ x y, R x y → R y x) (h : SameMap R a b) : SameMap R b a := by
  refine ⟨fun k y hy => ?_, fun k hk => ?_⟩
  · cases hx : a.get? k with
    | none => rw [h.2 k hx] at hy; cases hy
    | some x =>
      obtain ⟨y', hy', hr⟩ := h.1 k x hx
      rw [hy'] at hy
      injection hy with hy
      subst hy
      exact ⟨x, rfl, hR _ _ hr⟩
  · cases hx : a.get? k with
    | none => rfl
    | some x =>
      obtain ⟨y', hy', hr⟩ := h.1 k x hx
      rw [hk] at hy'
      cases hy'

theorem Spec.SameMap.trans {κ α : Type} [DecidableEq κ] {R : α → α → Prop} {a b c : Dict κ α}
    (hR : ∀ x y z, R x y → R y z → R x z) (h : SameMap R a b) (h' : SameMap R b c) : SameMap R a c := by
  refine ⟨fun k x hx => ?_, fun k hk => h'.2 k (h.2 k hk)⟩
  obtain ⟨y, hy, hr⟩ := h.1 k x hx
  obtain ⟨z, hz, hr'⟩ := h'.1 k y hy
  exact ⟨z, hz, hR _ _ _ hr hr'⟩

theorem Spec.SameList.symm {α : Type} {R : α → α → Prop} {a b : List α}
    (hR : ∀ x y, R x y → R y x) (h : SameList R a b) : SameList R b a :=
  ⟨h.1.symm, fun i x y hx hy => hR _ _ (h.2 i y x hy hx)⟩

theorem Spec.SameList.trans {α : Type} {R : α → α → Prop} {a b c : List α}
    (hR : ∀ x y z, R x y → R y z → R x z) (h : SameList R a b) (h' : SameList R b c) : SameList R a c := by
  refine ⟨h.1.trans h'.1, fun i x z hx hz => ?_⟩
  have hi : i < b.length := by
    have := (List.getElem?_eq_some_iff.mp hx).1
    have := h.1
    omega
  exact hR _ _ _ (h.2 i x b[i] hx (List.getElem?_eq_getElem hi)) (h'.2 i b[i] z (List.getElem?_eq_getElem hi) hz)

theorem sameMap_self {κ α : Type} [DecidableEq κ] {R : α → α → Prop} {a : Dict κ α} (ha : DictOk a) :
    SameMap R a a ↔ ∀ p ∈ a, R p.2 p.2 := by
  constructor
  · rintro ⟨h, _⟩ ⟨k, x⟩ hp
    have hx := Dict.get?_of_mem _ _ _ ha hp
    obtain ⟨y, hy, hr⟩ := h k x hx
    rw [hx] at hy
    injection hy with hy
    subst hy
    exact hr
  · intro h
    exact ⟨fun k x hx => ⟨x, hx, h _ (Dict.mem_of_get? _ _ _ hx)⟩, fun k hk => hk⟩

theorem sameList_self {α : Type} {R : α → α → Prop} {a : List α} : SameList R a a ↔ ∀ x ∈ a, R x x := by
  constructor
  · rintro ⟨_, h⟩ x hx
    obtain ⟨i, hi⟩ := List.getElem?_of_mem hx
    exact h i x x hi hi
  · intro h
    refine ⟨rfl, fun i x y hx hy => ?_⟩
    rw [hx] at hy
    injection hy with hy
    subst hy
    exact h _ (List.mem_of_getElem? hx)

/-! ### loaded logs -/

theorem widen_lt {b : Nat} (hb : b < 2 ^ 32) : widen b < 2 ^ 64 := by
  have hs : b / 2 ^ 31 < 2 := by omega
  unfold widen
  dsimp only
  have he : b / 2 ^ 23 % 256 < 256 := Nat.mod_lt _ (by decide)
  have hm : b % 2 ^ 23 < 2 ^ 23 := Nat.mod_lt _ (by decide)
  generalize b / 2 ^ 31 = s at hs
  generalize b / 2 ^ 23 % 256 = e at he
  generalize b % 2 ^ 23 = m at hm
  split
  · split
    · omega
    · have := Nat.mod_lt m (show 0 < 2 ^ 22 by decide)
      omega
  · have hM : (if e = 0 then m else m + 2 ^ 23) < 2 ^ 24 := by split <;> omega
    generalize (if e = 0 then m else m + 2 ^ 23) = M at hM
    split
    · omega
    · rename_i hne h0
      have hl : Nat.log2 M < 24 := (Nat.log2_lt h0).mpr hM
      have hlt : M < 2 ^ (Nat.log2 M + 1) := Nat.lt_log2_self
      generalize Nat.log2 M = l at hl hlt
      have h2 : M * 2 ^ (52 - l) < 2 ^ (l + 1) * 2 ^ (52 - l) := Nat.mul_lt_mul_of_pos_right hlt (Nat.two_pow_pos _)
      rw [← Nat.pow_add, show l + 1 + (52 - l) = 53 by omega] at h2
      omega

theorem unpackScalar_ok {t : BT} {b : Bytes} {v : Value} (h : unpackScalar t b = .ok v) : ValueOk v := by
  unfold unpackScalar at h
  split at h
  · cases h
  · rename_i hl
    have hl : b.length = t.size := Classical.not_not.mp hl
    have hlt : leNat b < 256 ^ b.length := leNat_lt b
    rw [hl] at hlt
    intro w hw
    cases t <;> injection h with h <;> subst h <;> cases hw
    · exact widen_lt hlt
    · exact hlt

theorem parsed_ok : Parsed ValueOk := by
  intro ign ty b v h
  unfold parseInfoValue at h
  split at h
  · cases hp : parseString ign b with
    | error e => rw [hp] at h; cases h
    | ok s =>
      rw [hp] at h
      injection h with h
      subst h
      intro w hw
      cases hw
  · split at h
    · exact unpackScalar_ok h
    · injection h with h
      subst h
      intro w hw
      cases hw

theorem readSections_subs {cfg : Cfg} {bs : Bytes} {offs : List Nat} {pos : Nat} {u u' : ULog}
    (h : readSections cfg bs offs pos u = .ok u') (hs : u.subs = []) : u'.subs = [] := by
  induction offs generalizing pos u with
  | nil => exact (readData_section h hs).1
  | cons off offs ih =>
    simp only [readSections] at h
    split at h
    · rename_i u2 heq
      obtain ⟨hs2, _⟩ := readData_section heq hs
      split at h
      · cases h
      · exact ih h hs2
    · rename_i hne; exact absurd h (hne _)

/-- a loaded log has no subscriptions left -/
theorem load_subs {fuel : Nat} {cfg : Cfg} {bs : Bytes} {u : ULog} (h : load fuel cfg bs = .ok u) : u.subs = [] := by
  have hafter : ∀ s, afterDefs fuel cfg bs = some s → s.u.subs = [] := fun s hs => (afterDefs_init hs).1
  unfold load at h
  unfold afterDefs at hafter
  split at h
  · cases h
  · rename_i u0 hh
    simp only [hh] at hafter
    split at h
    · cases h
    · cases h
    · rename_i s hd
      simp only [hd] at hafter
      have hs := hafter s rfl
      split at h
      · injection h with h
        rw [← h]; exact hs
      · exact readSections_subs h hs

theorem sameData_refl {d : Dataset} : SameData d d := by
  refine ⟨rfl, rfl, rfl, rfl, rfl, rfl, fun p hp => ?_⟩
  have hd : ∀ {α : Type} {l : List α} {p : α × α}, p ∈ l.zip l → p.1 = p.2 := by
    intro α l p hp
    obtain ⟨i, hi⟩ := List.getElem?_of_mem hp
    obtain ⟨h1, h2⟩ := List.getElem?_zip_eq_some.mp hi
    rw [h1] at h2
    injection h2
  have h1 := hd hp
  rw [h1]
  exact ⟨rfl, fun q hq => by rw [hd hq]; exact SameOrNaN.refl _⟩

theorem SameData.symm {a b : Dataset} (h : SameData a b) : SameData b a := by
  obtain ⟨h1, h2, h3, h4, h5, h6, h7⟩ := h
  refine ⟨h1.symm, h2.symm, h3.symm, h4.symm, h5.symm, h6.symm, fun p hp => ?_⟩
  obtain ⟨g1, g2⟩ := h7 _ (zip_swap_mem hp)
  exact ⟨g1.symm, fun q hq => (g2 _ (zip_swap_mem hq)).symm⟩

theorem formatEq_iff (a b : MsgFormat) : formatEq a b = true ↔ a = b := by
  unfold formatEq
  rw [Bool.and_eq_true, decide_eq_true_eq, decide_eq_true_eq]
  cases a
  cases b
  simp

theorem keysEqNat_iff (a b : List Nat) : ulogEq.keysEqNat a b = true ↔ ∀ k, k ∈ a ↔ k ∈ b := by
  unfold ulogEq.keysEqNat
  simp only [Bool.and_eq_true, List.all_eq_true, decide_eq_true_eq]
  exact ⟨fun h k => ⟨h.1 k, h.2 k⟩, fun h => ⟨fun k => (h k).mp, fun k => (h k).mpr⟩⟩

theorem ulogEq_iff {u u' : ULog} (d : DictsOk u) (d' : DictsOk u') (v : AllVals ValueOk u) (v' : AllVals ValueOk u')
    (hd : ∀ x ∈ u.dataList, ∀ y ∈ u'.dataList, (dataEq x y = true ↔ SameData x y)) (hs : u.subs = u'.subs) :
    ulogEq u u' = true ↔ SameLog u u' := by
  have e1 : dictEq valueEq u.info u'.info = true ↔ SameMap SameValue u.info u'.info :=
    dictEq_iff d.info d'.info fun p hp q hq => valueEq_iff (v.info p hp) (v'.info q hq)
  have e2 : dictEq (fun x y => decide (x = y)) u.infoTypes u'.infoTypes = true ↔ SameMap Eq u.infoTypes u'.infoTypes :=
    dictEq_iff d.infoTypes d'.infoTypes fun p hp q hq => decide_eq_true_iff
  have e3 : dictEq (listEq (listEq valueEq)) u.infoMulti u'.infoMulti = true ↔
      SameMap (SameList (SameList SameValue)) u.infoMulti u'.infoMulti :=
    dictEq_iff d.infoMulti d'.infoMulti fun p hp q hq => listEq_iff fun x hx y hy => listEq_iff fun a ha b hb =>
      valueEq_iff (v.multi p hp x hx a ha) (v'.multi q hq y hy b hb)
  have e4 : dictEq (fun x y => decide (x = y)) u.infoMultiTypes u'.infoMultiTypes = true ↔
      SameMap Eq u.infoMultiTypes u'.infoMultiTypes :=
    dictEq_iff d.infoMultiTypes d'.infoMultiTypes fun p hp q hq => decide_eq_true_iff
  have e5 : dictEq valueEq u.initialParams u'.initialParams = true ↔ SameMap SameValue u.initialParams u'.initialParams :=
    dictEq_iff d.initial d'.initial fun p hp q hq => valueEq_iff (v.initial p hp) (v'.initial q hq)
  have e6 : dictEq (dictEq valueEq) u.defaultParams u'.defaultParams = true ↔
      SameMap (SameMap SameValue) u.defaultParams u'.defaultParams :=
    dictEq_iff d.defaults d'.defaults fun p hp q hq => dictEq_iff (d.default p hp) (d'.default q hq) fun a ha b hb =>
      valueEq_iff (v.defaults p hp a ha) (v'.defaults q hq b hb)
  have e7 : listEq (fun x y => decide (x.1 = y.1) && decide (x.2.1 = y.2.1) && valueEq x.2.2 y.2.2)
      u.changedParams u'.changedParams = true ↔
      SameList (fun x y => x.1 = y.1 ∧ x.2.1 = y.2.1 ∧ SameValue x.2.2 y.2.2) u.changedParams u'.changedParams :=
    listEq_iff fun x hx y hy => by
      rw [Bool.and_eq_true, Bool.and_eq_true, decide_eq_true_eq, decide_eq_true_eq,
        valueEq_iff (v.changed x hx) (v'.changed y hy), and_assoc]
  have e8 : dictEq formatEq u.formats u'.formats = true ↔ SameMap Eq u.formats u'.formats :=
    dictEq_iff d.formats d'.formats fun p hp q hq => formatEq_iff _ _
  have e9 : dictEq (fun x y => decide (x = y)) u.tagged u'.tagged = true ↔ SameMap Eq u.tagged u'.tagged :=
    dictEq_iff d.tagged d'.tagged fun p hp q hq => decide_eq_true_iff
  have e10 : listEq dataEq u.dataList u'.dataList = true ↔ SameList SameData u.dataList u'.dataList :=
    listEq_iff hd
  unfold ulogEq
  simp only [Bool.and_eq_true, decide_eq_true_eq, keysEqNat_iff]
  rw [e1, e2, e3, e4, e5, e6, e7, e8, e9, e10]
  constructor
  · rintro ⟨⟨⟨⟨⟨⟨⟨⟨⟨⟨⟨⟨⟨⟨⟨⟨⟨⟨⟨⟨⟨⟨⟨h1, h2⟩, h3⟩, h4⟩, h5⟩, h6⟩, h7⟩, h8⟩, h9⟩, h10⟩, h11⟩, h12⟩, h13⟩, h14⟩, h15⟩, h16⟩, h17⟩,
      h18⟩, h19⟩, h20⟩, h21⟩, h22⟩, h23⟩, h24⟩
    exact ⟨h1, h2, h3, h4, h5, h6, h7, h8, h9, h10, h11, h12, h13, h14, h15, h17, h18, h19, h20, h21, h22, h23, h24⟩
  · rintro ⟨h1, h2, h3, h4, h5, h6, h7, h8, h9, h10, h11, h12, h13, h14, h15, h17, h18, h19, h20, h21, h22, h23, h24⟩
    exact ⟨⟨⟨⟨⟨⟨⟨⟨⟨⟨⟨⟨⟨⟨⟨⟨⟨⟨⟨⟨⟨⟨⟨h1, h2⟩, h3⟩, h4⟩, h5⟩, h6⟩, h7⟩, h8⟩, h9⟩, h10⟩, h11⟩, h12⟩, h13⟩, h14⟩, h15⟩,
      hs⟩, h17⟩, h18⟩, h19⟩, h20⟩, h21⟩, h22⟩, h23⟩, h24⟩

/-- **C53**: two loaded logs compare equal exactly when all compared attributes have the same content. -/
theorem C53_same_content {fuel fuel' : Nat} {cfg cfg' : Cfg} {bs bs' : Bytes} {u u' : ULog}
    (h : load fuel cfg bs = .ok u) (h' : load fuel' cfg' bs' = .ok u') : ulogEq u u' = true ↔ SameLog u u' :=
  ulogEq_iff (load_dicts h) (load_dicts h') (load_vals parsed_ok h) (load_vals parsed_ok h')
    (fun x hx y hy => C28_loaded h h' x y hx hy) ((load_subs h).trans (load_subs h').symm)

/-- the log has a NaN among its info, parameter and default values -/
def Spec.HasNaN (u : ULog) : Prop :=
  (∃ p ∈ u.info, NaNValue p.2) ∨ (∃ p ∈ u.infoMulti, ∃ l ∈ p.2, ∃ v ∈ l, NaNValue v) ∨
  (∃ p ∈ u.initialParams, NaNValue p.2) ∨ (∃ p ∈ u.defaultParams, ∃ q ∈ p.2, NaNValue q.2) ∨
  ∃ c ∈ u.changedParams, NaNValue c.2.2

/-- **C53**: two reads of the same file compare equal unless the log has a NaN among its info values,
parameters or defaults. A NaN in a dataset makes no difference. -/
theorem C53_two_reads {fuel : Nat} {cfg : Cfg} {bs : Bytes} {u u' : ULog} (h : load fuel cfg bs = .ok u)
    (h' : load fuel cfg bs = .ok u') : ulogEq u u' = true ↔ ¬ HasNaN u := by
  rw [h] at h'
  injection h' with h'
  subst h'
  have d := load_dicts h
  rw [C53_same_content h h]
  constructor
  · rintro hs (⟨p, hp, hn⟩ | ⟨p, hp, l, hl, v, hv, hn⟩ | ⟨p, hp, hn⟩ | ⟨p, hp, q, hq, hn⟩ | ⟨c, hc, hn⟩)
    · exact (sameValue_self _).mp ((sameMap_self d.info).mp hs.info p hp) hn
    · exact (sameValue_self _).mp (sameList_self.mp (sameList_self.mp ((sameMap_self d.infoMulti).mp hs.infoMulti p hp) l hl) v hv) hn
    · exact (sameValue_self _).mp ((sameMap_self d.initial).mp hs.initial p hp) hn
    · exact (sameValue_self _).mp ((sameMap_self (d.default p hp)).mp ((sameMap_self d.defaults).mp hs.defaults p hp) q hq) hn
    · exact (sameValue_self _).mp (sameList_self.mp hs.changed c hc).2.2 hn
  · intro hn
    exact {
      corrupt := rfl
      start := rfl
      last := rfl
      info := (sameMap_self d.info).mpr fun p hp => (sameValue_self _).mpr fun hv => hn (Or.inl ⟨p, hp, hv⟩)
      infoTypes := (sameMap_self d.infoTypes).mpr fun p hp => rfl
      infoMulti := (sameMap_self d.infoMulti).mpr fun p hp => sameList_self.mpr fun l hl => sameList_self.mpr fun v hv =>
        (sameValue_self _).mpr fun hx => hn (Or.inr (Or.inl ⟨p, hp, l, hl, v, hv, hx⟩))
      infoMultiTypes := (sameMap_self d.infoMultiTypes).mpr fun p hp => rfl
      initial := (sameMap_self d.initial).mpr fun p hp => (sameValue_self _).mpr fun hv =>
        hn (Or.inr (Or.inr (Or.inl ⟨p, hp, hv⟩)))
      defaults := (sameMap_self d.defaults).mpr fun p hp => (sameMap_self (d.default p hp)).mpr fun q hq =>
        (sameValue_self _).mpr fun hv => hn (Or.inr (Or.inr (Or.inr (Or.inl ⟨p, hp, q, hq, hv⟩))))
      changed := sameList_self.mpr fun c hc => ⟨rfl, rfl, (sameValue_self _).mpr fun hv =>
        hn (Or.inr (Or.inr (Or.inr (Or.inr ⟨c, hc, hv⟩))))⟩
      formats := (sameMap_self d.formats).mpr fun p hp => rfl
      logged := rfl
      tagged := (sameMap_self d.tagged).mpr fun p hp => rfl
      dropouts := rfl
      data := sameList_self.mpr fun d hd => sameData_refl
      filtered := fun k => Iff.rfl
      missing := fun k => Iff.rfl
      version := rfl
      compat := rfl
      incompat := rfl
      appended := rfl
      hasSync := rfl
      syncCnt := rfl }

theorem sameLog_symm {a b : ULog} (h : SameLog a b) : SameLog b a := {
  corrupt := h.corrupt.symm
  start := h.start.symm
  last := h.last.symm
  info := h.info.symm fun _ _ => SameValue.symm
  infoTypes := h.infoTypes.symm fun _ _ => Eq.symm
  infoMulti := h.infoMulti.symm fun _ _ h => h.symm fun _ _ h => h.symm fun _ _ => SameValue.symm
  infoMultiTypes := h.infoMultiTypes.symm fun _ _ => Eq.symm
  initial := h.initial.symm fun _ _ => SameValue.symm
  defaults := h.defaults.symm fun _ _ h => h.symm fun _ _ => SameValue.symm
  changed := h.changed.symm fun _ _ h => ⟨h.1.symm, h.2.1.symm, SameValue.symm h.2.2⟩
  formats := h.formats.symm fun _ _ => Eq.symm
  logged := h.logged.symm
  tagged := h.tagged.symm fun _ _ => Eq.symm
  dropouts := h.dropouts.symm
  data := h.data.symm fun _ _ => SameData.symm
  filtered := fun k => (h.filtered k).symm
  missing := fun k => (h.missing k).symm
  version := h.version.symm
  compat := h.compat.symm
  incompat := h.incompat.symm
  appended := h.appended.symm
  hasSync := h.hasSync.symm
  syncCnt := h.syncCnt.symm }

/-- **C53**: the comparison of loaded logs is symmetric. -/
theorem C53_symmetric {fuel fuel' : Nat} {cfg cfg' : Cfg} {bs bs' : Bytes} {u u' : ULog}
    (h : load fuel cfg bs = .ok u) (h' : load fuel' cfg' bs' = .ok u') : ulogEq u u' = ulogEq u' u := by
  rw [Bool.eq_iff_iff, C53_same_content h h', C53_same_content h' h]
  exact ⟨sameLog_symm, sameLog_symm⟩


theorem zip_mid {α : Type} {a b c : List α} {p : α × α} (h1 : a.length = b.length) (hp : p ∈ a.zip c) :
    ∃ y, (p.1, y) ∈ a.zip b ∧ (c.length = b.length → (y, p.2) ∈ b.zip c) := by
  obtain ⟨i, hi⟩ := List.getElem?_of_mem hp
  obtain ⟨hx, hz⟩ := List.getElem?_zip_eq_some.mp hi
  have hib : i < b.length := by
    have := (List.getElem?_eq_some_iff.mp hx).1
    omega
  have hy := List.getElem?_eq_getElem hib
  exact ⟨b[i], List.mem_of_getElem? (i := i) (List.getElem?_zip_eq_some.mpr ⟨hx, hy⟩),
    fun _ => List.mem_of_getElem? (i := i) (List.getElem?_zip_eq_some.mpr ⟨hy, hz⟩)⟩

theorem SameData.trans {a b c : Dataset} (h : SameData a b) (g : SameData b c) : SameData a c := by
  obtain ⟨h1, h2, h3, h4, h5, h6, h7⟩ := h
  obtain ⟨g1, g2, g3, g4, g5, g6, g7⟩ := g
  refine ⟨h1.trans g1, h2.trans g2, h3.trans g3, h4.trans g4, h5.trans g5, h6.trans g6, fun p hp => ?_⟩
  have l1 : a.data.length = b.data.length := by
    have := congrArg List.length h6
    simpa using this
  have l2 : c.data.length = b.data.length := by
    have := congrArg List.length g6
    simpa using this.symm
  obtain ⟨y, hy1, hy2⟩ := zip_mid l1 hp
  obtain ⟨e1, e2⟩ := h7 _ hy1
  obtain ⟨f1, f2⟩ := g7 _ (hy2 l2)
  refine ⟨e1.trans f1, fun q hq => ?_⟩
  obtain ⟨w, hw1, hw2⟩ := zip_mid e1 hq
  exact (e2 _ hw1).trans (f2 _ (hw2 f1.symm))

theorem sameLog_trans {a b c : ULog} (h : SameLog a b) (g : SameLog b c) : SameLog a c := {
  corrupt := h.corrupt.trans g.corrupt
  start := h.start.trans g.start
  last := h.last.trans g.last
  info := h.info.trans (fun _ _ _ => SameValue.trans) g.info
  infoTypes := h.infoTypes.trans (fun _ _ _ => Eq.trans) g.infoTypes
  infoMulti := h.infoMulti.trans (fun _ _ _ h g => h.trans (fun _ _ _ h g => h.trans (fun _ _ _ => SameValue.trans) g) g)
    g.infoMulti
  infoMultiTypes := h.infoMultiTypes.trans (fun _ _ _ => Eq.trans) g.infoMultiTypes
  initial := h.initial.trans (fun _ _ _ => SameValue.trans) g.initial
  defaults := h.defaults.trans (fun _ _ _ h g => h.trans (fun _ _ _ => SameValue.trans) g) g.defaults
  changed := h.changed.trans (fun _ _ _ h g => ⟨h.1.trans g.1, h.2.1.trans g.2.1, SameValue.trans h.2.2 g.2.2⟩) g.changed
  formats := h.formats.trans (fun _ _ _ => Eq.trans) g.formats
  logged := h.logged.trans g.logged
  tagged := h.tagged.trans (fun _ _ _ => Eq.trans) g.tagged
  dropouts := h.dropouts.trans g.dropouts
  data := h.data.trans (fun _ _ _ => SameData.trans) g.data
  filtered := fun k => (h.filtered k).trans (g.filtered k)
  missing := fun k => (h.missing k).trans (g.missing k)
  version := h.version.trans g.version
  compat := h.compat.trans g.compat
  incompat := h.incompat.trans g.incompat
  appended := h.appended.trans g.appended
  hasSync := h.hasSync.trans g.hasSync
  syncCnt := h.syncCnt.trans g.syncCnt }

/-- **C53**: the comparison of loaded logs is transitive. -/
theorem C53_transitive {f1 f2 f3 : Nat} {c1 c2 c3 : Cfg} {b1 b2 b3 : Bytes} {u v w : ULog}
    (hu : load f1 c1 b1 = .ok u) (hv : load f2 c2 b2 = .ok v) (hw : load f3 c3 b3 = .ok w)
    (h : ulogEq u v = true) (g : ulogEq v w = true) : ulogEq u w = true := by
  rw [C53_same_content hu hv] at h
  rw [C53_same_content hv hw] at g
  rw [C53_same_content hu hw]
  exact sameLog_trans h g

/-- a log with one float parameter with the given bits and a dataset column -/
def Sample.floatLog (bits : Nat) : Bytes :=
  Sample.header ++ encMsgs (Sample.defs ++ [(tyP, Sample.kv (py! "float P") (leEnc 4 bits))]) ++ encMsgs Sample.msgs

/-- non-vacuity: a log with a NaN parameter does not compare equal to a second read of it, one with an
infinity does; both zeros are equal -/
example : let l := fun n => Sample.get (load 20 {} (Sample.floatLog n))
    load 20 {} (Sample.floatLog 0x7fc00000) = .ok (l 0x7fc00000) ∧ ulogEq (l 0x7fc00000) (l 0x7fc00000) = false ∧
    ulogEq (l 0x7f800000) (l 0x7f800000) = true ∧ ulogEq (l 0x80000000) (l 0) = true ∧
    ulogEq (l 0x3f800000) (l 0) = false ∧ (l 0).initialParams.length = 2 := by
  decide +kernel

end PyULog
