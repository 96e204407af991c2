import Verif.Model.Info
import Verif.Spec.Info
import Verif.Props.Tools
import Verif.Lemmas.RoundAll
import Verif.Lemmas.Loaded
import Verif.Lemmas.Dicts
/-
Quotients of `ulog_info`.
-/
namespace PyULog
open Spec

/-- the quotient is normalised and has an error of half a unit -/
theorem quotient_spec (p q : Nat) (hp : 0 < p) (hq : 0 < q) :
    ∃ s : Int, quotient p q = (rneDiv (p * 2 ^ s.toNat) (q * 2 ^ (-s).toNat), (-s).toNat, s.toNat) ∧
      q * 2 ^ (-s).toNat * 2 ^ 52 ≤ p * 2 ^ s.toNat ∧ p * 2 ^ s.toNat < q * 2 ^ (-s).toNat * 2 ^ 53 := by
  have hp1 := Nat.log2_self_le (n := p) (by omega)
  have hp2 := Nat.lt_log2_self (n := p)
  have hq1 := Nat.log2_self_le (n := q) (by omega)
  have hq2 := Nat.lt_log2_self (n := q)
  unfold quotient
  rw [if_neg (by omega)]
  dsimp only
  generalize p.log2 = L at *
  generalize q.log2 = M at *
  refine ⟨_, rfl, ?_⟩
  -- bounds by 2^d
  have key : ∀ a b : Nat, (a : Int) - b = (L : Int) - M →
      q * 2 ^ a < p * 2 ^ b * 2 ∧ p * 2 ^ b < q * 2 ^ a * 2 := by
    intro a b hab
    have hLM : L + b = M + a := by omega
    have e1 : 2 ^ L * 2 ^ b = 2 ^ M * 2 ^ a := by rw [← Nat.pow_add, ← Nat.pow_add, hLM]
    have ha := Nat.two_pow_pos a
    have hb := Nat.two_pow_pos b
    constructor
    · calc q * 2 ^ a < 2 ^ (M + 1) * 2 ^ a := Nat.mul_lt_mul_of_pos_right hq2 ha
        _ = 2 ^ M * 2 ^ a * 2 := by rw [Nat.pow_succ, Nat.mul_right_comm]
        _ = 2 ^ L * 2 ^ b * 2 := by rw [e1]
        _ ≤ p * 2 ^ b * 2 := Nat.mul_le_mul_right _ (Nat.mul_le_mul_right _ hp1)
    · calc p * 2 ^ b < 2 ^ (L + 1) * 2 ^ b := Nat.mul_lt_mul_of_pos_right hp2 hb
        _ = 2 ^ L * 2 ^ b * 2 := by rw [Nat.pow_succ, Nat.mul_right_comm]
        _ = 2 ^ M * 2 ^ a * 2 := by rw [e1]
        _ ≤ q * 2 ^ a * 2 := Nat.mul_le_mul_right _ (Nat.mul_le_mul_right _ hq1)
  -- the exponent e satisfies 2^e ≤ p / q < 2^(e+1)
  have base : ∀ e : Int, q * 2 ^ e.toNat ≤ p * 2 ^ (-e).toNat → p * 2 ^ (-e).toNat < q * 2 ^ e.toNat * 2 →
      q * 2 ^ (-(52 - e)).toNat * 2 ^ 52 ≤ p * 2 ^ (52 - e).toNat ∧
      p * 2 ^ (52 - e).toNat < q * 2 ^ (-(52 - e)).toNat * 2 ^ 53 := by
    intro e h1 h2
    rcases Int.le_total 52 e with h | h
    · obtain ⟨k, rfl⟩ : ∃ k : Nat, e = 52 + k := ⟨(e - 52).toNat, by omega⟩
      have a1 : (52 + (k : Int)).toNat = k + 52 := by omega
      have a2 : (-(52 + (k : Int))).toNat = 0 := by omega
      have a3 : (52 - (52 + (k : Int))).toNat = 0 := by omega
      have a4 : (-(52 - (52 + (k : Int)))).toNat = k := by omega
      rw [a1, a2, Nat.pow_add] at h1 h2
      rw [a3, a4]
      constructor
      · rw [Nat.mul_assoc]; exact h1
      · calc _ < q * (2 ^ k * 2 ^ 52) * 2 := h2
          _ = q * 2 ^ k * 2 ^ 53 := by rw [Nat.mul_assoc, Nat.mul_assoc, Nat.mul_assoc, ← Nat.pow_succ]
    · rcases Int.le_total 0 e with h0 | h0
      · obtain ⟨k, rfl⟩ : ∃ k : Nat, e = k := ⟨e.toNat, by omega⟩
        have hk : k ≤ 52 := by omega
        have a1 : (k : Int).toNat = k := by omega
        have a2 : (-(k : Int)).toNat = 0 := by omega
        have a3 : (52 - (k : Int)).toNat = 52 - k := by omega
        have a4 : (-(52 - (k : Int))).toNat = 0 := by omega
        rw [a1, a2] at h1 h2
        rw [a3, a4]
        have e2 : (2 : Nat) ^ k * 2 ^ (52 - k) = 2 ^ 52 := by rw [← Nat.pow_add]; congr 1; omega
        have hpos := Nat.two_pow_pos (52 - k)
        have b1 := Nat.mul_le_mul_right (2 ^ (52 - k)) h1
        have b2 := Nat.mul_lt_mul_of_pos_right h2 hpos
        simp only [Nat.pow_zero, Nat.mul_one] at b1 b2 ⊢
        have c1 : q * 2 ^ k * 2 ^ (52 - k) = q * 2 ^ 52 := by rw [Nat.mul_assoc, e2]
        have c2 : q * 2 ^ k * 2 * 2 ^ (52 - k) = q * 2 ^ 53 := by
          rw [Nat.mul_right_comm, c1, Nat.mul_assoc, ← Nat.pow_succ]
        rw [c1] at b1
        rw [c2] at b2
        exact ⟨b1, b2⟩
      · obtain ⟨k, rfl⟩ : ∃ k : Nat, e = -(k : Int) := ⟨(-e).toNat, by omega⟩
        have a1 : (-(k : Int)).toNat = 0 := by omega
        have a2 : (-(-(k : Int))).toNat = k := by omega
        have a3 : (52 - -(k : Int)).toNat = k + 52 := by omega
        have a4 : (-(52 - -(k : Int))).toNat = 0 := by omega
        rw [a1, a2] at h1 h2
        rw [a3, a4, Nat.pow_add]
        simp only [Nat.pow_zero, Nat.mul_one] at h1 h2 ⊢
        have hpos := Nat.two_pow_pos 52
        have b1 := Nat.mul_le_mul_right (2 ^ 52) h1
        have b2 := Nat.mul_lt_mul_of_pos_right h2 hpos
        rw [Nat.mul_assoc p] at b1 b2
        refine ⟨b1, ?_⟩
        rw [Nat.mul_assoc q, Nat.mul_comm 2 (2 ^ 52), ← Nat.pow_succ] at b2
        exact b2
  split
  · rename_i hc
    exact base _ hc (key _ _ (by omega)).2
  · rename_i hc
    have hc : p * 2 ^ (-((L : Int) - M)).toNat < q * 2 ^ ((L : Int) - M).toNat := by omega
    have h3 := key ((L : Int) - M).toNat (-((L : Int) - M)).toNat (by omega)
    generalize (L : Int) - M = d at hc h3 ⊢
    rcases (by omega : 0 < d ∨ d ≤ 0) with h0 | h0
    · obtain ⟨k, rfl⟩ : ∃ k : Nat, d = k + 1 := ⟨(d - 1).toNat, by omega⟩
      have a1 : ((k : Int) + 1).toNat = k + 1 := by omega
      have a2 : (-((k : Int) + 1)).toNat = 0 := by omega
      have a3 : ((k : Int) + 1 - 1).toNat = k := by omega
      have a4 : (-((k : Int) + 1 - 1)).toNat = 0 := by omega
      rw [a1, a2, Nat.pow_succ] at hc h3
      apply base
      · rw [a3, a4]; have := h3.1; rw [← Nat.mul_assoc] at this; omega
      · rw [a3, a4]; rw [← Nat.mul_assoc] at hc; exact hc
    · obtain ⟨k, rfl⟩ : ∃ k : Nat, d = -(k : Int) := ⟨(-d).toNat, by omega⟩
      have a1 : (-(k : Int)).toNat = 0 := by omega
      have a2 : (-(-(k : Int))).toNat = k := by omega
      have a3 : (-(k : Int) - 1).toNat = 0 := by omega
      have a4 : (-(-(k : Int) - 1)).toNat = k + 1 := by omega
      rw [a1, a2] at hc h3
      apply base
      · rw [a3, a4, Nat.pow_succ]; have := h3.1; rw [← Nat.mul_assoc]; omega
      · rw [a3, a4, Nat.pow_succ, ← Nat.mul_assoc]; omega

/-- below 2^53 the exponent is not positive -/
theorem quotient_small (p q : Nat) (hp : 0 < p) (hq : 0 < q) (h : p < 2 ^ 53) :
    ∃ s : Nat, quotient p q = (rneDiv (p * 2 ^ s) q, 0, s) ∧ q < 2 * 2 ^ s := by
  obtain ⟨s, h1, h2, h3⟩ := quotient_spec p q hp hq
  have hs : 0 ≤ s := by
    rcases (by omega : s < 0 ∨ 0 ≤ s) with hn | hn
    · exfalso
      obtain ⟨k, rfl⟩ : ∃ k : Nat, s = -((k : Int) + 1) := ⟨(-s - 1).toNat, by omega⟩
      have a1 : (-((k : Int) + 1)).toNat = 0 := by omega
      have a2 : (- -((k : Int) + 1)).toNat = k + 1 := by omega
      rw [a1, a2] at h2
      have hk := Nat.two_pow_pos k
      have : 1 * (2 * 1) ≤ q * 2 ^ (k + 1) := by
        apply Nat.mul_le_mul hq
        rw [Nat.pow_succ, Nat.mul_comm]
        exact Nat.mul_le_mul_right _ hk
      omega
    · exact hn
  obtain ⟨k, rfl⟩ : ∃ k : Nat, s = k := ⟨s.toNat, by omega⟩
  have a1 : (k : Int).toNat = k := by omega
  have a2 : (-(k : Int)).toNat = 0 := by omega
  rw [a1, a2] at h1 h2 h3
  simp only [Nat.pow_zero, Nat.mul_one] at h1 h2 h3
  refine ⟨k, h1, ?_⟩
  have hk := Nat.two_pow_pos k
  have : p * 2 ^ k < 2 ^ 53 * 2 ^ k := Nat.mul_lt_mul_of_pos_right h hk
  generalize 2 ^ k = P at *
  omega

theorem intQuot_exact (p q : Nat) (hq : 0 < q) (h : p < 2 ^ 53) : intQuot p q = p / q := by
  rcases Nat.eq_zero_or_pos p with rfl | hp
  · unfold intQuot quotient
    simp
  · obtain ⟨s, h1, h2⟩ := quotient_small p q hp hq h
    unfold intQuot
    rw [h1]
    dsimp only
    obtain ⟨b1, b2⟩ := rneDiv_bounds (p * 2 ^ s) q hq
    generalize rneDiv (p * 2 ^ s) q = m at b1 b2 ⊢
    have e1 := Nat.div_add_mod p q
    have e2 := Nat.mod_lt p hq
    generalize p / q = d at e1 ⊢
    generalize p % q = r at e1 e2
    subst e1
    simp only [Nat.pow_zero, Nat.mul_one]
    have hP := Nat.two_pow_pos s
    generalize 2 ^ s = P at *
    rw [Nat.add_mul] at b1 b2
    apply Nat.div_eq_of_lt_le
    · apply Nat.le_of_mul_le_mul_left (c := 2 * q) _ (by omega)
      apply Nat.le_of_lt_succ
      apply Nat.lt_of_mul_lt_mul_left (a := 1)
      -- 2 q d P ≤ 2 q m
      have h5 : 2 * q * (d * P) = 2 * (q * d * P) := by simp [Nat.mul_assoc]
      rcases Nat.lt_or_ge m (d * P) with hm | hm
      · exfalso
        have : 2 * q * (m + 1) ≤ 2 * q * (d * P) := Nat.mul_le_mul_left _ hm
        rw [Nat.mul_add, h5] at this
        omega
      · have : 2 * q * (d * P) ≤ 2 * q * m := Nat.mul_le_mul_left _ hm
        omega
    · rcases Nat.lt_or_ge m ((d + 1) * P) with hm | hm
      · exact hm
      · exfalso
        have h6 : 2 * q * ((d + 1) * P) ≤ 2 * q * m := Nat.mul_le_mul_left _ hm
        have h7 : 2 * q * ((d + 1) * P) = 2 * (q * d * P) + 2 * (q * P) := by
          rw [Nat.add_mul, Nat.one_mul, Nat.mul_add, Nat.mul_assoc 2 q, Nat.mul_assoc 2 q, Nat.mul_assoc q d P]
        have h8 : (r + 1) * P ≤ q * P := Nat.mul_le_mul_right _ e2
        rw [Nat.add_mul, Nat.one_mul] at h8
        omega

theorem fixed1_near (p : Nat) (h : p < 2 ^ 53) :
    ∃ t, NearTenth p t ∧ fixed1 p 1000 = dec (t / 10) ++ py! "." ++ dec (t % 10) := by
  unfold fixed1
  dsimp only
  refine ⟨_, ?_, by rw [natDec_eq, natDec_eq]⟩
  rcases Nat.eq_zero_or_pos p with rfl | hp
  · unfold NearTenth; decide
  · obtain ⟨s, h1, h2⟩ := quotient_small p 1000 hp (by omega) h
    rw [h1]
    dsimp only
    obtain ⟨b1, b2⟩ := rneDiv_bounds (p * 2 ^ s) 1000 (by omega)
    generalize rneDiv (p * 2 ^ s) 1000 = m at b1 b2 ⊢
    have hP := Nat.two_pow_pos s
    simp only [Nat.pow_zero, Nat.mul_one]
    obtain ⟨c1, c2⟩ := rneDiv_bounds (10 * m) (2 ^ s) hP
    generalize rneDiv (10 * m) (2 ^ s) = t at c1 c2 ⊢
    generalize 2 ^ s = P at *
    unfold NearTenth
    constructor
    · rcases Nat.lt_or_ge (p + 50) (100 * t) with hh | hh
      · exfalso
        have h6 : (p + 51) * P ≤ 100 * t * P := Nat.mul_le_mul_right _ hh
        rw [Nat.add_mul] at h6
        have h7 : 2 * P * t = 2 * (t * P) := by rw [Nat.mul_assoc, Nat.mul_comm P t]
        have h8 : 100 * t * P = 100 * (t * P) := Nat.mul_assoc _ _ _
        rw [h7] at c1 c2
        rw [h8] at h6
        omega
      · exact hh
    · rcases Nat.lt_or_ge (100 * t + 50) p with hh | hh
      · exfalso
        have h6 : (100 * t + 51) * P ≤ p * P := Nat.mul_le_mul_right _ hh
        rw [Nat.add_mul] at h6
        have h7 : 2 * P * t = 2 * (t * P) := by rw [Nat.mul_assoc, Nat.mul_comm P t]
        have h8 : 100 * t * P = 100 * (t * P) := Nat.mul_assoc _ _ _
        rw [h7] at c1 c2
        rw [h8] at h6
        omega
      · exact hh

/-! ### texts -/

theorem pad2_eq {n : Nat} (h : n < 60) : pad2 n = two n := by
  have : ∀ n : Fin 60, pad2 n.val = two n.val := by decide
  exact this ⟨n, h⟩

theorem hmsStr_eq {t : Nat} (h : t < 2 ^ 53) : hmsStr t = hourText (t / 1000000) := by
  unfold hmsStr hms hourText
  dsimp only
  rw [C33_seconds_partial t h, pad2_eq (Nat.mod_lt _ (by omega)), pad2_eq (Nat.mod_lt _ (by omega)), natDec_eq,
    Nat.div_div_eq_div_mul]

theorem foldl_max_spec (l : List Nat) (a : Nat) :
    (l.foldl max a = a ∨ l.foldl max a ∈ l) ∧ a ≤ l.foldl max a ∧ ∀ x ∈ l, x ≤ l.foldl max a := by
  induction l generalizing a with
  | nil => exact ⟨Or.inl rfl, Nat.le_refl _, by simp⟩
  | cons b l ih =>
    obtain ⟨h1, h2, h3⟩ := ih (max a b)
    rw [List.foldl_cons]
    have ha := Nat.le_max_left a b
    have hb := Nat.le_max_right a b
    refine ⟨?_, by omega, ?_⟩
    · rcases h1 with h1 | h1
      · rcases Nat.le_total a b with h | h
        · right; rw [h1, Nat.max_eq_right h]; exact List.mem_cons_self ..
        · left; rw [h1, Nat.max_eq_left h]
      · exact Or.inr (List.mem_cons_of_mem _ h1)
    · intro x hx
      rcases List.mem_cons.mp hx with rfl | hx
      · omega
      · exact h3 x hx

theorem listMax_spec {l : List Nat} (h : l ≠ []) : Greatest l (listMax l) := by
  obtain ⟨h1, h2, h3⟩ := foldl_max_spec l 0
  refine ⟨?_, h3⟩
  unfold listMax
  rcases h1 with h1 | h1
  · cases l with
    | nil => exact absurd rfl h
    | cons b l =>
      have := h3 b (List.mem_cons_self ..)
      rw [h1] at this ⊢
      have : b = 0 := by omega
      rw [this]; exact List.mem_cons_self ..
  · exact h1

theorem dropoutLine_spec {u : ULog} (h : (u.dropouts.map (·.duration)).sum < 2 ^ 53) :
    DropoutLine (u.dropouts.map (·.duration)) (dropoutLine u) := by
  unfold dropoutLine
  dsimp only
  generalize u.dropouts.map (·.duration) = l at h
  split
  · rename_i h0
    exact Or.inl ⟨List.eq_nil_of_length_eq_zero h0, rfl⟩
  · rename_i h0
    have hl : l ≠ [] := by rintro rfl; exact h0 rfl
    have hr : rnd53 l.sum = l.sum := by unfold rnd53; rw [if_pos h]
    obtain ⟨t, ht, e⟩ := fixed1_near l.sum h
    refine Or.inr ⟨t, listMax l, ht, listMax_spec hl, ?_⟩
    rw [hr, e, intQuot_exact l.sum l.length (by omega) h]
    simp only [natDec_eq, dropoutText, List.append_assoc]

/-- the entries of a dictionary in ascending order of the keys -/
theorem sorted_entries {α : Type} {d : Dict Str α} (hd : d.keys.Nodup) :
    ∃ es : List (Str × α), es.Perm d ∧ Ascending (es.map (·.1)) ∧ sortedKeys d = es.map (·.1) ∧
      ∀ e ∈ es, dictGet d e.1 = .ok e.2 := by
  have e : (ssort (fun a b : Str × α => strLe a.1 b.1) d).map (·.1) = sortedKeys d :=
    ssort_map (fun p : Str × α => p.1) (fun _ _ => rfl) d
  refine ⟨_, ssort_perm _ _, ?_, e.symm, ?_⟩
  · rw [e]; exact (sortedKeys_spec d hd).2
  · intro p hp
    have hm : p ∈ d := (mem_ssort _ _ _).mp hp
    unfold dictGet
    rw [Dict.get?_of_mem d p.1 p.2 hd hm]

theorem infoLines_spec (fmt : Value → Str) (verbose : Bool) {u : ULog} (hd : u.info.keys.Nodup) :
    ∃ es : List (Str × Value), es.Perm (u.info.filter fun e => shownKey verbose e.1) ∧ Ascending (es.map (·.1)) ∧
      infoLines fmt verbose u = .ok (es.map fun e => py! " " ++ e.1 ++ py! ": " ++ fmt e.2) := by
  obtain ⟨es, h1, h2, h3, h4⟩ := sorted_entries hd
  refine ⟨es.filter fun e => shownKey verbose e.1, h1.filter _, ?_, ?_⟩
  · exact List.Pairwise.sublist ((List.filter_sublist.map _).map _) h2
  · unfold infoLines
    have hk : (fun k => !startsWith (py! "perf_") k || verbose) = shownKey verbose := by
      funext k; unfold shownKey startsWith; rw [Bool.or_comm]
    rw [h3, List.filter_map, hk]
    dsimp only
    refine mapM_map_ok (h := fun e : Str × Value => e.1) ?_
    intro e he
    rw [h4 e (List.mem_filter.mp he).1]
    rfl

theorem multiLines_spec (fl : List (List Value) → Str) (verbose : Bool) {u : ULog} (hd : u.infoMulti.keys.Nodup) :
    ∃ es : List (Str × List (List Value)), es.Perm u.infoMulti ∧ Ascending (es.map (·.1)) ∧
      multiLines fl verbose u = .ok (multiText fl verbose es) := by
  obtain ⟨es, h1, h2, h3, h4⟩ := sorted_entries hd
  refine ⟨es, h1, h2, ?_⟩
  unfold multiLines multiText
  have hl := h1.length_eq
  rw [h3]
  cases es with
  | nil => rw [List.length_nil] at hl; rw [← hl]; rfl
  | cons e es =>
    rw [if_pos (by rw [← hl]; exact Nat.succ_pos _)]
    cases verbose with
    | true =>
      simp only [if_true]
      rw [mapM_map_ok (h := fun e : Str × List (List Value) => e.1)
        (g := fun e => py! " " ++ e.1 ++ py! ": " ++ fl e.2)]
      · rfl
      · intro e he; rw [h4 e he]; rfl
    | false =>
      simp only [Bool.false_eq_true, if_false]
      rw [mapM_map_ok (h := fun e : Str × List (List Value) => e.1)
        (g := fun e => py! "[" ++ e.1 ++ py! ": " ++ dec e.2.length ++ py! "]")]
      · show Except.ok _ = _
        rw [pyJoin_eq]
        rfl
      · intro e he; rw [h4 e he, ← natDec_eq]; rfl

theorem messageSize_eq (d : Dataset) : messageSize d = rowSize d.fields := by
  unfold messageSize rowSize
  congr 1
  apply List.map_congr_left
  intro f _
  cases f.type <;> rfl

theorem tableLine_spec {d : Dataset} {n : Nat} (hn : ∀ c ∈ d.data, c.2.length = n)
    (ht : py! "timestamp" ∈ d.data.keys) :
    tableLine d = .ok (rowText d.name d.multiId (rowSize d.fields) n (rowSize d.fields * n)) := by
  unfold tableLine
  have : ∃ c, d.data.get? (py! "timestamp") = some c := by
    cases h : d.data.get? (py! "timestamp") with
    | none => exact absurd ht ((Dict.get?_eq_none_iff _ _).mp h)
    | some c => exact ⟨c, rfl⟩
  obtain ⟨c, hc⟩ := this
  have hm := Dict.mem_of_get? _ _ _ hc
  unfold dictGet
  rw [hc]
  show Except.ok _ = _
  rw [messageSize_eq, hn _ hm]
  simp only [natDec_eq]
  rfl

theorem strLe_le {a b : Str} (h : strLe a b = true) : a.map Char.toNat ≤ b.map Char.toNat := by
  by_cases e : a = b
  · rw [e]; exact List.le_refl _
  · exact List.le_of_lt (strLe_lt h e)

theorem le_strLe {a b : Str} (h : a.map Char.toNat ≤ b.map Char.toNat) : strLe a b = true := by
  rcases strLe_total a b with h' | h'
  · exact h'
  · by_cases e : b = a
    · rw [e]; exact strLe_refl _
    · exact absurd (strLe_lt h' e) (List.not_lt.mpr h)

theorem tableOrder_spec (l : List Dataset) : TableOrder l (tableOrder l) := by
  have hk : ∀ d : Dataset, (tableKey d).map Char.toNat = infoKey d := by
    intro d; unfold tableKey infoKey; rw [natDec_eq]
  have ht : TotalPre fun a b : Dataset => strLe (tableKey a) (tableKey b) :=
    ⟨fun a b c => strLe_trans _ _ _, fun a b => strLe_total _ _⟩
  refine ⟨ssort_perm _ _, ?_, ?_⟩
  · refine (ssort_sorted ht l).imp ?_
    intro a b h
    rw [← hk, ← hk]; exact strLe_le h
  · intro k
    unfold tableOrder
    rw [filter_ssort ht]
    apply ssort_of_sorted
    rw [Sorted, List.pairwise_iff_forall_sublist]
    intro b c hbc
    have hb := (List.mem_filter.mp (hbc.subset (by simp : b ∈ [b, c]))).2
    have hc := (List.mem_filter.mp (hbc.subset (by simp : c ∈ [b, c]))).2
    have hb := of_decide_eq_true hb
    have hc := of_decide_eq_true hc
    apply le_strLe
    rw [hk, hk, hb, hc]
    exact List.le_refl _

end PyULog
