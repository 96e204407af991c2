import Verif.Props.Float
/-
**C50** for integers: packing an integer with a float code goes through the nearest double.
-/
namespace PyULog
open Spec

theorem intToF64_spec {n : Int} (h0 : n ≠ 0) : ∃ l R,
    intToF64 n = (if (l + 1022) * 2 ^ 52 + R < 2047 * 2 ^ 52
      then some ((if n < 0 then 2 ^ 63 else 0) + ((l + 1022) * 2 ^ 52 + R)) else none) ∧
    2 * (R * 2 ^ (l + 1022)) ≤ 2 * (n.natAbs * 2 ^ 1074) + 2 ^ (l + 1022) ∧
    2 * (n.natAbs * 2 ^ 1074) ≤ 2 * (R * 2 ^ (l + 1022)) + 2 ^ (l + 1022) ∧
    (2 * (R * 2 ^ (l + 1022)) = 2 * (n.natAbs * 2 ^ 1074) + 2 ^ (l + 1022) ∨
      2 * (n.natAbs * 2 ^ 1074) = 2 * (R * 2 ^ (l + 1022)) + 2 ^ (l + 1022) → R % 2 = 0) ∧
    n.natAbs * 2 ^ 1074 < 2 ^ 53 * 2 ^ (l + 1022) ∧ 2 ^ 52 * 2 ^ (l + 1022) ≤ n.natAbs * 2 ^ 1074 := by
  have hm0 : n.natAbs ≠ 0 := by omega
  unfold intToF64
  dsimp only
  rw [if_neg hm0]
  generalize n.natAbs = m at hm0 ⊢
  have hlo : 2 ^ m.log2 ≤ m := Nat.log2_self_le hm0
  have hhi : m < 2 ^ (m.log2 + 1) := Nat.lt_log2_self
  generalize m.log2 = l at hlo hhi ⊢
  refine ⟨l, _, rfl, ?_⟩
  have hp := Nat.two_pow_pos 1074
  have e52 : 2 ^ 52 * 2 ^ (l + 1022) = 2 ^ l * 2 ^ 1074 := by
    rw [← Nat.pow_add, ← Nat.pow_add, show 52 + (l + 1022) = l + 1074 by omega]
  have e53 : 2 ^ 53 * 2 ^ (l + 1022) = 2 ^ (l + 1) * 2 ^ 1074 := by
    rw [← Nat.pow_add, ← Nat.pow_add, show 53 + (l + 1022) = l + 1 + 1074 by omega]
  have hbnd : m * 2 ^ 1074 < 2 ^ 53 * 2 ^ (l + 1022) ∧ 2 ^ 52 * 2 ^ (l + 1022) ≤ m * 2 ^ 1074 := by
    rw [e52, e53]
    exact ⟨Nat.mul_lt_mul_of_pos_right hhi hp, Nat.mul_le_mul_right _ hlo⟩
  have hQ := Nat.two_pow_pos (l + 1022)
  by_cases hl : l ≤ 52
  · rw [if_pos hl]
    have e : m * 2 ^ (52 - l) * 2 ^ (l + 1022) = m * 2 ^ 1074 := by
      rw [Nat.mul_assoc, ← Nat.pow_add, show 52 - l + (l + 1022) = 1074 by omega]
    rw [e]
    generalize 2 ^ (l + 1022) = Q at *
    generalize m * 2 ^ 1074 = X at *
    exact ⟨by omega, by omega, fun h => by omega, hbnd⟩
  · rw [if_neg hl]
    obtain ⟨k, hk⟩ : ∃ k, l = k + 52 := ⟨l - 52, by omega⟩
    subst hk
    rw [show k + 52 - 52 = k by omega]
    have eQ : 2 ^ (k + 52 + 1022) = 2 ^ k * 2 ^ 1074 := by
      rw [← Nat.pow_add]
    obtain ⟨r1, r2, r3⟩ := rne_spec m k
    rw [eQ] at hbnd ⊢
    have em : ∀ a b, a ≤ b → a * 2 ^ 1074 ≤ b * 2 ^ 1074 := fun a b h => Nat.mul_le_mul_right _ h
    have s1 := em _ _ r1
    have s2 := em _ _ r2
    have ec : ∀ a b, a * 2 ^ 1074 = b * 2 ^ 1074 → a = b := fun a b h => Nat.eq_of_mul_eq_mul_right hp h
    have q1 : 2 * (rne m k * (2 ^ k * 2 ^ 1074)) = 2 * (rne m k * 2 ^ k) * 2 ^ 1074 := by
      rw [← Nat.mul_assoc (rne m k), Nat.mul_assoc 2]
    have q2 : 2 * (m * 2 ^ 1074) + 2 ^ k * 2 ^ 1074 = (2 * m + 2 ^ k) * 2 ^ 1074 := by
      rw [Nat.add_mul, Nat.mul_assoc]
    have q3 : 2 * (rne m k * (2 ^ k * 2 ^ 1074)) + 2 ^ k * 2 ^ 1074 = (2 * (rne m k * 2 ^ k) + 2 ^ k) * 2 ^ 1074 := by
      rw [q1, Nat.add_mul]
    have q4 : 2 * (m * 2 ^ 1074) = 2 * m * 2 ^ 1074 := by rw [Nat.mul_assoc]
    refine ⟨by rw [q1, q2]; exact s1, by rw [q3, q4]; exact s2, ?_, hbnd⟩
    intro h
    apply r3
    rcases h with h | h
    · left; rw [q1, q2] at h; exact ec _ _ h
    · right; rw [q3, q4] at h; exact ec _ _ h

theorem int_significand {X Q R : Nat} (hQ : 0 < Q) (h1 : 2 * (R * Q) ≤ 2 * X + Q) (h2 : 2 * X ≤ 2 * (R * Q) + Q)
    (h4 : X < 2 ^ 53 * Q) (h5 : 2 ^ 52 * Q ≤ X) : R ≤ 2 ^ 53 ∧ 2 ^ 52 ≤ R := by
  constructor
  · apply Nat.le_of_not_lt
    intro h
    have : (2 ^ 53 + 1) * Q ≤ R * Q := Nat.mul_le_mul_right _ h
    omega
  · apply Nat.le_of_not_lt
    intro h
    have : R * Q ≤ (2 ^ 52 - 1) * Q := Nat.mul_le_mul_right _ (by omega)
    omega

theorem mag64_eq {s l R : Nat} (hs : s = 0 ∨ s = 2 ^ 63) (hR : R ≤ 2 ^ 53) (hR2 : 2 ^ 52 ≤ R)
    (hf : (l + 1022) * 2 ^ 52 + R < 2047 * 2 ^ 52) :
    finite64 (s + ((l + 1022) * 2 ^ 52 + R)) ∧ sign64 (s + ((l + 1022) * 2 ^ 52 + R)) = s / 2 ^ 63 ∧
      mag64 (s + ((l + 1022) * 2 ^ 52 + R)) = R * 2 ^ (l + 1022) := by
  have hb : (s + ((l + 1022) * 2 ^ 52 + R)) / 2 ^ 63 = s / 2 ^ 63 := by rcases hs with rfl | rfl <;> omega
  refine ⟨?_, hb, ?_⟩
  · unfold finite64 exp64
    rcases hs with rfl | rfl <;> omega
  · unfold mag64 exp64 frac64
    by_cases h : R = 2 ^ 53
    · have e1 : (s + ((l + 1022) * 2 ^ 52 + R)) / 2 ^ 52 % 2 ^ 11 = l + 1024 := by rcases hs with rfl | rfl <;> omega
      have e2 : (s + ((l + 1022) * 2 ^ 52 + R)) % 2 ^ 52 = 0 := by rcases hs with rfl | rfl <;> omega
      rw [e1, e2, if_neg (by omega), h, Nat.add_zero, ← Nat.pow_add, ← Nat.pow_add,
        show 52 + (l + 1024 - 1) = 53 + (l + 1022) by omega]
    · have e1 : (s + ((l + 1022) * 2 ^ 52 + R)) / 2 ^ 52 % 2 ^ 11 = l + 1023 := by rcases hs with rfl | rfl <;> omega
      have e2 : (s + ((l + 1022) * 2 ^ 52 + R)) % 2 ^ 52 = R - 2 ^ 52 := by rcases hs with rfl | rfl <;> omega
      rw [e1, e2, if_neg (by omega), show 2 ^ 52 + (R - 2 ^ 52) = R by omega,
        show l + 1023 - 1 = l + 1022 by omega]

theorem mag64_multiple (r' l : Nat) :
    (∃ k, mag64 r' = k * 2 ^ (l + 1022)) ∨ mag64 r' < 2 ^ 52 * 2 ^ (l + 1022) := by
  have hm : r' % 2 ^ 52 < 2 ^ 52 := Nat.mod_lt _ (by decide)
  unfold mag64 exp64 frac64
  generalize r' % 2 ^ 52 = m at *
  generalize r' / 2 ^ 52 % 2 ^ 11 = e at *
  by_cases he : l + 1022 < e
  · left
    rw [if_neg (by omega)]
    refine ⟨(2 ^ 52 + m) * 2 ^ (e - 1 - (l + 1022)), ?_⟩
    rw [Nat.mul_assoc, ← Nat.pow_add, show e - 1 - (l + 1022) + (l + 1022) = e - 1 by omega]
  · right
    by_cases h0 : e = 0
    · rw [if_pos h0]
      have := Nat.two_pow_pos (l + 1022)
      have : 2 ^ 52 * 1 ≤ 2 ^ 52 * 2 ^ (l + 1022) := Nat.mul_le_mul_left _ this
      omega
    · rw [if_neg h0]
      calc (2 ^ 52 + m) * 2 ^ (e - 1) < 2 ^ 53 * 2 ^ (e - 1) :=
            Nat.mul_lt_mul_of_pos_right (by omega) (Nat.two_pow_pos _)
        _ = 2 ^ (53 + (e - 1)) := by rw [Nat.pow_add]
        _ ≤ 2 ^ (52 + (l + 1022)) := Nat.pow_le_pow_right (by decide) (by omega)
        _ = 2 ^ 52 * 2 ^ (l + 1022) := by rw [Nat.pow_add]

/-- **C50** (integers): an integer packed with a float code becomes a finite double of its sign; no
double is nearer, and when another one is as near the one with the even fraction is taken. -/
theorem C50_int_rounding (n : Int) (x : Nat) (h : intToF64 n = some x) :
    finite64 x ∧ sign64 x = (if n < 0 then 1 else 0) ∧
    ∀ x', finite64 x' →
      gap (mag64 x) (n.natAbs * 2 ^ 1074) ≤ gap (mag64 x') (n.natAbs * 2 ^ 1074) ∧
      (mag64 x' ≠ mag64 x →
        gap (mag64 x) (n.natAbs * 2 ^ 1074) = gap (mag64 x') (n.natAbs * 2 ^ 1074) → x % 2 = 0) := by
  by_cases h0 : n = 0
  · subst h0
    have : x = 0 := by
      have : intToF64 0 = some 0 := by decide
      rw [this] at h
      injection h with h
      exact h.symm
    subst this
    refine ⟨by unfold finite64; decide, by decide, fun x' _ => ⟨?_, fun _ _ => rfl⟩⟩
    have : mag64 0 = 0 := by decide
    rw [this, Int.natAbs_zero, Nat.zero_mul]
    exact Nat.zero_le _
  obtain ⟨l, R, hn, h1, h2, h3, h4, h5⟩ := intToF64_spec h0
  have hQ := Nat.two_pow_pos (l + 1022)
  obtain ⟨hR, hR2⟩ := int_significand hQ h1 h2 h4 h5
  rw [h] at hn
  split at hn
  · rename_i hf
    injection hn with hn
    obtain ⟨m1, m2, m3⟩ := mag64_eq (s := if n < 0 then 2 ^ 63 else 0) (by split <;> simp) hR hR2 hf
    rw [← hn] at m1 m2 m3
    refine ⟨m1, ?_, ?_⟩
    · rw [m2]; split <;> decide
    · intro x' _
      have hpar : R % 2 = 0 → x % 2 = 0 := by
        intro hr
        rw [hn]
        split <;> omega
      rw [m3]
      rcases mag64_multiple x' l with ⟨k, hk⟩ | hk
      · obtain ⟨n1, n2⟩ := nearest_core hQ h1 h2 h3 k
        rw [hk]
        exact ⟨n1, fun hne e => hpar (n2 (fun e => hne (by rw [e])) e)⟩
      · obtain ⟨n1, _⟩ := nearest_core hQ h1 h2 h3 (2 ^ 52)
        generalize R * 2 ^ (l + 1022) = a at *
        generalize 2 ^ 52 * 2 ^ (l + 1022) = c at *
        generalize mag64 x' = d at *
        generalize n.natAbs * 2 ^ 1074 = X at *
        unfold gap at *
        exact ⟨by omega, fun _ e => by omega⟩
  · cases hn

/-- 1, the first integer that is not a double and its neighbours, and a negative one -/
example : intToF64 1 = some 0x3FF0000000000000 ∧ intToF64 (2 ^ 53 + 1) = some 0x4340000000000000 ∧
    intToF64 (2 ^ 53 + 3) = some 0x4340000000000002 ∧ intToF64 (-5) = some 0xC014000000000000 := by decide +kernel

/-- **C50** (integers): the conversion fails exactly when the integer is at least half way between the
greatest double and `2^1024`. -/
theorem C50_int_overflow (n : Int) : intToF64 n = none ↔ (2 ^ 54 - 1) * 2 ^ 970 ≤ n.natAbs := by
  by_cases h0 : n = 0
  · subst h0
    have h : intToF64 0 = some 0 := by decide
    rw [h]
    have hp := Nat.two_pow_pos 970
    rw [Int.natAbs_zero]
    constructor
    · intro h; cases h
    · intro h; generalize 2 ^ 970 = P at *; omega
  obtain ⟨l, R, hn, h1, h2, h3, h4, h5⟩ := intToF64_spec h0
  have hQ := Nat.two_pow_pos (l + 1022)
  obtain ⟨hR, hR2⟩ := int_significand hQ h1 h2 h4 h5
  have hX : (2 ^ 54 - 1) * 2 ^ 970 ≤ n.natAbs ↔ (2 ^ 54 - 1) * 2 ^ 2044 ≤ n.natAbs * 2 ^ 1074 := by
    have e : (2 ^ 54 - 1) * 2 ^ 2044 = (2 ^ 54 - 1) * 2 ^ 970 * 2 ^ 1074 := by
      rw [Nat.mul_assoc, ← Nat.pow_add]
    rw [e]
    exact ⟨fun h => Nat.mul_le_mul_right _ h, fun h => Nat.le_of_mul_le_mul_right h (Nat.two_pow_pos 1074)⟩
  rw [hX]
  generalize n.natAbs * 2 ^ 1074 = X at *
  have key : ¬ ((l + 1022) * 2 ^ 52 + R < 2047 * 2 ^ 52) ↔ (2 ^ 54 - 1) * 2 ^ 2044 ≤ X := by
    rcases Nat.lt_trichotomy l 1023 with hlt | heq | hgt
    · constructor
      · intro h; omega
      · intro h
        exfalso
        have : (2 : Nat) ^ (l + 1022) ≤ 2 ^ 2044 := Nat.pow_le_pow_right (by decide) (by omega)
        generalize (2 : Nat) ^ 2044 = P at *
        generalize (2 : Nat) ^ (l + 1022) = Q at *
        omega
    · subst heq
      have e : (2 : Nat) ^ (1023 + 1022) = 2 * 2 ^ 2044 := by
        rw [show 1023 + 1022 = 1 + 2044 from rfl, Nat.pow_add]
      rw [e] at h1 h2 h3 h4 h5
      have hp := Nat.two_pow_pos 2044
      generalize (2 : Nat) ^ 2044 = P at *
      constructor
      · intro h
        have hR' : R = 2 ^ 53 := by omega
        subst hR'
        omega
      · intro h hlt
        rcases Nat.lt_or_ge R (2 ^ 53 - 1) with hl | hl
        · have : R * (2 * P) ≤ (2 ^ 53 - 2) * (2 * P) := Nat.mul_le_mul_right _ (by omega)
          omega
        · have hR' : R = 2 ^ 53 - 1 := by omega
          subst hR'
          have := h3 (by right; omega)
          omega
    · have e : (2 : Nat) ^ 2 * 2 ^ 2044 ≤ 2 ^ (l + 1022) := by
        rw [← Nat.pow_add]; exact Nat.pow_le_pow_right (by decide) (by omega)
      constructor
      · intro _
        generalize (2 : Nat) ^ 2044 = P at *
        generalize (2 : Nat) ^ (l + 1022) = Q at *
        omega
      · intro _; omega
  rw [← key, hn]
  constructor
  · intro h hlt
    rw [if_pos hlt] at h
    cases h
  · intro h
    rw [if_neg h]

end PyULog
