import Verif.Model.Scalar
import Verif.Spec.Float
import Verif.Lemmas.Basic
/-
Property theorems: C50 (a 32-bit float survives the double representation).
-/
namespace PyULog
open Spec

theorem log2_eq {M l : Nat} (h1 : 2 ^ l ≤ M) (h2 : M < 2 ^ (l + 1)) : Nat.log2 M = l := by
  have hM : M ≠ 0 := by have := Nat.two_pow_pos l; omega
  exact (Nat.log2_eq_iff hM).mpr ⟨h1, h2⟩

theorem rne_exact (M k : Nat) : rne (M * 2 ^ k) k = M := by
  have hp := Nat.two_pow_pos k
  unfold rne
  simp only [Nat.mul_div_cancel _ hp, Nat.mul_mod_left]
  rw [if_pos (by omega)]

/-- the fields of the double of a finite non-zero 32-bit value -/
theorem widen_fields {s e m M l : Nat} (he : e < 255) (hm : m < 2 ^ 23)
    (hM : M = if e = 0 then m else m + 2 ^ 23) (h0 : M ≠ 0) (hl : l = Nat.log2 M) :
    widen (s * 2 ^ 31 + e * 2 ^ 23 + m)
        = s * 2 ^ 63 + (l + max e 1 + 873) * 2 ^ 52 + (M * 2 ^ (52 - l) - 2 ^ 52) ∧
      l ≤ 23 ∧ (e ≠ 0 → l = 23) ∧ (e = 0 → l ≤ 22) ∧ 2 ^ 52 ≤ M * 2 ^ (52 - l) ∧
      M * 2 ^ (52 - l) < 2 ^ 53 := by
  have h1 : (s * 2 ^ 31 + e * 2 ^ 23 + m) / 2 ^ 31 = s := by omega
  have h2 : (s * 2 ^ 31 + e * 2 ^ 23 + m) / 2 ^ 23 % 256 = e := by omega
  have h3 : (s * 2 ^ 31 + e * 2 ^ 23 + m) % 2 ^ 23 = m := by omega
  have hlog : 2 ^ l ≤ M ∧ M < 2 ^ (l + 1) := by
    rw [hl]
    exact (Nat.log2_eq_iff h0).mp rfl
  have hM24 : M < 2 ^ 24 := by rw [hM]; split <;> omega
  have hl23 : l ≤ 23 := by
    have : 2 ^ l < 2 ^ 24 := by omega
    have := (Nat.pow_lt_pow_iff_right (by decide : 1 < 2)).mp this
    omega
  have hpow : 2 ^ l * 2 ^ (52 - l) = 2 ^ 52 := by rw [← Nat.pow_add]; congr 1; omega
  refine ⟨?_, hl23, ?_, ?_, ?_, ?_⟩
  · unfold widen
    simp only [h1, h2, h3]
    rw [if_neg (by omega), ← hM, if_neg h0, ← hl]
  · intro hne
    rw [if_neg hne] at hM
    have := (Nat.pow_lt_pow_iff_right (a := 2) (n := 23) (m := l + 1) (by decide)).mp (by omega)
    omega
  · intro h
    rw [if_pos h] at hM
    have := (Nat.pow_lt_pow_iff_right (a := 2) (n := l) (m := 23) (by decide)).mp (by omega)
    omega
  · rw [← hpow]; exact Nat.mul_le_mul_right _ hlog.1
  · have : M * 2 ^ (52 - l) < 2 ^ (l + 1) * 2 ^ (52 - l) :=
      Nat.mul_lt_mul_of_pos_right hlog.2 (Nat.two_pow_pos _)
    have e2 : 2 ^ (l + 1) * 2 ^ (52 - l) = 2 ^ 53 := by
      rw [Nat.pow_succ, Nat.mul_right_comm, hpow]
    omega

theorem narrow_widen_finite {s e m : Nat} (hs : s < 2) (he : e < 255) (hm : m < 2 ^ 23) :
    narrow (widen (s * 2 ^ 31 + e * 2 ^ 23 + m)) = .ok (s * 2 ^ 31 + e * 2 ^ 23 + m) := by
  by_cases h0 : (if e = 0 then m else m + 2 ^ 23) = 0
  · have he0 : e = 0 := by
      by_cases h : e = 0
      · exact h
      · rw [if_neg h] at h0; omega
    subst he0
    have hm0 : m = 0 := by simpa using h0
    subst hm0
    have hs' : s = 0 ∨ s = 1 := by omega
    rcases hs' with rfl | rfl <;> rfl
  · obtain ⟨M, hM⟩ : ∃ M, M = if e = 0 then m else m + 2 ^ 23 := ⟨_, rfl⟩
    obtain ⟨l, hl⟩ : ∃ l, l = Nat.log2 M := ⟨_, rfl⟩
    rw [← hM] at h0
    obtain ⟨hw, hl23, hn, hsub, hlo, hhi⟩ := widen_fields he hm hM h0 hl
    rw [hw]
    obtain ⟨X, hX⟩ : ∃ X, X = M * 2 ^ (52 - l) := ⟨_, rfl⟩
    rw [← hX] at hlo hhi ⊢
    obtain ⟨e', he'⟩ : ∃ e', e' = l + max e 1 + 873 := ⟨_, rfl⟩
    rw [← he']
    have hb : e' < 2047 := by omega
    have f1 : (s * 2 ^ 63 + e' * 2 ^ 52 + (X - 2 ^ 52)) / 2 ^ 63 = s := by omega
    have f2 : (s * 2 ^ 63 + e' * 2 ^ 52 + (X - 2 ^ 52)) / 2 ^ 52 % 2048 = e' := by omega
    have f3 : (s * 2 ^ 63 + e' * 2 ^ 52 + (X - 2 ^ 52)) % 2 ^ 52 = X - 2 ^ 52 := by omega
    have f4 : X - 2 ^ 52 + 2 ^ 52 = X := by omega
    have f5 : Nat.log2 X = 52 := log2_eq hlo hhi
    unfold narrow
    simp only [f1, f2, f3]
    rw [if_neg (by omega), if_neg (show e' ≠ 0 by omega), f4, if_neg (by omega), f5,
      show max e' 1 = e' by omega]
    obtain ⟨q, hq⟩ : ∃ q, q = max 926 (52 + e' - 23) := ⟨_, rfl⟩
    rw [← hq]
    have hk : q - e' = 52 - l ∧ e' ≤ q := by
      by_cases h : e = 0
      · have := hsub h; subst h; omega
      · have := hn h; omega
    rw [if_pos hk.2, hk.1, hX, rne_exact]
    have hf : (q - 926) * 2 ^ 23 + M = e * 2 ^ 23 + m := by
      by_cases h : e = 0
      · rw [if_pos h] at hM
        have := hsub h; subst h; omega
      · rw [if_neg h] at hM
        have := hn h; omega
    rw [hf, if_pos (by omega), Nat.add_assoc]

theorem pattern_split (b : Nat) :
    b = (b / 2 ^ 31) * 2 ^ 31 + (b / 2 ^ 23 % 2 ^ 8) * 2 ^ 23 + b % 2 ^ 23 := by omega

/-- **C50**: every 32-bit pattern that is not a signalling NaN is unchanged by the conversion to a
double and back (this includes infinities, zeros of both signs, subnormals and quiet NaNs). -/
theorem C50_float_roundtrip (b : Nat) (hb : b < 2 ^ 32) (h : ¬ sNaN32 b) :
    narrow (widen b) = .ok b := by
  have hs : b / 2 ^ 31 < 2 := by omega
  by_cases he : b / 2 ^ 23 % 2 ^ 8 = 255
  · -- infinity or NaN
    have hcase : b % 2 ^ 23 = 0 ∨ 2 ^ 22 ≤ b % 2 ^ 23 := by
      unfold sNaN32 exp32 frac32 at h
      omega
    have hm : b % 2 ^ 23 < 2 ^ 23 := Nat.mod_lt _ (by decide)
    have hsp := pattern_split b
    rw [he] at hsp
    unfold widen
    simp only [show b / 2 ^ 23 % 256 = 255 from he, if_true]
    rcases hcase with h0 | h1
    · rw [if_pos h0]
      have g1 : (b / 2 ^ 31 * 2 ^ 63 + 2047 * 2 ^ 52) / 2 ^ 63 = b / 2 ^ 31 := by omega
      have g2 : (b / 2 ^ 31 * 2 ^ 63 + 2047 * 2 ^ 52) / 2 ^ 52 % 2048 = 2047 := by omega
      have g3 : (b / 2 ^ 31 * 2 ^ 63 + 2047 * 2 ^ 52) % 2 ^ 52 = 0 := by omega
      unfold narrow
      simp only [g1, g2, g3, if_true]
      exact congrArg _ (by omega)
    · rw [if_neg (by omega)]
      obtain ⟨m, hmm⟩ : ∃ m, m = b % 2 ^ 23 := ⟨_, rfl⟩
      rw [← hmm] at h1 hm hsp ⊢
      have hq : 2 ^ 22 + m % 2 ^ 22 = m := by omega
      rw [hq]
      have g1 : (b / 2 ^ 31 * 2 ^ 63 + 2047 * 2 ^ 52 + m * 2 ^ 29) / 2 ^ 63 = b / 2 ^ 31 := by omega
      have g2 : (b / 2 ^ 31 * 2 ^ 63 + 2047 * 2 ^ 52 + m * 2 ^ 29) / 2 ^ 52 % 2048 = 2047 := by omega
      have g3 : (b / 2 ^ 31 * 2 ^ 63 + 2047 * 2 ^ 52 + m * 2 ^ 29) % 2 ^ 52 = m * 2 ^ 29 := by omega
      unfold narrow
      simp only [g1, g2, g3, if_true]
      rw [if_neg (by omega)]
      exact congrArg _ (by omega)
  · have hlt : b / 2 ^ 23 % 2 ^ 8 < 255 := by
      have := Nat.mod_lt (b / 2 ^ 23) (show 0 < 2 ^ 8 by decide)
      omega
    have := narrow_widen_finite hs hlt (Nat.mod_lt b (show 0 < 2 ^ 23 by decide))
    rw [← pattern_split b] at this
    exact this

/-- **C50**: a signalling NaN is the only exception: it comes back quiet, with the same payload. -/
theorem C50_signalling_nan (b : Nat) (h : sNaN32 b) :
    narrow (widen b) = .ok (b + 2 ^ 22) := by
  obtain ⟨he, h0, h1⟩ := h
  unfold exp32 at he
  unfold frac32 at h0 h1
  have hsp := pattern_split b
  rw [he] at hsp
  unfold widen
  simp only [show b / 2 ^ 23 % 256 = 255 from he, if_true]
  rw [if_neg h0]
  obtain ⟨m, hmm⟩ : ∃ m, m = b % 2 ^ 23 := ⟨_, rfl⟩
  rw [← hmm] at h0 h1 hsp ⊢
  have hq : m % 2 ^ 22 = m := by omega
  rw [hq]
  have g1 : (b / 2 ^ 31 * 2 ^ 63 + 2047 * 2 ^ 52 + (2 ^ 22 + m) * 2 ^ 29) / 2 ^ 63 = b / 2 ^ 31 := by
    omega
  have g2 : (b / 2 ^ 31 * 2 ^ 63 + 2047 * 2 ^ 52 + (2 ^ 22 + m) * 2 ^ 29) / 2 ^ 52 % 2048 = 2047 := by
    omega
  have g3 : (b / 2 ^ 31 * 2 ^ 63 + 2047 * 2 ^ 52 + (2 ^ 22 + m) * 2 ^ 29) % 2 ^ 52
      = (2 ^ 22 + m) * 2 ^ 29 := by omega
  unfold narrow
  simp only [g1, g2, g3, if_true]
  rw [if_neg (by omega)]
  exact congrArg _ (by omega)

/-- **C50**: the double is the same number: same sign, and the same magnitude in absolute units. -/
theorem C50_widen_exact (b : Nat) (hb : b < 2 ^ 32) (h : finite32 b) :
    finite64 (widen b) ∧ sign64 (widen b) = sign32 b ∧
      mag64 (widen b) = mag32 b * 2 ^ (1074 - 149) := by
  have hs : b / 2 ^ 31 < 2 := by omega
  have hlt : b / 2 ^ 23 % 2 ^ 8 < 255 := by
    have := Nat.mod_lt (b / 2 ^ 23) (show 0 < 2 ^ 8 by decide)
    unfold finite32 exp32 at h
    omega
  have hm := Nat.mod_lt b (show 0 < 2 ^ 23 by decide)
  unfold finite64 sign64 exp64 sign32 mag32 mag64 exp64 exp32 frac64 frac32
  obtain ⟨s, es⟩ : ∃ s, s = b / 2 ^ 31 := ⟨_, rfl⟩
  obtain ⟨e, ee⟩ : ∃ e, e = b / 2 ^ 23 % 2 ^ 8 := ⟨_, rfl⟩
  obtain ⟨m, em⟩ : ∃ m, m = b % 2 ^ 23 := ⟨_, rfl⟩
  have hsp := pattern_split b
  rw [← es, ← ee, ← em] at hsp
  rw [← es] at hs
  rw [← ee] at hlt
  rw [← em] at hm
  rw [← es, ← ee, ← em, hsp]
  by_cases h0 : (if e = 0 then m else m + 2 ^ 23) = 0
  · have he0 : e = 0 := by
      by_cases h : e = 0
      · exact h
      · rw [if_neg h] at h0; omega
    have hm0 : m = 0 := by rw [if_pos he0] at h0; exact h0
    rw [he0, hm0]
    have hs' : s = 0 ∨ s = 1 := by omega
    rcases hs' with h | h <;> rw [h] <;> decide +kernel
  · obtain ⟨M, hM⟩ : ∃ M, M = if e = 0 then m else m + 2 ^ 23 := ⟨_, rfl⟩
    obtain ⟨l, hl⟩ : ∃ l, l = Nat.log2 M := ⟨_, rfl⟩
    rw [← hM] at h0
    obtain ⟨hw, hl23, hn, hsub, hlo, hhi⟩ := widen_fields hlt hm hM h0 hl
    rw [hw]
    obtain ⟨X, hX⟩ : ∃ X, X = M * 2 ^ (52 - l) := ⟨_, rfl⟩
    rw [← hX] at hlo hhi ⊢
    obtain ⟨e', he'⟩ : ∃ e', e' = l + max e 1 + 873 := ⟨_, rfl⟩
    rw [← he']
    have hb : e' < 2047 := by omega
    have f1 : (s * 2 ^ 63 + e' * 2 ^ 52 + (X - 2 ^ 52)) / 2 ^ 63 = s := by omega
    have f2 : (s * 2 ^ 63 + e' * 2 ^ 52 + (X - 2 ^ 52)) / 2 ^ 52 % 2 ^ 11 = e' := by omega
    have f3 : (s * 2 ^ 63 + e' * 2 ^ 52 + (X - 2 ^ 52)) % 2 ^ 52 = X - 2 ^ 52 := by omega
    have f4 : 2 ^ 52 + (X - 2 ^ 52) = X := by omega
    rw [f1, f2, f3, f4]
    refine ⟨by omega, rfl, ?_⟩
    rw [if_neg (by omega)]
    obtain ⟨K, hK⟩ : ∃ K, K = 1074 - 149 := ⟨_, rfl⟩
    rw [← hK]
    have key : X * 2 ^ (e' - 1) = M * 2 ^ (max e 1 - 1) * 2 ^ K := by
      rw [hX, Nat.mul_assoc, Nat.mul_assoc, ← Nat.pow_add, ← Nat.pow_add]
      exact congrArg (fun k => M * 2 ^ k) (by omega)
    rw [key]
    by_cases h : e = 0
    · rw [if_pos h] at hM ⊢
      rw [hM, h, show max 0 1 - 1 = 0 from rfl, Nat.pow_zero, Nat.mul_one]
    · rw [if_neg h] at hM ⊢
      rw [hM, Nat.add_comm m, show max e 1 = e by omega]

/-- hypotheses hold for -1.5, the smallest subnormal, infinity, and a quiet NaN; the signalling NaN
0x7FA00000 is changed -/
example : (∀ b ∈ [0xBFC00000, 1, 0x7F800000, 0x7FC00001], ¬ sNaN32 b ∧ b < 2 ^ 32 ∧
      (narrow (widen b)).toOption = some b) ∧
    sNaN32 0x7FA00000 ∧ (narrow (widen 0x7FA00000)).toOption = some 0x7FE00000 := by
  unfold sNaN32; decide +kernel

/-! ### rounding -/

theorem rne_spec (M k : Nat) :
    2 * (rne M k * 2 ^ k) ≤ 2 * M + 2 ^ k ∧ 2 * M ≤ 2 * (rne M k * 2 ^ k) + 2 ^ k ∧
      (2 * (rne M k * 2 ^ k) = 2 * M + 2 ^ k ∨ 2 * M = 2 * (rne M k * 2 ^ k) + 2 ^ k → rne M k % 2 = 0) := by
  have hp := Nat.two_pow_pos k
  have hd := Nat.div_add_mod M (2 ^ k)
  have hm := Nat.mod_lt M hp
  have hc : M / 2 ^ k * 2 ^ k = 2 ^ k * (M / 2 ^ k) := Nat.mul_comm _ _
  have hs : (M / 2 ^ k + 1) * 2 ^ k = 2 ^ k * (M / 2 ^ k) + 2 ^ k := by rw [Nat.succ_mul, hc]
  unfold rne
  simp only
  split
  · rw [hc]; omega
  · split
    · rw [hs]; omega
    · split
      · rename_i h; subst h
        simp only [Nat.pow_zero, Nat.mod_one] at *
        omega
      · rcases Nat.mod_two_eq_zero_or_one (M / 2 ^ k) with h | h
        · rw [h, Nat.add_zero, hc]; omega
        · rw [h, hs]; omega

/-- a multiple of `Q` that is at most half a `Q` away, with ties to even, is the nearest one -/
theorem nearest_core {X Q R : Nat} (hQ : 0 < Q) (h1 : 2 * (R * Q) ≤ 2 * X + Q) (h2 : 2 * X ≤ 2 * (R * Q) + Q)
    (h3 : 2 * (R * Q) = 2 * X + Q ∨ 2 * X = 2 * (R * Q) + Q → R % 2 = 0) (k : Nat) :
    gap (R * Q) X ≤ gap (k * Q) X ∧ (k ≠ R → gap (R * Q) X = gap (k * Q) X → R % 2 = 0) := by
  unfold gap
  rcases Nat.lt_trichotomy k R with h | h | h
  · have : k * Q + Q ≤ R * Q := by rw [← Nat.succ_mul]; exact Nat.mul_le_mul_right _ h
    generalize R * Q = a at *
    generalize k * Q = b at *
    exact ⟨by omega, fun _ e => h3 (by omega)⟩
  · subst h
    exact ⟨Nat.le_refl _, fun h => absurd rfl h⟩
  · have : R * Q + Q ≤ k * Q := by rw [← Nat.succ_mul]; exact Nat.mul_le_mul_right _ h
    generalize R * Q = a at *
    generalize k * Q = b at *
    exact ⟨by omega, fun _ e => h3 (by omega)⟩

theorem mag32_eq {s j R : Nat} (hR : R ≤ 2 ^ 24) (hj : j = 0 ∨ 2 ^ 23 ≤ R)
    (hf : j * 2 ^ 23 + R < 255 * 2 ^ 23) : mag32 (s * 2 ^ 31 + (j * 2 ^ 23 + R)) = R * 2 ^ j := by
  unfold mag32 exp32 frac32
  rcases Nat.lt_or_ge R (2 ^ 23) with h | h
  · have hj0 : j = 0 := by omega
    subst hj0
    rw [if_pos (by omega)]; omega
  · rcases Nat.lt_or_ge R (2 ^ 24) with h' | h'
    · have e1 : (s * 2 ^ 31 + (j * 2 ^ 23 + R)) / 2 ^ 23 % 2 ^ 8 = j + 1 := by omega
      have e2 : (s * 2 ^ 31 + (j * 2 ^ 23 + R)) % 2 ^ 23 = R - 2 ^ 23 := by omega
      rw [e1, e2, if_neg (by omega), Nat.add_sub_cancel, Nat.add_sub_cancel' h]
    · have e : R = 2 ^ 24 := by omega
      subst e
      have e1 : (s * 2 ^ 31 + (j * 2 ^ 23 + 2 ^ 24)) / 2 ^ 23 % 2 ^ 8 = j + 2 := by omega
      have e2 : (s * 2 ^ 31 + (j * 2 ^ 23 + 2 ^ 24)) % 2 ^ 23 = 0 := by omega
      rw [e1, e2, if_neg (by omega), show j + 2 - 1 = 1 + j by omega, Nat.pow_add]
      omega

/-- what `narrow` computes for a finite pattern: the exponent `j` of the result and its significand `R`,
the nearest multiple with ties to even -/
theorem narrow_spec (b : Nat) (hfin : finite64 b) : ∃ j R,
    narrow b = (if j * 2 ^ 23 + R < 255 * 2 ^ 23 then .ok (sign64 b * 2 ^ 31 + (j * 2 ^ 23 + R))
      else .error .overflowError) ∧
    2 * (R * 2 ^ (j + 925)) ≤ 2 * mag64 b + 2 ^ (j + 925) ∧
    2 * mag64 b ≤ 2 * (R * 2 ^ (j + 925)) + 2 ^ (j + 925) ∧
    (2 * (R * 2 ^ (j + 925)) = 2 * mag64 b + 2 ^ (j + 925) ∨
      2 * mag64 b = 2 * (R * 2 ^ (j + 925)) + 2 ^ (j + 925) → R % 2 = 0) ∧
    mag64 b < 2 ^ 24 * 2 ^ (j + 925) ∧ (j = 0 ∨ 2 ^ 23 * 2 ^ (j + 925) ≤ mag64 b) := by
  unfold finite64 exp64 at hfin
  have hfin' : b / 2 ^ 52 % 2048 ≠ 2047 := hfin
  have hmlt : b % 2 ^ 52 < 2 ^ 52 := Nat.mod_lt _ (by decide)
  unfold mag64 exp64 frac64 narrow sign64
  simp only [if_neg hfin']
  rw [show (2 : Nat) ^ 11 = 2048 from rfl]
  generalize b / 2 ^ 52 % 2048 = e at *
  generalize b % 2 ^ 52 = m at *
  have hX : (if e = 0 then m else (2 ^ 52 + m) * 2 ^ (e - 1))
      = (if e = 0 then m else m + 2 ^ 52) * 2 ^ (max e 1 - 1) := by
    by_cases h : e = 0
    · subst h; simp
    · rw [if_neg h, if_neg h, Nat.add_comm m, Nat.max_eq_left (by omega)]
  rw [hX]
  have hMe : (if e = 0 then m else m + 2 ^ 52) < 2 ^ 53 ∧ (e ≠ 0 → 2 ^ 52 ≤ (if e = 0 then m else m + 2 ^ 52)) := by
    split <;> constructor <;> intros <;> omega
  generalize (if e = 0 then m else m + 2 ^ 52) = M at *
  by_cases h0 : M = 0
  · subst h0
    refine ⟨0, 0, ?_, ?_⟩
    · simp
    · have := Nat.two_pow_pos 925
      simp only [Nat.zero_mul, Nat.mul_zero, Nat.zero_add]
      refine ⟨Nat.zero_le _, Nat.zero_le _, ?_, ?_, Or.inl trivial⟩
      · intro; trivial
      · omega
  · simp only [if_neg h0]
    have hl1 := Nat.log2_self_le h0
    have hl2 : M < 2 ^ (M.log2 + 1) := Nat.lt_log2_self
    generalize M.log2 = l at *
    have hle : e ≠ 0 → l = 52 := by
      intro he
      have h1 := hMe.2 he
      have a1 : 52 < l + 1 := (Nat.pow_lt_pow_iff_right (by decide : 1 < 2)).mp (Nat.lt_of_le_of_lt h1 hl2)
      have a2 : l < 53 := (Nat.pow_lt_pow_iff_right (by decide : 1 < 2)).mp (Nat.lt_of_le_of_lt hl1 hMe.1)
      omega
    have hEq : max e 1 ≤ max 926 (l + max e 1 - 23) := by
      by_cases h : e = 0
      · omega
      · have := hle h; omega
    generalize hE : max e 1 = E at *
    have hE1 : 1 ≤ E := by omega
    obtain ⟨j, hj⟩ : ∃ j, max 926 (l + E - 23) = j + 926 := ⟨max 926 (l + E - 23) - 926, by omega⟩
    rw [hj] at hEq ⊢
    rw [if_pos hEq]
    refine ⟨j, rne M (j + 926 - E), by rw [Nat.add_sub_cancel], ?_⟩
    obtain ⟨r1, r2, r3⟩ := rne_spec M (j + 926 - E)
    have hpow : 2 ^ (j + 925) = 2 ^ (j + 926 - E) * 2 ^ (E - 1) := by
      rw [← Nat.pow_add, show j + 926 - E + (E - 1) = j + 925 by omega]
    have hp := Nat.two_pow_pos (E - 1)
    have hk : ∀ a : Nat, a * 2 ^ (j + 925) = a * 2 ^ (j + 926 - E) * 2 ^ (E - 1) := by
      intro a; rw [hpow, Nat.mul_assoc]
    have hM1 : l + E < j + 950 := by omega
    have hM2 : j = 0 ∨ l + E = j + 949 := by omega
    refine ⟨?_, ?_, ?_, ?_, ?_⟩
    · rw [hk, hpow]
      have := Nat.mul_le_mul_right (2 ^ (E - 1)) r1
      rw [Nat.add_mul, Nat.mul_assoc, Nat.mul_assoc 2 M] at this
      exact this
    · rw [hk, hpow]
      have := Nat.mul_le_mul_right (2 ^ (E - 1)) r2
      rw [Nat.add_mul, Nat.mul_assoc, Nat.mul_assoc 2 (rne _ _ * _)] at this
      exact this
    · rw [hk, hpow]
      intro h
      apply r3
      rcases h with h | h
      · left
        apply Nat.eq_of_mul_eq_mul_right hp
        rw [Nat.add_mul, Nat.mul_assoc, Nat.mul_assoc 2 M]
        exact h
      · right
        apply Nat.eq_of_mul_eq_mul_right hp
        rw [Nat.add_mul, Nat.mul_assoc, Nat.mul_assoc 2 (rne _ _ * _)]
        exact h
    · calc M * 2 ^ (E - 1) < 2 ^ (l + 1) * 2 ^ (E - 1) := Nat.mul_lt_mul_of_pos_right hl2 hp
        _ = 2 ^ (l + E) := by rw [← Nat.pow_add, show l + 1 + (E - 1) = l + E by omega]
        _ ≤ 2 ^ (24 + (j + 925)) := Nat.pow_le_pow_right (by decide) (by omega)
        _ = 2 ^ 24 * 2 ^ (j + 925) := by rw [Nat.pow_add]
    · rcases hM2 with h | h
      · exact Or.inl h
      · right
        calc 2 ^ 23 * 2 ^ (j + 925) = 2 ^ (l + (E - 1)) := by
              rw [← Nat.pow_add, show 23 + (j + 925) = l + (E - 1) by omega]
          _ = 2 ^ l * 2 ^ (E - 1) := by rw [Nat.pow_add]
          _ ≤ M * 2 ^ (E - 1) := Nat.mul_le_mul_right _ hl1

/-- range of the significand -/
theorem significand_range {X j R : Nat} (h1 : 2 * (R * 2 ^ (j + 925)) ≤ 2 * X + 2 ^ (j + 925))
    (h2 : 2 * X ≤ 2 * (R * 2 ^ (j + 925)) + 2 ^ (j + 925)) (h4 : X < 2 ^ 24 * 2 ^ (j + 925))
    (h5 : j = 0 ∨ 2 ^ 23 * 2 ^ (j + 925) ≤ X) : R ≤ 2 ^ 24 ∧ (j = 0 ∨ 2 ^ 23 ≤ R) := by
  have hp := Nat.two_pow_pos (j + 925)
  generalize 2 ^ (j + 925) = Q at *
  constructor
  · apply Nat.le_of_not_lt
    intro h
    have : (2 ^ 24 + 1) * Q ≤ R * Q := Nat.mul_le_mul_right _ h
    omega
  · rcases h5 with h | h
    · exact Or.inl h
    · right
      apply Nat.le_of_not_lt
      intro h'
      have : R * Q + Q ≤ 2 ^ 23 * Q := by rw [← Nat.succ_mul]; exact Nat.mul_le_mul_right _ h'
      omega

/-- the value of another 32-bit pattern is a multiple of the same quantum, or below the binade -/
theorem mag32_multiple (r' j : Nat) :
    (∃ k, mag32 r' * 2 ^ 925 = k * 2 ^ (j + 925)) ∨ (0 < j ∧ mag32 r' * 2 ^ 925 < 2 ^ 23 * 2 ^ (j + 925)) := by
  have hm : r' % 2 ^ 23 < 2 ^ 23 := Nat.mod_lt _ (by decide)
  unfold mag32 exp32 frac32
  generalize r' % 2 ^ 23 = m at *
  generalize r' / 2 ^ 23 % 2 ^ 8 = e at *
  have hp := Nat.two_pow_pos 925
  by_cases hj : j = 0
  · subst hj
    exact Or.inl ⟨_, by rw [Nat.zero_add]⟩
  · by_cases he : j < e
    · left
      rw [if_neg (by omega)]
      refine ⟨(2 ^ 23 + m) * 2 ^ (e - 1 - j), ?_⟩
      rw [Nat.mul_assoc, Nat.mul_assoc, ← Nat.pow_add, ← Nat.pow_add,
        show e - 1 - j + (j + 925) = e - 1 + 925 by omega]
    · right
      refine ⟨by omega, ?_⟩
      rw [Nat.pow_add 2 j 925, ← Nat.mul_assoc]
      apply Nat.mul_lt_mul_of_pos_right _ hp
      by_cases h0 : e = 0
      · rw [if_pos h0]
        have := Nat.two_pow_pos j
        have : 2 ^ 23 * 1 ≤ 2 ^ 23 * 2 ^ j := Nat.mul_le_mul_left _ this
        omega
      · rw [if_neg h0]
        calc (2 ^ 23 + m) * 2 ^ (e - 1) < 2 ^ 24 * 2 ^ (e - 1) :=
              Nat.mul_lt_mul_of_pos_right (by omega) (Nat.two_pow_pos _)
          _ = 2 ^ (24 + (e - 1)) := by rw [Nat.pow_add]
          _ ≤ 2 ^ (23 + j) := Nat.pow_le_pow_right (by decide) (by omega)
          _ = 2 ^ 23 * 2 ^ j := by rw [Nat.pow_add]

/-- **C50** (rounding): a finite double that is written as a float becomes a finite 32-bit value of the
same sign; no 32-bit value is nearer, and when another one is as near the one with the even fraction is
taken. -/
theorem C50_rounding (b r : Nat) (hb : b < 2 ^ 64) (hfin : finite64 b) (h : narrow b = .ok r) :
    r < 2 ^ 32 ∧ finite32 r ∧ sign32 r = sign64 b ∧
    ∀ r', finite32 r' →
      gap (mag32 r * 2 ^ 925) (mag64 b) ≤ gap (mag32 r' * 2 ^ 925) (mag64 b) ∧
      (mag32 r' ≠ mag32 r → gap (mag32 r * 2 ^ 925) (mag64 b) = gap (mag32 r' * 2 ^ 925) (mag64 b) →
        r % 2 = 0) := by
  obtain ⟨j, R, hn, h1, h2, h3, h4, h5⟩ := narrow_spec b hfin
  obtain ⟨hR, hj⟩ := significand_range h1 h2 h4 h5
  rw [h] at hn
  split at hn
  · rename_i hf
    injection hn with hn
    have hs : sign64 b < 2 := by unfold sign64; omega
    have hm := mag32_eq (s := sign64 b) hR hj hf
    rw [← hn] at hm
    have hmr : mag32 r * 2 ^ 925 = R * 2 ^ (j + 925) := by
      rw [hm, Nat.mul_assoc, ← Nat.pow_add]
    refine ⟨by omega, ?_, ?_, ?_⟩
    · unfold finite32 exp32; omega
    · unfold sign32; omega
    · intro r' _
      have hQ := Nat.two_pow_pos (j + 925)
      rcases mag32_multiple r' j with ⟨k, hk⟩ | ⟨hj0, hk⟩
      · obtain ⟨n1, n2⟩ := nearest_core hQ h1 h2 h3 k
        rw [hmr, hk]
        refine ⟨n1, fun hne e => ?_⟩
        have := n2 (fun e => hne (Nat.eq_of_mul_eq_mul_right (Nat.two_pow_pos 925) (by rw [hk, hmr, e]))) e
        omega
      · have h5' := h5.resolve_left (by omega)
        obtain ⟨n1, _⟩ := nearest_core hQ h1 h2 h3 (2 ^ 23)
        rw [hmr]
        generalize R * 2 ^ (j + 925) = a at *
        generalize 2 ^ 23 * 2 ^ (j + 925) = c at *
        generalize mag32 r' * 2 ^ 925 = d at *
        generalize mag64 b = X at *
        unfold gap at *
        exact ⟨by omega, fun _ e => by omega⟩
  · cases hn

/-- **C50** (overflow): a finite double cannot be written as a float exactly when its magnitude is at
least half way between the largest float and `2^128`. -/
theorem C50_overflow (b : Nat) (hfin : finite64 b) :
    narrow b = .error .overflowError ↔ (2 ^ 25 - 1) * 2 ^ 1177 ≤ mag64 b := by
  obtain ⟨j, R, hn, h1, h2, h3, h4, h5⟩ := narrow_spec b hfin
  obtain ⟨hR, hj⟩ := significand_range h1 h2 h4 h5
  have key : ¬ (j * 2 ^ 23 + R < 255 * 2 ^ 23) ↔ (2 ^ 25 - 1) * 2 ^ 1177 ≤ mag64 b := by
    rcases Nat.lt_trichotomy j 253 with hlt | heq | hgt
    · constructor
      · intro h; omega
      · intro h
        exfalso
        have : (2 : Nat) ^ (j + 925) ≤ 2 ^ 1177 := Nat.pow_le_pow_right (by decide) (by omega)
        generalize (2 : Nat) ^ 1177 = P at *
        generalize (2 : Nat) ^ (j + 925) = Q at *
        generalize mag64 b = X at *
        omega
    · subst heq
      have e : (2 : Nat) ^ (253 + 925) = 2 * 2 ^ 1177 := by
        rw [show 253 + 925 = 1 + 1177 from rfl, Nat.pow_add]
      rw [e] at h1 h2 h3 h4 h5
      have hp := Nat.two_pow_pos 1177
      generalize (2 : Nat) ^ 1177 = P at *
      generalize mag64 b = X at *
      constructor
      · intro h
        have hR' : R = 2 ^ 24 := by omega
        subst hR'
        omega
      · intro h hlt
        have hR' : R ≤ 2 ^ 24 - 1 := by omega
        rcases Nat.lt_or_ge R (2 ^ 24 - 1) with hl | hl
        · have : R * (2 * P) ≤ (2 ^ 24 - 2) * (2 * P) := Nat.mul_le_mul_right _ (by omega)
          omega
        · have hR' : R = 2 ^ 24 - 1 := by omega
          subst hR'
          have := h3 (by right; omega)
          omega
    · have hge : 2 ^ 23 * 2 ^ (j + 925) ≤ mag64 b := h5.resolve_left (by omega)
      have e : (2 : Nat) ^ 2 * 2 ^ 1177 ≤ 2 ^ (j + 925) := by
        rw [← Nat.pow_add]; exact Nat.pow_le_pow_right (by decide) (by omega)
      constructor
      · intro _
        generalize (2 : Nat) ^ 1177 = P at *
        generalize (2 : Nat) ^ (j + 925) = Q at *
        generalize mag64 b = X at *
        omega
      · intro _; omega
  rw [← key, hn]
  constructor
  · intro h hlt
    rw [if_pos hlt] at h
    cases h
  · intro h
    rw [if_neg h]

/-- halves go to the even neighbour: `1 + 2^-24` down, `1 + 3·2^-24` up; a value above the largest float
goes down, the half way point to `2^128` raises -/
example : (narrow 0x3FF0000010000000).toOption = some 0x3F800000 ∧
    (narrow 0x3FF0000030000000).toOption = some 0x3F800002 ∧
    (narrow 0x47EFFFFFEFFFFFFF).toOption = some 0x7F7FFFFF ∧
    (narrow 0x47EFFFFFF0000000).toOption = none ∧
    finite64 0x3FF0000010000000 ∧ finite64 0x47EFFFFFF0000000 := by
  unfold finite64; decide +kernel

end PyULog
