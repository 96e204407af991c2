import Verif.Props.Floats
import Verif.Model.FloatAngles
/-
C86, C87: the sums, quotients and products of floats that are not finite, and sums that are zero.
-/
namespace PyULog
open Spec

/-- infinite doubles and `float32` -/
def Spec.inf64 (b : Nat) : Prop := exp64 b = 2047 ∧ frac64 b = 0
def Spec.inf32 (b : Nat) : Prop := exp32 b = 255 ∧ frac32 b = 0

theorem isInf64_iff {b : Nat} : Fmt.b64.abs b = Fmt.b64.inf ↔ inf64 b := by
  unfold inf64 exp64 frac64 Fmt.abs
  rw [show Fmt.b64.signBit = 2 ^ 63 from rfl, show Fmt.b64.inf = 2047 * 2 ^ 52 from rfl]
  omega

theorem isInf32_iff {b : Nat} : Fmt.b32.abs b = Fmt.b32.inf ↔ inf32 b := by
  unfold inf32 exp32 frac32 Fmt.abs
  rw [show Fmt.b32.signBit = 2 ^ 31 from rfl, show Fmt.b32.inf = 255 * 2 ^ 23 from rfl]
  omega

theorem isNeg64_iff {b : Nat} (hb : b < 2 ^ 64) : Fmt.b64.isNeg b = decide (sign64 b = 1) := by
  unfold Fmt.isNeg sign64
  rw [show Fmt.b64.signBit = 2 ^ 63 from rfl, decide_eq_decide]
  omega

theorem isNeg32_iff {b : Nat} (hb : b < 2 ^ 32) : Fmt.b32.isNeg b = decide (sign32 b = 1) := by
  unfold Fmt.isNeg sign32
  rw [show Fmt.b32.signBit = 2 ^ 31 from rfl, decide_eq_decide]
  omega

theorem quiet64 {b : Nat} (hb : b < 2 ^ 64) (h : IsNaN (.f64 b)) :
    IsNaN (.f64 (Fmt.b64.quiet b)) ∧ Fmt.b64.quiet b < 2 ^ 64 ∧ sign64 (Fmt.b64.quiet b) = sign64 b := by
  have h : b / 2 ^ 52 % 2 ^ 11 = 2047 ∧ b % 2 ^ 52 ≠ 0 := h
  unfold Fmt.quiet sign64
  rw [show Fmt.b64.F - 1 = 51 from rfl]
  by_cases hq : b / 2 ^ 51 % 2 = 1
  · rw [if_pos hq]
    exact ⟨h, hb, rfl⟩
  · rw [if_neg hq]
    exact ⟨show (b + 2 ^ 51) / 2 ^ 52 % 2 ^ 11 = 2047 ∧ (b + 2 ^ 51) % 2 ^ 52 ≠ 0 by omega, by omega, by omega⟩

theorem quiet32 {b : Nat} (hb : b < 2 ^ 32) (h : IsNaN (.f32 b)) :
    IsNaN (.f32 (Fmt.b32.quiet b)) ∧ Fmt.b32.quiet b < 2 ^ 32 ∧ sign32 (Fmt.b32.quiet b) = sign32 b := by
  have h : b / 2 ^ 23 % 2 ^ 8 = 255 ∧ b % 2 ^ 23 ≠ 0 := h
  unfold Fmt.quiet sign32
  rw [show Fmt.b32.F - 1 = 22 from rfl]
  by_cases hq : b / 2 ^ 22 % 2 = 1
  · rw [if_pos hq]
    exact ⟨h, hb, rfl⟩
  · rw [if_neg hq]
    exact ⟨show (b + 2 ^ 22) / 2 ^ 23 % 2 ^ 8 = 255 ∧ (b + 2 ^ 22) % 2 ^ 23 ≠ 0 by omega, by omega, by omega⟩

theorem nan64_nan : IsNaN (.f64 Fmt.b64.nan) := by unfold IsNaN exp64 frac64; decide +kernel
theorem nan32_nan : IsNaN (.f32 Fmt.b32.nan) := by unfold IsNaN exp32 frac32; decide +kernel

theorem inf64_notNaN {b : Nat} (h : inf64 b) : ¬ IsNaN (.f64 b) := fun hn => hn.2 h.2
theorem inf32_notNaN {b : Nat} (h : inf32 b) : ¬ IsNaN (.f32 b) := fun hn => hn.2 h.2

/-- **C86**, sums of doubles that are not finite or cancel: NaN stays NaN, opposite infinities give NaN, an infinity
stays, and a sum of zero is negative only if both summands are. -/
theorem C86_special64 {a b : Nat} (ha : a < 2 ^ 64) (hb : b < 2 ^ 64) :
    (IsNaN (.f64 a) ∨ IsNaN (.f64 b) → IsNaN (.f64 (Fmt.b64.add a b))) ∧
    (inf64 a → inf64 b → sign64 a ≠ sign64 b → IsNaN (.f64 (Fmt.b64.add a b))) ∧
    (inf64 a → finite64 b ∨ (inf64 b ∧ sign64 a = sign64 b) → Fmt.b64.add a b = a) ∧
    (finite64 a → inf64 b → Fmt.b64.add a b = b) ∧
    (finite64 a → finite64 b → val64 a + val64 b = 0 →
      Fmt.b64.add a b = if sign64 a = 1 ∧ sign64 b = 1 then 2 ^ 63 else 0) := by
  have nn : ∀ {x}, ¬ IsNaN (.f64 x) → Fmt.b64.isNaN x ≠ true := fun h h' => h (isNaN64_iff.mp h')
  have ni : ∀ {x}, finite64 x → ¬ Fmt.b64.abs x = Fmt.b64.inf := fun h h' => h (isInf64_iff.mp h').1
  have nf : ∀ {x}, finite64 x → ¬ IsNaN (.f64 x) := fun h h' => h h'.1
  refine ⟨?_, ?_, ?_, ?_, ?_⟩
  · intro h
    unfold Fmt.add
    by_cases h1 : Fmt.b64.isNaN a = true
    · rw [if_pos h1]
      exact (quiet64 ha (isNaN64_iff.mp h1)).1
    · have h2 := isNaN64_iff.mpr (h.resolve_left fun h' => h1 (isNaN64_iff.mpr h'))
      rw [if_neg h1, if_pos h2]
      exact (quiet64 hb (isNaN64_iff.mp h2)).1
  · intro h1 h2 h3
    unfold Fmt.add
    rw [if_neg (nn (inf64_notNaN h1)), if_neg (nn (inf64_notNaN h2)), if_pos (isInf64_iff.mpr h1), isNeg64_iff ha, isNeg64_iff hb,
      if_pos ⟨isInf64_iff.mpr h2, by
        unfold sign64 at h3 ⊢
        by_cases h4 : a / 2 ^ 63 = 1 <;> by_cases h5 : b / 2 ^ 63 = 1 <;> simp [h4, h5]
        all_goals omega⟩]
    exact nan64_nan
  · intro h1 h2
    unfold Fmt.add
    have hbn : ¬ IsNaN (.f64 b) := h2.elim (fun h => nf h) (fun h => inf64_notNaN h.1)
    rw [if_neg (nn (inf64_notNaN h1)), if_neg (nn hbn), if_pos (isInf64_iff.mpr h1), isNeg64_iff ha, isNeg64_iff hb, if_neg]
    rintro ⟨h3, h4⟩
    rcases h2 with h2 | ⟨_, h2⟩
    · exact ni h2 h3
    · rw [h2] at h4
      exact h4 rfl
  · intro h1 h2
    unfold Fmt.add
    rw [if_neg (nn (nf h1)), if_neg (nn (inf64_notNaN h2)), if_neg (ni h1), if_pos (isInf64_iff.mpr h2)]
  · intro h1 h2 h3
    unfold Fmt.add
    rw [if_neg (nn (nf h1)), if_neg (nn (nf h2)), if_neg (ni h1), if_neg (ni h2)]
    dsimp only
    rw [value64 ha, value64 hb, if_pos h3, isNeg64_iff ha, isNeg64_iff hb]
    simp only [decide_eq_true_eq]
    rfl

/-- **C86**, sums of `float32` that are not finite or cancel -/
theorem C86_special32 {a b : Nat} (ha : a < 2 ^ 32) (hb : b < 2 ^ 32) :
    (IsNaN (.f32 a) ∨ IsNaN (.f32 b) → IsNaN (.f32 (Fmt.b32.add a b))) ∧
    (inf32 a → inf32 b → sign32 a ≠ sign32 b → IsNaN (.f32 (Fmt.b32.add a b))) ∧
    (inf32 a → finite32 b ∨ (inf32 b ∧ sign32 a = sign32 b) → Fmt.b32.add a b = a) ∧
    (finite32 a → inf32 b → Fmt.b32.add a b = b) ∧
    (finite32 a → finite32 b → val32 a + val32 b = 0 →
      Fmt.b32.add a b = if sign32 a = 1 ∧ sign32 b = 1 then 2 ^ 31 else 0) := by
  have nn : ∀ {x}, ¬ IsNaN (.f32 x) → Fmt.b32.isNaN x ≠ true := fun h h' => h (isNaN32_iff.mp h')
  have ni : ∀ {x}, finite32 x → ¬ Fmt.b32.abs x = Fmt.b32.inf := fun h h' => h (isInf32_iff.mp h').1
  have nf : ∀ {x}, finite32 x → ¬ IsNaN (.f32 x) := fun h h' => h h'.1
  refine ⟨?_, ?_, ?_, ?_, ?_⟩
  · intro h
    unfold Fmt.add
    by_cases h1 : Fmt.b32.isNaN a = true
    · rw [if_pos h1]
      exact (quiet32 ha (isNaN32_iff.mp h1)).1
    · have h2 := isNaN32_iff.mpr (h.resolve_left fun h' => h1 (isNaN32_iff.mpr h'))
      rw [if_neg h1, if_pos h2]
      exact (quiet32 hb (isNaN32_iff.mp h2)).1
  · intro h1 h2 h3
    unfold Fmt.add
    rw [if_neg (nn (inf32_notNaN h1)), if_neg (nn (inf32_notNaN h2)), if_pos (isInf32_iff.mpr h1), isNeg32_iff ha, isNeg32_iff hb,
      if_pos ⟨isInf32_iff.mpr h2, by
        unfold sign32 at h3 ⊢
        by_cases h4 : a / 2 ^ 31 = 1 <;> by_cases h5 : b / 2 ^ 31 = 1 <;> simp [h4, h5]
        all_goals omega⟩]
    exact nan32_nan
  · intro h1 h2
    unfold Fmt.add
    have hbn : ¬ IsNaN (.f32 b) := h2.elim (fun h => nf h) (fun h => inf32_notNaN h.1)
    rw [if_neg (nn (inf32_notNaN h1)), if_neg (nn hbn), if_pos (isInf32_iff.mpr h1), isNeg32_iff ha, isNeg32_iff hb, if_neg]
    rintro ⟨h3, h4⟩
    rcases h2 with h2 | ⟨_, h2⟩
    · exact ni h2 h3
    · rw [h2] at h4
      exact h4 rfl
  · intro h1 h2
    unfold Fmt.add
    rw [if_neg (nn (nf h1)), if_neg (nn (inf32_notNaN h2)), if_neg (ni h1), if_pos (isInf32_iff.mpr h2)]
  · intro h1 h2 h3
    unfold Fmt.add
    rw [if_neg (nn (nf h1)), if_neg (nn (nf h2)), if_neg (ni h1), if_neg (ni h2)]
    dsimp only
    rw [value32 ha, value32 hb, if_pos h3, isNeg32_iff ha, isNeg32_iff hb]
    simp only [decide_eq_true_eq]
    rfl

/-- **C86**, quotients: NaN stays NaN, an infinity stays -/
theorem C86_quotient_special {b d : Nat} :
    (b < 2 ^ 64 → IsNaN (.f64 b) → IsNaN (.f64 (Fmt.b64.divNat b d))) ∧ (inf64 b → Fmt.b64.divNat b d = b) ∧
    (b < 2 ^ 32 → IsNaN (.f32 b) → IsNaN (.f32 (Fmt.b32.divNat b d))) ∧ (inf32 b → Fmt.b32.divNat b d = b) := by
  unfold Fmt.divNat
  refine ⟨fun hb h => ?_, fun h => ?_, fun hb h => ?_, fun h => ?_⟩
  · rw [if_pos (isNaN64_iff.mpr h)]
    exact (quiet64 hb h).1
  · rw [if_neg (fun h' => inf64_notNaN h (isNaN64_iff.mp h')), if_pos (isInf64_iff.mpr h)]
  · rw [if_pos (isNaN32_iff.mpr h)]
    exact (quiet32 hb h).1
  · rw [if_neg (fun h' => inf32_notNaN h (isNaN32_iff.mp h')), if_pos (isInf32_iff.mpr h)]

/-- **C86**, an offset that is no number or infinite next to a `float32` altitude -/
theorem C86_narrow_special {b : Nat} (hb : b < 2 ^ 64) :
    (IsNaN (.f64 b) → IsNaN (.f32 (narrow32 b)) ∧ narrow32 b < 2 ^ 32) ∧
    (inf64 b → narrow32 b = sign64 b * 2 ^ 31 + 255 * 2 ^ 23) := by
  unfold narrow32
  constructor
  · intro h
    rw [if_pos (isNaN64_iff.mpr h)]
    have hq : ∃ x, Fmt.b32.quiet (Fmt.b32.inf + b % 2 ^ 52 / 2 ^ 29) = x ∧ 255 * 2 ^ 23 < x ∧ x < 2 ^ 31 := by
      refine ⟨_, rfl, ?_⟩
      unfold Fmt.quiet
      rw [show Fmt.b32.F - 1 = 22 from rfl, show Fmt.b32.inf = 255 * 2 ^ 23 from rfl]
      split <;> omega
    obtain ⟨x, hx, h1, h2⟩ := hq
    rw [hx]
    unfold Fmt.withSign
    rw [show Fmt.b32.signBit = 2 ^ 31 from rfl]
    cases Fmt.b64.isNeg b with
    | true => exact ⟨show (2 ^ 31 + x) / 2 ^ 23 % 2 ^ 8 = 255 ∧ (2 ^ 31 + x) % 2 ^ 23 ≠ 0 by omega, show 2 ^ 31 + x < 2 ^ 32 by omega⟩
    | false => exact ⟨show x / 2 ^ 23 % 2 ^ 8 = 255 ∧ x % 2 ^ 23 ≠ 0 by omega, show x < 2 ^ 32 by omega⟩
  · intro h
    rw [if_neg (fun h' => inf64_notNaN h (isNaN64_iff.mp h')), if_pos (isInf64_iff.mpr h), isNeg64_iff hb]
    unfold Fmt.withSign sign64
    rw [show Fmt.b32.signBit = 2 ^ 31 from rfl, show Fmt.b32.inf = 255 * 2 ^ 23 from rfl]
    by_cases h1 : b / 2 ^ 63 = 1
    · rw [decide_eq_true h1, if_pos rfl, h1]
    · rw [decide_eq_false h1, if_neg (by simp), show b / 2 ^ 63 = 0 by omega]

theorem zero32_iff {b : Nat} (hb : b < 2 ^ 32) : Fmt.b32.abs b = 0 ↔ val32 b = 0 := by
  rw [← value32 hb]
  unfold Fmt.value
  have hz : floatMag Fmt.b32.F 0 = 0 := by decide
  constructor
  · intro h
    rw [h, hz]
    split <;> rfl
  · intro h
    by_cases h0 : Fmt.b32.abs b = 0
    · exact h0
    · have := floatMag_ne_zero (F := Fmt.b32.F) h0
      split at h <;> omega

/-- **C87**, products of `float32` that are not finite: NaN stays NaN, zero times infinity gives NaN, and an infinity
times another number is the infinity of the sign. -/
theorem C87_product_special {a b : Nat} (ha : a < 2 ^ 32) (hb : b < 2 ^ 32) :
    (IsNaN (.f32 a) ∨ IsNaN (.f32 b) → IsNaN (.f32 (Fmt.b32.mul a b))) ∧
    (inf32 a → val32 b = 0 → IsNaN (.f32 (Fmt.b32.mul a b))) ∧ (val32 a = 0 → inf32 b → IsNaN (.f32 (Fmt.b32.mul a b))) ∧
    (inf32 a → ¬ IsNaN (.f32 b) → val32 b ≠ 0 → inf32 (Fmt.b32.mul a b) ∧ sign32 (Fmt.b32.mul a b) = (sign32 a + sign32 b) % 2) ∧
    (inf32 b → ¬ IsNaN (.f32 a) → val32 a ≠ 0 → inf32 (Fmt.b32.mul a b) ∧ sign32 (Fmt.b32.mul a b) = (sign32 a + sign32 b) % 2) := by
  have nn : ∀ {x}, ¬ IsNaN (.f32 x) → Fmt.b32.isNaN x ≠ true := fun h h' => h (isNaN32_iff.mp h')
  have zn : ∀ {x}, x < 2 ^ 32 → val32 x = 0 → ¬ IsNaN (.f32 x) := by
    intro x hx h hn
    have h1 := (zero32_iff hx).mpr h
    unfold Fmt.abs at h1
    unfold IsNaN exp32 frac32 at hn
    rw [show Fmt.b32.signBit = 2 ^ 31 from rfl] at h1
    omega
  have iz : ∀ {x}, inf32 x → ¬ Fmt.b32.abs x = 0 := by
    intro x h h'
    rw [isInf32_iff.mpr h] at h'
    exact absurd h' (by decide)
  have hs : inf32 (Fmt.b32.withSign (Fmt.b32.isNeg a != Fmt.b32.isNeg b) Fmt.b32.inf) ∧
      sign32 (Fmt.b32.withSign (Fmt.b32.isNeg a != Fmt.b32.isNeg b) Fmt.b32.inf) = (sign32 a + sign32 b) % 2 := by
    rw [isNeg32_iff ha, isNeg32_iff hb]
    unfold Fmt.withSign inf32 exp32 frac32 sign32
    rw [show Fmt.b32.signBit = 2 ^ 31 from rfl, show Fmt.b32.inf = 255 * 2 ^ 23 from rfl]
    by_cases h4 : a / 2 ^ 31 = 1 <;> by_cases h5 : b / 2 ^ 31 = 1 <;> simp [h4, h5]
    all_goals omega
  refine ⟨?_, ?_, ?_, ?_, ?_⟩
  · intro h
    unfold Fmt.mul
    by_cases h1 : Fmt.b32.isNaN a = true
    · rw [if_pos h1]
      exact (quiet32 ha (isNaN32_iff.mp h1)).1
    · have h2 := isNaN32_iff.mpr (h.resolve_left fun h' => h1 (isNaN32_iff.mpr h'))
      rw [if_neg h1, if_pos h2]
      exact (quiet32 hb (isNaN32_iff.mp h2)).1
  · intro h1 h2
    unfold Fmt.mul
    rw [if_neg (nn (inf32_notNaN h1)), if_neg (nn (zn hb h2)), if_pos (.inl (isInf32_iff.mpr h1)), if_pos (.inr ((zero32_iff hb).mpr h2))]
    exact nan32_nan
  · intro h1 h2
    unfold Fmt.mul
    rw [if_neg (nn (zn ha h1)), if_neg (nn (inf32_notNaN h2)), if_pos (.inr (isInf32_iff.mpr h2)), if_pos (.inl ((zero32_iff ha).mpr h1))]
    exact nan32_nan
  · intro h1 h2 h3
    unfold Fmt.mul
    rw [if_neg (nn (inf32_notNaN h1)), if_neg (nn h2), if_pos (.inl (isInf32_iff.mpr h1)),
      if_neg (fun h => h.elim (iz h1) fun h => h3 ((zero32_iff hb).mp h))]
    exact hs
  · intro h1 h2 h3
    unfold Fmt.mul
    rw [if_neg (nn h2), if_neg (nn (inf32_notNaN h1)), if_pos (.inr (isInf32_iff.mpr h1)),
      if_neg (fun h => h.elim (fun h => h3 ((zero32_iff ha).mp h)) (iz h1))]
    exact hs

/-- **C87**, differences: `a - b` is `a + (-b)`, and NaN stays NaN -/
theorem C87_difference_special {a b : Nat} (ha : a < 2 ^ 32) (hb : b < 2 ^ 32) :
    (IsNaN (.f32 a) ∨ IsNaN (.f32 b) → IsNaN (.f32 (Fmt.b32.sub a b))) ∧
    (¬ IsNaN (.f32 a) → ¬ IsNaN (.f32 b) → Fmt.b32.sub a b = Fmt.b32.add a ((b + 2 ^ 31) % 2 ^ 32)) := by
  constructor
  · intro h
    unfold Fmt.sub
    by_cases h1 : Fmt.b32.isNaN a = true
    · rw [if_pos h1]
      exact (quiet32 ha (isNaN32_iff.mp h1)).1
    · have h2 := isNaN32_iff.mpr (h.resolve_left fun h' => h1 (isNaN32_iff.mpr h'))
      rw [if_neg h1, if_pos h2]
      exact (quiet32 hb (isNaN32_iff.mp h2)).1
  · intro h1 h2
    unfold Fmt.sub
    rw [if_neg (fun h => h1 (isNaN32_iff.mp h)), if_neg (fun h => h2 (isNaN32_iff.mp h))]
    have hneg : Fmt.b32.neg b = (b + 2 ^ 31) % 2 ^ 32 := by
      unfold Fmt.neg Fmt.withSign Fmt.isNeg Fmt.abs
      rw [show Fmt.b32.signBit = 2 ^ 31 from rfl]
      by_cases h : 2 ^ 31 ≤ b
      · rw [decide_eq_true h, if_neg (by simp)]
        omega
      · rw [decide_eq_false h, if_pos (by simp)]
        omega
    rw [hneg]

/-- non-vacuity: infinities of both signs, NaN, zeros of both signs, and numbers that cancel -/
example : inf64 0x7FF0000000000000 ∧ inf64 0xFFF0000000000000 ∧ IsNaN (.f64 0x7FF0000000000001) ∧
    finite64 0 ∧ finite64 (2 ^ 63) ∧ val64 0 + val64 (2 ^ 63) = 0 ∧ val64 tenth + val64 (2 ^ 63 + tenth) = 0 ∧
    Fmt.b64.add tenth (2 ^ 63 + tenth) = 0 ∧ Fmt.b64.add (2 ^ 63) (2 ^ 63) = 2 ^ 63 ∧
    inf32 0x7F800000 ∧ inf32 0xFF800000 ∧ IsNaN (.f32 0x7F800001) ∧ val32 0 = 0 ∧ val32 (2 ^ 31) = 0 ∧
    Fmt.b32.mul 0x7F800000 (2 ^ 31) = Fmt.b32.nan ∧ Fmt.b32.mul 0x7F800000 0xBF800000 = 0xFF800000 := by
  unfold inf64 inf32 IsNaN finite64
  decide +kernel

/-- **C86**, columns of floats: a column keeps its type when it is scaled and when the altitude offset is added. A quotient of
finite values is the nearest number of that type, and so is a sum; a float offset is first rounded to the type of the column. -/
theorem C86_float_columns {d b : Nat} (hd : 0 < d) :
    (b < 2 ^ 32 → finite32 b → ∃ c, npScale d (.f32 b) = .f32 c ∧ sign32 c = sign32 b ∧ Nearest32 (mag32 b) (d * 2 ^ 149) (c % 2 ^ 31)) ∧
    (b < 2 ^ 64 → finite64 b → ∃ c, npScale d (.f64 b) = .f64 c ∧ sign64 c = sign64 b ∧ Nearest64 (mag64 b) (d * 2 ^ 1074) (c % 2 ^ 63)) ∧
    (∀ o, b < 2 ^ 32 → o < 2 ^ 64 → finite32 b → finite64 o → ∃ k, sign32 k = sign64 o ∧ Nearest32 (mag64 o) (2 ^ 1074) (k % 2 ^ 31) ∧
      (k < 2 ^ 32 → finite32 k → val32 b + val32 k ≠ 0 → ∃ c, npAdd (.f32 b) (.float o) = .f32 c ∧
        sign32 c = (if val32 b + val32 k < 0 then 1 else 0) ∧ Nearest32 (val32 b + val32 k).natAbs (2 ^ 149) (c % 2 ^ 31))) ∧
    (∀ o, b < 2 ^ 64 → o < 2 ^ 64 → finite64 b → finite64 o → val64 b + val64 o ≠ 0 → ∃ c, npAdd (.f64 b) (.float o) = .f64 c ∧
        sign64 c = (if val64 b + val64 o < 0 then 1 else 0) ∧ Nearest64 (val64 b + val64 o).natAbs (2 ^ 1074) (c % 2 ^ 63)) ∧
    (∀ o, (∃ c, npAdd (.f32 b) o = .f32 c) ∧ (∃ c, npAdd (.f64 b) o = .f64 c)) := by
  refine ⟨fun h f => ⟨_, rfl, C86_quotient32 h f hd⟩, fun h f => ⟨_, rfl, C86_quotient64 h f hd⟩, fun o h ho f fo => ?_,
    fun o h ho f fo hs => ⟨_, rfl, (C86_sum64 h ho f fo hs).2⟩, ?_⟩
  · exact ⟨narrow32 o, (C86_narrow ho fo).1, (C86_narrow ho fo).2, fun hk fk hs => ⟨_, rfl, (C86_sum32 h hk f fk hs).2⟩⟩
  · intro o
    cases o <;> exact ⟨⟨_, rfl⟩, ⟨_, rfl⟩⟩

/-- non-vacuity: 0.5 and 1.5 as float32, an offset of 0.1, and 1.6 as the float32 sum -/
example : finite32 0x3F000000 ∧ finite32 0x3FC00000 ∧ finite64 tenth ∧ finite32 (narrow32 tenth) ∧
    val32 0x3FC00000 + val32 (narrow32 tenth) ≠ 0 ∧ npAdd (.f32 0x3FC00000) (.float tenth) = .f32 0x3FCCCCCD := by
  unfold finite32 finite64
  decide +kernel

end PyULog
