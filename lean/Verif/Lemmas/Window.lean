import Verif.Model.Extract
import Verif.Lemmas.FloatFmt
import Verif.Spec.Window
/-
Lemmas about the comparison of timestamps with the bounds of a window.
-/
namespace PyULog
open Spec

theorem ofInt64_parts (n : Int) : Fmt.b64.isNeg (Fmt.b64.ofInt n) = decide (n < 0) ∧
    Fmt.b64.abs (Fmt.b64.ofInt n) = Fmt.b64.round n.natAbs 1 ∧ Fmt.b64.isNaN (Fmt.b64.ofInt n) = false := by
  have hlt := round64_lt n.natAbs 1
  obtain ⟨h1, h2⟩ := withSign64 (decide (n < 0)) (x := Fmt.b64.round n.natAbs 1) (by omega)
  refine ⟨h1, h2, ?_⟩
  unfold Fmt.isNaN Fmt.ofInt
  rw [h2, b64_inf]
  exact decide_eq_false (by omega)

/-- the product with a million is rounded once -/
theorem micros_eq {s : Int} (hs : s.natAbs < 2 ^ 53) : micros s = .ok (Fmt.b64.ofInt (s * 1000000)) := by
  obtain ⟨h1, h2, h3, h4⟩ := ofInt64 hs
  unfold micros
  dsimp only
  rw [if_neg h3]
  unfold Fmt.mulNat
  rw [h2, if_neg (by simp), if_neg h3, h1]
  have hr : Fmt.b64.round (floatMag Fmt.b64.F (Fmt.b64.abs (Fmt.b64.ofInt s)) * 1000000) (2 ^ Fmt.b64.E)
      = Fmt.b64.round (s * 1000000).natAbs 1 := by
    refine round_eq Fmt.b64 b64_F (Nat.pow_pos (by omega)) (by omega) ?_
    show floatMag 52 (Fmt.b64.abs (Fmt.b64.ofInt s)) * 1000000 * 1 = (s * 1000000).natAbs * 2 ^ 1074
    rw [h4, Nat.mul_one, Int.natAbs_mul, show (1000000 : Int).natAbs = 1000000 from rfl, Nat.mul_assoc,
      Nat.mul_comm (2 ^ 1074), ← Nat.mul_assoc]
  rw [hr]
  unfold Fmt.ofInt
  have : decide (s * 1000000 < 0) = decide (s < 0) := by
    by_cases h : s < 0
    · rw [decide_eq_true h, decide_eq_true (by omega)]
    · rw [decide_eq_false h, decide_eq_false (by omega)]
  rw [this]

/-- larger integers are not rounded to smaller doubles -/
theorem ofInt64_mono {a b : Int} (h : a ≤ b) : Fmt.b64.value (Fmt.b64.ofInt a) ≤ Fmt.b64.value (Fmt.b64.ofInt b) := by
  obtain ⟨a1, a2, _⟩ := ofInt64_parts a
  obtain ⟨b1, b2, _⟩ := ofInt64_parts b
  unfold Fmt.value
  rw [a1, a2, b1, b2]
  have hm : ∀ {x y : Nat}, x ≤ y → floatMag Fmt.b64.F (Fmt.b64.round x 1) ≤ floatMag Fmt.b64.F (Fmt.b64.round y 1) :=
    fun h => floatMag_mono _ (round_mono _ b64_F (by omega) (by omega) (by omega))
  by_cases ha : a < 0 <;> by_cases hb : b < 0
  · rw [decide_eq_true ha, decide_eq_true hb, if_pos rfl, if_pos rfl]
    have := hm (x := b.natAbs) (y := a.natAbs) (by omega)
    omega
  · rw [decide_eq_true ha, decide_eq_false hb, if_pos rfl, if_neg (by simp)]
    omega
  · omega
  · rw [decide_eq_false ha, decide_eq_false hb, if_neg (by simp), if_neg (by simp)]
    have := hm (x := a.natAbs) (y := b.natAbs) (by omega)
    omega

/-- an integer with few enough bits is exact -/
theorem ofInt64_value {n : Int} (hn : n.natAbs < 2 ^ 53) : Fmt.b64.value (Fmt.b64.ofInt n) = n * 2 ^ 1074 := by
  obtain ⟨h1, _, _, h4⟩ := ofInt64 hn
  unfold Fmt.value
  rw [h1, show Fmt.b64.F = 52 from rfl, h4]
  have : ((n.natAbs * 2 ^ 1074 : Nat) : Int) = (n.natAbs : Int) * 2 ^ 1074 := by
    rw [Int.natCast_mul, Int.natCast_pow]; rfl
  rw [this]
  generalize (2 : Int) ^ 1074 = P
  by_cases h : n < 0
  · rw [decide_eq_true h, if_pos rfl, show (n.natAbs : Int) = -n by omega, Int.neg_mul, Int.neg_neg]
  · rw [decide_eq_false h, if_neg (by simp), show (n.natAbs : Int) = n by omega]

/-- an integer with some zero bits at the end -/
theorem round_shifted (f : Fmt) (hF : 0 < f.F) {a k : Nat} (ha : a < 2 ^ (f.F + 1))
    (hk : (f.E + k) * 2 ^ f.F + 2 ^ (f.F + 1) ≤ f.inf) : floatMag f.F (f.round (a * 2 ^ k) 1) = a * 2 ^ k * 2 ^ f.E := by
  obtain ⟨y, h1, h2⟩ := exists_float (b := f.E + k) ha
  have : f.round (a * 2 ^ k) 1 = y := by
    rw [← round_exact f hF (x := y) (by omega), h2]
    exact round_eq f hF (by omega) (Nat.pow_pos (by omega)) (by
      rw [Nat.mul_one, Nat.pow_add, Nat.mul_comm (2 ^ f.E), Nat.mul_assoc])
  rw [this, h2, Nat.pow_add, Nat.mul_comm (2 ^ f.E), Nat.mul_assoc]

theorem withSign32 (neg : Bool) {x : Nat} (hx : x < 2 ^ 31) :
    Fmt.b32.isNeg (Fmt.b32.withSign neg x) = neg ∧ Fmt.b32.abs (Fmt.b32.withSign neg x) = x := by
  unfold Fmt.isNeg Fmt.abs Fmt.withSign
  rw [show Fmt.b32.signBit = 2 ^ 31 from rfl]
  cases neg with
  | true =>
    refine ⟨decide_eq_true (Nat.le_add_right _ _), ?_⟩
    rw [if_pos rfl, Nat.add_mod_left, Nat.mod_eq_of_lt hx]
  | false =>
    refine ⟨decide_eq_false (by rw [if_neg (by simp)]; omega), ?_⟩
    rw [if_neg (by simp), Nat.mod_eq_of_lt hx]

/-- a bound that a `float32` can hold -/
theorem narrow_bound {s : Int} (hs : s.natAbs * 15625 < 2 ^ 24) :
    Fmt.b32.isNaN (narrow32 (Fmt.b64.ofInt (s * 1000000))) = false ∧
      Fmt.b32.value (narrow32 (Fmt.b64.ofInt (s * 1000000))) = s * 1000000 * 2 ^ 149 := by
  obtain ⟨h1, h2, h3, h4⟩ := ofInt64 (n := s * 1000000) (by omega)
  have hn : narrow32 (Fmt.b64.ofInt (s * 1000000)) =
      Fmt.b32.withSign (decide (s * 1000000 < 0)) (Fmt.b32.round (s.natAbs * 15625 * 2 ^ 6) 1) := by
    unfold narrow32
    rw [h2, if_neg (by simp), if_neg h3, h1, h4]
    refine congrArg _ (round_eq Fmt.b32 b32_F (Nat.pow_pos (by omega)) (by omega) ?_)
    rw [Nat.mul_one]
    refine congrArg (· * 2 ^ 1074) ?_
    omega
  have hm := round_shifted Fmt.b32 b32_F (a := s.natAbs * 15625) (k := 6) hs (by decide)
  have hlt := round32_lt (s.natAbs * 15625 * 2 ^ 6) 1
  obtain ⟨g1, g2⟩ := withSign32 (decide (s * 1000000 < 0)) (x := Fmt.b32.round (s.natAbs * 15625 * 2 ^ 6) 1) (by omega)
  rw [hn]
  refine ⟨?_, ?_⟩
  · unfold Fmt.isNaN
    rw [g2, b32_inf]
    exact decide_eq_false (by omega)
  · unfold Fmt.value
    rw [g1, g2, hm, show Fmt.b32.E = 149 from rfl]
    by_cases h : s * 1000000 < 0
    · rw [decide_eq_true h, if_pos rfl]
      omega
    · rw [decide_eq_false h, if_neg (by simp)]
      omega

/-- **what is compared**: exactly the numbers, if the format can hold them -/
theorem reached_iff {s : Int} (hs : (s * 1000000).natAbs < 2 ^ 53) {v : NpVal} (hv : ComparedExactly s v) :
    reached (Fmt.b64.ofInt (s * 1000000)) v = true ↔ AtOrAfter s v := by
  obtain ⟨_, _, n3⟩ := ofInt64_parts (s * 1000000)
  cases v with
  | int n =>
    obtain ⟨_, _, m3⟩ := ofInt64_parts n
    unfold reached Fmt.ge AtOrAfter
    dsimp only
    rw [n3, m3, ofInt64_value hs, ofInt64_value hv]
    simp only [Bool.not_false, Bool.true_and, decide_eq_true_eq]
    have hp : (0 : Int) < 2 ^ 1074 := Int.pow_pos (by omega)
    generalize (2 : Int) ^ 1074 = P at hp ⊢
    exact ⟨fun h => Int.le_of_mul_le_mul_right h hp, fun h => Int.mul_le_mul_of_nonneg_right h (by omega)⟩
  | f64 b =>
    unfold reached Fmt.ge AtOrAfter
    dsimp only
    rw [n3, ofInt64_value hs, value64 hv, ← isNaN64_iff]
    cases Fmt.b64.isNaN b <;> simp
  | f32 b =>
    obtain ⟨g1, g2⟩ := narrow_bound hv.2
    unfold reached Fmt.ge AtOrAfter
    dsimp only
    rw [g1, g2, value32 hv.1, ← isNaN32_iff]
    cases Fmt.b32.isNaN b <;> simp

/-- integers that are compared after rounding: nothing at or after the bound is missed, and what is taken too early is
less than 8.2 milliseconds early -/
theorem reached_near (s : Int) {t : Nat} (ht : t < 2 ^ 64) :
    (s * 1000000 ≤ t → reached (Fmt.b64.ofInt (s * 1000000)) (.int t) = true) ∧
    (reached (Fmt.b64.ofInt (s * 1000000)) (.int t) = true → s * 1000000 ≤ t + 8192) := by
  obtain ⟨_, _, n3⟩ := ofInt64_parts (s * 1000000)
  obtain ⟨_, _, m3⟩ := ofInt64_parts t
  unfold reached Fmt.ge
  dsimp only
  rw [n3, m3]
  simp only [Bool.not_false, Bool.true_and, decide_eq_true_eq]
  refine ⟨fun h => ofInt64_mono h, fun h => ?_⟩
  apply Int.not_lt.mp
  intro hlt
  -- two doubles between the timestamp and the bound
  have ex : ∀ a : Nat, a < 2 ^ 53 → Fmt.b64.value (Fmt.b64.ofInt ((a * 2 ^ 12 : Nat) : Int)) = ((a * 2 ^ 12 * 2 ^ 1074 : Nat) : Int) := by
    intro a ha
    obtain ⟨p1, p2, _⟩ := ofInt64_parts ((a * 2 ^ 12 : Nat) : Int)
    have hm := round_shifted Fmt.b64 b64_F (a := a) (k := 12) ha (by decide)
    unfold Fmt.value
    rw [p1, p2, Int.natAbs_natCast, hm, show Fmt.b64.E = 1074 from rfl, decide_eq_false (by omega), if_neg (by simp)]
  have h1 := ofInt64_mono (a := (t : Int)) (b := (((t / 4096 + 1) * 2 ^ 12 : Nat) : Int)) (by omega)
  have h2 := ofInt64_mono (a := (((t / 4096 + 2) * 2 ^ 12 : Nat) : Int)) (b := s * 1000000) (by omega)
  rw [ex _ (by omega)] at h1 h2
  have hp : 0 < 2 ^ 1074 := Nat.pow_pos (by omega)
  have hl : (t / 4096 + 1) * 2 ^ 12 * 2 ^ 1074 < (t / 4096 + 2) * 2 ^ 12 * 2 ^ 1074 :=
    Nat.mul_lt_mul_of_pos_right (by omega) hp
  exact absurd (Int.le_trans h2 (Int.le_trans h h1)) (Int.not_le.mpr (Int.ofNat_lt.mpr hl))

/-- an integer that no double can hold -/
theorem micros_overflow (s : Int) : micros s = .error .overflowError ↔ Fmt.b64.round s.natAbs 1 = Fmt.b64.inf := by
  obtain ⟨_, h2, _⟩ := ofInt64_parts s
  unfold micros
  dsimp only
  rw [h2]
  split
  · rename_i h; exact ⟨fun _ => h, fun _ => rfl⟩
  · rename_i h; exact ⟨fun h => (by cases h), fun h' => absurd h' h⟩

end PyULog
