import Mathlib.Tactic.Linarith
import Mathlib.Tactic.NormNum
import Mathlib.Tactic.FieldSimp
import Mathlib.Tactic.Ring
import Mathlib.Tactic.Positivity
import Verif.Spec.FloatAngles
import Verif.Lemmas.FloatAngles
/-
Property theorems: C87 (accuracy of the arguments of the attitude angles in float32).
-/
namespace PyULog
open Spec

theorem value_withSign {neg : Bool} {x : Nat} (hx : x < 2 ^ 31) :
    Fmt.b32.value (Fmt.b32.withSign neg x) = (if neg then -1 else 1) * (floatMag 23 x : Int) := by
  unfold Fmt.value Fmt.withSign Fmt.isNeg Fmt.abs
  rw [show Fmt.b32.signBit = 2 ^ 31 from rfl, show Fmt.b32.F = 23 from rfl]
  cases neg with
  | true =>
    rw [if_pos rfl, if_pos rfl, decide_eq_true (by omega), if_pos rfl, Nat.add_mod_left, Nat.mod_eq_of_lt hx]
    omega
  | false =>
    simp only [Bool.false_eq_true, if_false]
    rw [decide_eq_false (by omega), if_neg (by simp), Nat.mod_eq_of_lt hx]
    omega

theorem real32_withSign {neg : Bool} {x : Nat} (hx : x < 255 * 2 ^ 23) :
    Float32 (Fmt.b32.withSign neg x) ∧ real32 (Fmt.b32.withSign neg x) = (if neg then -1 else 1) * ((floatMag 23 x : ℝ) / 2 ^ 149) := by
  have hlt : Fmt.b32.withSign neg x < 2 ^ 32 := by
    unfold Fmt.withSign
    rw [show Fmt.b32.signBit = 2 ^ 31 from rfl]
    split <;> omega
  refine ⟨⟨hlt, ?_⟩, ?_⟩
  · unfold finite32 exp32 Fmt.withSign
    rw [show Fmt.b32.signBit = 2 ^ 31 from rfl]
    split <;> omega
  · unfold real32
    rw [← value32 hlt, value_withSign (by omega)]
    cases neg <;> push_cast <;> simp
    ring

/-- the real number of a finite pattern, from the parts of the model -/
theorem real32_parts {b : Nat} (h : Float32 b) :
    real32 b = (if Fmt.b32.isNeg b then -1 else 1) * ((floatMag 23 (Fmt.b32.abs b) : ℝ) / 2 ^ 149) := by
  unfold real32
  rw [← value32 h.1]
  unfold Fmt.value
  rw [show Fmt.b32.F = 23 from rfl]
  split <;> push_cast <;> ring

theorem round32_real {p q k : Nat} (hq : 0 < q) (hk : k ≤ 3) (h : (p : ℝ) ≤ 2 ^ k * q) :
    Fmt.b32.round p q < 255 * 2 ^ 23 ∧ |(floatMag 23 (Fmt.b32.round p q) : ℝ) / 2 ^ 149 - p / q| ≤ 2 ^ k / 2 ^ 25 := by
  have hn : p ≤ 2 ^ k * q := by exact_mod_cast h
  constructor
  · have h8 : Fmt.b32.round p q ≤ Fmt.b32.round 8 1 := round_mono Fmt.b32 b32_F hq (by omega) (by
      have : 2 ^ k ≤ 2 ^ 3 := Nat.pow_le_pow_right (by omega) hk
      have := Nat.mul_le_mul_right q this
      omega)
    have : Fmt.b32.round 8 1 < 255 * 2 ^ 23 := by decide +kernel
    omega
  · have he := round_err Fmt.b32 b32_F (p := p) (q := q) (b := 125 + k) hq (by
      show p * 2 ^ 149 ≤ q * 2 ^ (23 + 1 + (125 + k))
      rw [show 23 + 1 + (125 + k) = k + 149 by omega, Nat.pow_add, ← Nat.mul_assoc, Nat.mul_comm q]
      exact Nat.mul_le_mul_right _ hn) (by
      rw [b32_inf, show Fmt.b32.F = 23 from rfl]
      omega)
    rw [show Fmt.b32.E = 149 from rfl, show Fmt.b32.F = 23 from rfl] at he
    generalize floatMag 23 (Fmt.b32.round p q) = m at he
    have hqr : (0 : ℝ) < q := by exact_mod_cast hq
    have e1 : 2 * (p * 2 ^ 149) ≤ 2 * (m * q) + q * 2 ^ (125 + k) := by unfold gap at he; omega
    have e2 : 2 * (m * q) ≤ 2 * (p * 2 ^ 149) + q * 2 ^ (125 + k) := by unfold gap at he; omega
    have f1 : 2 * ((p : ℝ) * 2 ^ 149) ≤ 2 * (m * q) + q * 2 ^ (125 + k) := by exact_mod_cast e1
    have f2 : 2 * ((m : ℝ) * q) ≤ 2 * (p * 2 ^ 149) + q * 2 ^ (125 + k) := by exact_mod_cast e2
    have hs : (2 : ℝ) ^ (125 + k) = 2 ^ 125 * 2 ^ k := pow_add _ _ _
    rw [hs] at f1 f2
    have hdiff : (m : ℝ) / 2 ^ 149 - p / q = (m * q - p * 2 ^ 149) / (2 ^ 149 * q) := by field_simp
    rw [hdiff, abs_div, abs_of_pos (show (0 : ℝ) < 2 ^ 149 * q by positivity), div_le_iff₀ (by positivity), abs_le]
    have hc : (2 : ℝ) ^ k / 2 ^ 25 * (2 ^ 149 * q) = q * (2 ^ 125 * 2 ^ k) / 2 := by ring
    rw [hc]
    constructor <;> linarith

/-- one rounded operation with sign -/
theorem signed_real {neg : Bool} {p q k : Nat} {v : ℝ} (hq : 0 < q) (hk : k ≤ 3)
    (hv : v = (if neg then -1 else 1) * ((p : ℝ) / q)) (hb : |v| ≤ 2 ^ k) :
    CloseTo (2 ^ k / 2 ^ 25) v (Fmt.b32.withSign neg (Fmt.b32.round p q)) := by
  have hqr : (0 : ℝ) < q := by exact_mod_cast hq
  have habs : |v| = (p : ℝ) / q := by
    rw [hv, abs_mul, abs_of_nonneg (show (0 : ℝ) ≤ (p : ℝ) / q by positivity)]
    cases neg <;> simp
  rw [habs, div_le_iff₀ hqr] at hb
  obtain ⟨h1, h2⟩ := round32_real hq hk hb
  obtain ⟨h3, h4⟩ := real32_withSign (neg := neg) h1
  refine ⟨h3, ?_⟩
  rw [h4, hv, ← mul_sub, abs_mul]
  cases neg <;> simpa using h2

/-- **C87**, products -/
theorem mul32_real {a b k : Nat} (ha : Float32 a) (hb : Float32 b) (hk : k ≤ 3) (h : |real32 a * real32 b| ≤ 2 ^ k) :
    CloseTo (2 ^ k / 2 ^ 25) (real32 a * real32 b) (Fmt.b32.mul a b) := by
  unfold Fmt.mul
  rw [(notNaN32 ha.2).1, (notNaN32 hb.2).1]
  simp only [Bool.false_eq_true, if_false]
  rw [if_neg (by simp [(notNaN32 ha.2).2, (notNaN32 hb.2).2])]
  refine signed_real (Nat.mul_pos (Nat.pow_pos (by omega)) (Nat.pow_pos (by omega))) hk ?_ h
  rw [real32_parts ha, real32_parts hb, show Fmt.b32.F = 23 from rfl, show Fmt.b32.E = 149 from rfl]
  push_cast
  cases Fmt.b32.isNeg a <;> cases Fmt.b32.isNeg b <;> simp <;> ring

/-- **C87**, sums -/
theorem add32_real {a b k : Nat} (ha : Float32 a) (hb : Float32 b) (hk : k ≤ 3) (h : |real32 a + real32 b| ≤ 2 ^ k) :
    CloseTo (2 ^ k / 2 ^ 25) (real32 a + real32 b) (Fmt.b32.add a b) := by
  have hs : real32 a + real32 b = ((Fmt.b32.value a + Fmt.b32.value b : Int) : ℝ) / 2 ^ 149 := by
    unfold real32
    rw [← value32 ha.1, ← value32 hb.1]
    push_cast
    ring
  unfold Fmt.add
  rw [(notNaN32 ha.2).1, (notNaN32 hb.2).1]
  simp only [Bool.false_eq_true, if_false]
  rw [if_neg (notNaN32 ha.2).2, if_neg (notNaN32 hb.2).2]
  generalize Fmt.b32.value a + Fmt.b32.value b = s at hs
  by_cases h0 : s = 0
  · rw [if_pos h0]
    have hv : real32 a + real32 b = 0 := by rw [hs, h0]; simp
    have z : ∀ neg : Bool, CloseTo (2 ^ k / 2 ^ 25) 0 (Fmt.b32.withSign neg 0) := by
      intro neg
      obtain ⟨h3, h4⟩ := real32_withSign (neg := neg) (x := 0) (by omega)
      refine ⟨h3, ?_⟩
      rw [h4, show floatMag 23 0 = 0 by decide]
      simp
      positivity
    rw [hv]
    split
    · exact z true
    · exact z false
  · rw [if_neg h0]
    refine signed_real (Nat.pow_pos (by omega)) hk ?_ h
    rw [hs, show Fmt.b32.E = 149 from rfl]
    have hc : ((s.natAbs : Nat) : ℝ) = |(s : ℝ)| := by
      rw [Nat.cast_natAbs, Int.cast_abs]
    push_cast
    rw [hc]
    by_cases hn : s < 0
    · rw [decide_eq_true hn, if_pos rfl, abs_of_neg (by exact_mod_cast hn)]
      ring
    · rw [decide_eq_false hn, if_neg (by simp), abs_of_nonneg (by exact_mod_cast not_lt.mp hn)]
      ring

theorem neg32_real {b : Nat} (hb : Float32 b) : Float32 (Fmt.b32.neg b) ∧ real32 (Fmt.b32.neg b) = -real32 b := by
  obtain ⟨h1, h2⟩ := real32_withSign (neg := !Fmt.b32.isNeg b) (x := Fmt.b32.abs b) (finite32_lt hb.2)
  refine ⟨h1, ?_⟩
  unfold Fmt.neg
  rw [h2, real32_parts hb]
  cases Fmt.b32.isNeg b <;> simp

/-- **C87**, differences -/
theorem sub32_real {a b k : Nat} (ha : Float32 a) (hb : Float32 b) (hk : k ≤ 3) (h : |real32 a - real32 b| ≤ 2 ^ k) :
    CloseTo (2 ^ k / 2 ^ 25) (real32 a - real32 b) (Fmt.b32.sub a b) := by
  obtain ⟨h1, h2⟩ := neg32_real hb
  unfold Fmt.sub
  rw [(notNaN32 ha.2).1, (notNaN32 hb.2).1]
  simp only [Bool.false_eq_true, if_false]
  have := add32_real ha h1 hk (by rw [h2]; simpa [sub_eq_add_neg] using h)
  rw [h2] at this
  simpa [sub_eq_add_neg] using this

theorem constants32 : (Float32 (Fmt.b32.round 1 1) ∧ real32 (Fmt.b32.round 1 1) = 1) ∧
    (Float32 (Fmt.b32.round 2 1) ∧ real32 (Fmt.b32.round 2 1) = 2) := by
  have h1 := real32_withSign (neg := false) (x := Fmt.b32.round 1 1) (by decide +kernel)
  have h2 := real32_withSign (neg := false) (x := Fmt.b32.round 2 1) (by decide +kernel)
  have e1 : floatMag 23 (Fmt.b32.round 1 1) = 2 ^ 149 := by decide +kernel
  have e2 : floatMag 23 (Fmt.b32.round 2 1) = 2 * 2 ^ 149 := by decide +kernel
  have s : ∀ x, Fmt.b32.withSign false x = x := fun _ => rfl
  rw [s, e1] at h1
  rw [s, e2] at h2
  refine ⟨⟨h1.1, ?_⟩, ⟨h2.1, ?_⟩⟩
  · rw [h1.2]; norm_num
  · rw [h2.2]; norm_num

theorem closeTo_abs {e v : ℝ} {r : Nat} (h : CloseTo e v r) : v - e ≤ real32 r ∧ real32 r ≤ v + e := by
  have := abs_le.mp h.2
  constructor <;> linarith [this.1, this.2]

/-- `2.0 * x` of a number that is known up to `e` -/
theorem twice32 {e v : ℝ} {r k : Nat} (h : CloseTo e v r) (hk : k ≤ 2) (hb : |v| + e ≤ 2 ^ k) :
    CloseTo (2 * e + 2 ^ (k + 1) / 2 ^ 25) (2 * v) (Fmt.b32.mul (Fmt.b32.round 2 1) r) := by
  have hr : |real32 r| ≤ 2 ^ k := by
    have := abs_sub_abs_le_abs_sub (real32 r) v
    linarith [h.2]
  have h1 := mul32_real (k := k + 1) constants32.2.1 h.1 (by omega) (by
    rw [constants32.2.2, abs_mul, abs_of_pos (by norm_num : (0 : ℝ) < 2), pow_succ]
    linarith)
  refine ⟨h1.1, ?_⟩
  have h2 := h1.2
  rw [constants32.2.2] at h2
  have e1 := abs_le.mp h2
  have e2 := abs_le.mp h.2
  rw [abs_le]
  constructor <;> linarith [e1.1, e1.2, e2.1, e2.2]

/-- `2.0 * (a * b + c * d)` -/
theorem twiceSum32 {a b c d k : Nat} (fa : Float32 a) (fb : Float32 b) (fc : Float32 c) (fd : Float32 d) (hk : k ≤ 2)
    (h1 : |real32 a * real32 b| ≤ 2 ^ k) (h2 : |real32 c * real32 d| ≤ 2 ^ k)
    (hs : |real32 a * real32 b + real32 c * real32 d| ≤ 2 ^ k - 2 ^ k / 2 ^ 23) :
    CloseTo (2 ^ k / 2 ^ 22) (2 * (real32 a * real32 b + real32 c * real32 d))
      (Fmt.b32.mul (Fmt.b32.round 2 1) (Fmt.b32.add (Fmt.b32.mul a b) (Fmt.b32.mul c d))) := by
  have hp : (0 : ℝ) < 2 ^ k := by positivity
  have m1 := mul32_real fa fb (by omega) h1
  have m2 := mul32_real fc fd (by omega) h2
  generalize Fmt.b32.mul a b = x at m1
  generalize Fmt.b32.mul c d = y at m2
  generalize real32 a * real32 b = P at *
  generalize real32 c * real32 d = Q at *
  have e1 := abs_le.mp m1.2
  have e2 := abs_le.mp m2.2
  have es := abs_le.mp hs
  have a1 := add32_real m1.1 m2.1 (k := k) (by omega) (by
    rw [abs_le]
    constructor <;> linarith [e1.1, e1.2, e2.1, e2.2, es.1, es.2])
  have a2 : CloseTo (3 * (2 ^ k / 2 ^ 25)) (P + Q) (Fmt.b32.add x y) := by
    refine ⟨a1.1, ?_⟩
    have := abs_le.mp a1.2
    rw [abs_le]
    constructor <;> linarith [e1.1, e1.2, e2.1, e2.2, this.1, this.2]
  have t := twice32 a2 hk (by linarith)
  refine ⟨t.1, le_trans t.2 ?_⟩
  rw [pow_succ (2 : ℝ) k]
  linarith

/-- `2.0 * (a * b - c * d)` -/
theorem twiceDiff32 {a b c d k : Nat} (fa : Float32 a) (fb : Float32 b) (fc : Float32 c) (fd : Float32 d) (hk : k ≤ 2)
    (h1 : |real32 a * real32 b| ≤ 2 ^ k) (h2 : |real32 c * real32 d| ≤ 2 ^ k)
    (hs : |real32 a * real32 b - real32 c * real32 d| ≤ 2 ^ k - 2 ^ k / 2 ^ 23) :
    CloseTo (2 ^ k / 2 ^ 22) (2 * (real32 a * real32 b - real32 c * real32 d))
      (Fmt.b32.mul (Fmt.b32.round 2 1) (Fmt.b32.sub (Fmt.b32.mul a b) (Fmt.b32.mul c d))) := by
  have hp : (0 : ℝ) < 2 ^ k := by positivity
  have m1 := mul32_real fa fb (by omega) h1
  have m2 := mul32_real fc fd (by omega) h2
  generalize Fmt.b32.mul a b = x at m1
  generalize Fmt.b32.mul c d = y at m2
  generalize real32 a * real32 b = P at *
  generalize real32 c * real32 d = Q at *
  have e1 := abs_le.mp m1.2
  have e2 := abs_le.mp m2.2
  have es := abs_le.mp hs
  have a1 := sub32_real m1.1 m2.1 (k := k) (by omega) (by
    rw [abs_le]
    constructor <;> linarith [e1.1, e1.2, e2.1, e2.2, es.1, es.2])
  have a2 : CloseTo (3 * (2 ^ k / 2 ^ 25)) (P - Q) (Fmt.b32.sub x y) := by
    refine ⟨a1.1, ?_⟩
    have := abs_le.mp a1.2
    rw [abs_le]
    constructor <;> linarith [e1.1, e1.2, e2.1, e2.2, this.1, this.2]
  have t := twice32 a2 hk (by linarith)
  refine ⟨t.1, le_trans t.2 ?_⟩
  rw [pow_succ (2 : ℝ) k]
  linarith

/-- `1.0 - 2.0 * (a * a + b * b)` of a part of a quaternion -/
theorem cosine32 {a b : Nat} (fa : Float32 a) (fb : Float32 b) (h : real32 a ^ 2 + real32 b ^ 2 ≤ 1 + 1 / 2 ^ 20) :
    CloseTo (1 / 2 ^ 20) (1 - 2 * (real32 a * real32 a + real32 b * real32 b))
      (Fmt.b32.sub (Fmt.b32.round 1 1)
        (Fmt.b32.mul (Fmt.b32.round 2 1) (Fmt.b32.add (Fmt.b32.mul a a) (Fmt.b32.mul b b)))) := by
  have pa := sq_nonneg (real32 a)
  have pb := sq_nonneg (real32 b)
  have ea : real32 a * real32 a = real32 a ^ 2 := by ring
  have eb : real32 b * real32 b = real32 b ^ 2 := by ring
  have t := twiceSum32 (k := 1) fa fa fb fb (by omega) (by rw [ea, abs_of_nonneg pa]; linarith)
    (by rw [eb, abs_of_nonneg pb]; linarith) (by rw [ea, eb, abs_of_nonneg (by linarith)]; linarith)
  rw [ea, eb] at *
  have e := abs_le.mp t.2
  have d := sub32_real (k := 1) constants32.1.1 t.1 (by omega) (by
    rw [constants32.1.2, abs_le]
    constructor <;> linarith [e.1, e.2])
  refine ⟨d.1, ?_⟩
  have e' := abs_le.mp d.2
  rw [constants32.1.2] at e'
  rw [abs_le]
  constructor <;> linarith [e.1, e.2, e'.1, e'.2]

/-- products of components of a quaternion -/
theorem quat_products {w x y z : ℝ} (h : w ^ 2 + x ^ 2 + y ^ 2 + z ^ 2 ≤ 1 + 1 / 2 ^ 20) :
    |w * x| ≤ 2 ^ 0 ∧ |y * z| ≤ 2 ^ 0 ∧ |w * x + y * z| ≤ 2 ^ 0 - 2 ^ 0 / 2 ^ 23 ∧ |w * x - y * z| ≤ 2 ^ 0 - 2 ^ 0 / 2 ^ 23 := by
  refine ⟨?_, ?_, ?_, ?_⟩ <;> rw [abs_le] <;> constructor <;>
    nlinarith [sq_nonneg (w + x), sq_nonneg (w - x), sq_nonneg (y + z), sq_nonneg (y - z), sq_nonneg w, sq_nonneg x, sq_nonneg y, sq_nonneg z]

/-- **C87**, roll: `arctan2` is called with finite floats that are close to the exact arguments. -/
theorem C87_roll (arctan2 : Nat → Nat → Nat) (arcsin : Nat → Nat) {w x y z : Nat} (h : QuatFloats w x y z) :
    ∃ s c, rollOf (ops32 arctan2 arcsin) w x y z = arctan2 s c ∧
      CloseTo (1 / 2 ^ 22) (2 * (real32 w * real32 x + real32 y * real32 z)) s ∧
      CloseTo (1 / 2 ^ 20) (1 - 2 * (real32 x * real32 x + real32 y * real32 y)) c := by
  obtain ⟨h1, h2, h3, _⟩ := quat_products h.unit
  refine ⟨_, _, rfl, ?_, ?_⟩
  · have := twiceSum32 (k := 0) h.fw h.fx h.fy h.fz (by omega) h1 h2 h3
    rw [pow_zero] at this
    exact this
  · exact cosine32 h.fx h.fy (by nlinarith [h.unit, sq_nonneg (real32 w), sq_nonneg (real32 z)])

/-- **C87**, yaw -/
theorem C87_yaw (arctan2 : Nat → Nat → Nat) (arcsin : Nat → Nat) {w x y z : Nat} (h : QuatFloats w x y z) :
    ∃ s c, yawOf (ops32 arctan2 arcsin) w x y z = arctan2 s c ∧
      CloseTo (1 / 2 ^ 22) (2 * (real32 w * real32 z + real32 x * real32 y)) s ∧
      CloseTo (1 / 2 ^ 20) (1 - 2 * (real32 y * real32 y + real32 z * real32 z)) c := by
  obtain ⟨h1, h2, h3, _⟩ := quat_products (w := real32 w) (x := real32 z) (y := real32 x) (z := real32 y) (by linarith [h.unit])
  refine ⟨_, _, rfl, ?_, ?_⟩
  · have := twiceSum32 (k := 0) h.fw h.fz h.fx h.fy (by omega) h1 h2 h3
    rw [pow_zero] at this
    exact this
  · exact cosine32 h.fy h.fz (by nlinarith [h.unit, sq_nonneg (real32 w), sq_nonneg (real32 x)])

/-- **C87**, pitch: the argument of `arcsin` is close to the exact one. -/
theorem C87_pitch (arctan2 : Nat → Nat → Nat) (arcsin : Nat → Nat) {w x y z : Nat} (h : QuatFloats w x y z) :
    ∃ s, pitchOf (ops32 arctan2 arcsin) w x y z = arcsin s ∧
      CloseTo (1 / 2 ^ 22) (2 * (real32 w * real32 y - real32 z * real32 x)) s := by
  obtain ⟨h1, h2, _, h4⟩ := quat_products (w := real32 w) (x := real32 y) (y := real32 z) (z := real32 x) (by linarith [h.unit])
  refine ⟨_, rfl, ?_⟩
  have := twiceDiff32 (k := 0) h.fw h.fy h.fz h.fx (by omega) h1 h2 h4
  rw [pow_zero] at this
  exact this

/-- **C87**, domain: away from 90 and -90 degrees the argument of `arcsin` is between -1 and 1, so that the pitch is a
number. -/
theorem C87_domain_partial (arctan2 : Nat → Nat → Nat) (arcsin : Nat → Nat) {w x y z : Nat} (h : QuatFloats w x y z)
    (hp : |2 * (real32 w * real32 y - real32 z * real32 x)| ≤ 1 - 1 / 2 ^ 22) :
    ∃ s, pitchOf (ops32 arctan2 arcsin) w x y z = arcsin s ∧ Float32 s ∧ |real32 s| ≤ 1 := by
  obtain ⟨s, e, f, d⟩ := C87_pitch arctan2 arcsin h
  refine ⟨s, e, f, ?_⟩
  have := abs_sub_abs_le_abs_sub (real32 s) (2 * (real32 w * real32 y - real32 z * real32 x))
  linarith

/-- operations on array elements that are those of float32 for float32 elements -/
structure ActsOn32 (o : AngleOps NpVal) (arctan2 : Nat → Nat → Nat) (arcsin : Nat → Nat) : Prop where
  add : ∀ a b, o.add (.f32 a) (.f32 b) = .f32 (Fmt.b32.add a b)
  sub : ∀ a b, o.sub (.f32 a) (.f32 b) = .f32 (Fmt.b32.sub a b)
  mul : ∀ a b, o.mul (.f32 a) (.f32 b) = .f32 (Fmt.b32.mul a b)
  twice : ∀ a, o.twice (.f32 a) = .f32 (Fmt.b32.mul (Fmt.b32.round 2 1) a)
  oneMinus : ∀ a, o.oneMinus (.f32 a) = .f32 (Fmt.b32.sub (Fmt.b32.round 1 1) a)
  arctan2 : ∀ a b, o.arctan2 (.f32 a) (.f32 b) = .f32 (arctan2 a b)
  arcsin : ∀ a, o.arcsin (.f32 a) = .f32 (arcsin a)

/-- **C87**, columns: the elements of the columns of C74 are those of the theorems above. -/
theorem C87_elements {o : AngleOps NpVal} {arctan2 : Nat → Nat → Nat} {arcsin : Nat → Nat} (h : ActsOn32 o arctan2 arcsin)
    (w x y z : Nat) :
    rollOf o (.f32 w) (.f32 x) (.f32 y) (.f32 z) = .f32 (rollOf (ops32 arctan2 arcsin) w x y z) ∧
    pitchOf o (.f32 w) (.f32 x) (.f32 y) (.f32 z) = .f32 (pitchOf (ops32 arctan2 arcsin) w x y z) ∧
    yawOf o (.f32 w) (.f32 x) (.f32 y) (.f32 z) = .f32 (yawOf (ops32 arctan2 arcsin) w x y z) := by
  unfold rollOf pitchOf yawOf
  simp only [h.add, h.sub, h.mul, h.twice, h.oneMinus, h.arctan2, h.arcsin]
  exact ⟨rfl, rfl, rfl⟩

/-! ### a unit quaternion without pitch -/

/-- 119/178 and 41/178 as float32 -/
def Sample.w119 : Nat := 0x3f2b2565
def Sample.x41 : Nat := 0x3e6bdd7c

/-- **C87** is false near 90 degrees: the quaternion (119, -41, 119, 41)/178 has length 1, the floats nearest to its
components make the argument of `arcsin` larger than 1, and with an `arcsin` that has no value there the pitch is not a
number. -/
theorem C87_no_pitch : 119 ^ 2 + 41 ^ 2 + 119 ^ 2 + 41 ^ 2 = 178 ^ 2 ∧
    Nearest32 119 178 Sample.w119 ∧ Nearest32 41 178 Sample.x41 ∧
    ∀ (arctan2 : Nat → Nat → Nat) (arcsin : Nat → Nat), (∀ b, Float32 b → 1 < real32 b → IsNaN (.f32 (arcsin b))) →
      IsNaN (.f32 (pitchOf (ops32 arctan2 arcsin) Sample.w119 (2 ^ 31 + Sample.x41) Sample.w119 Sample.x41)) := by
  refine ⟨by norm_num, ?_, ?_, ?_⟩
  · rw [show Sample.w119 = Fmt.b32.round 119 178 by decide +kernel]
    exact C86_round32 (by omega)
  · rw [show Sample.x41 = Fmt.b32.round 41 178 by decide +kernel]
    exact C86_round32 (by omega)
  · intro arctan2 arcsin h
    have e : pitchOf (ops32 arctan2 arcsin) Sample.w119 (2 ^ 31 + Sample.x41) Sample.w119 Sample.x41
        = arcsin (Fmt.b32.round 1 1 + 1) := by
      unfold pitchOf ops32
      dsimp only
      congr 1
    rw [e]
    have h2 := real32_withSign (neg := false) (x := Fmt.b32.round 1 1 + 1) (by decide +kernel)
    have s : Fmt.b32.withSign false (Fmt.b32.round 1 1 + 1) = Fmt.b32.round 1 1 + 1 := rfl
    have e1 : floatMag 23 (Fmt.b32.round 1 1 + 1) = 2 ^ 149 + 2 ^ 126 := by decide +kernel
    rw [s, e1] at h2
    refine h _ h2.1 ?_
    rw [h2.2]
    norm_num

/-- the quaternion of a rotation by 180 degrees about an axis between x and z meets the hypotheses, with a pitch that is
a number -/
example : QuatFloats 0 (Fmt.b32.round 3 5) 0 (Fmt.b32.round 4 5) ∧
    |2 * (real32 0 * real32 0 - real32 (Fmt.b32.round 4 5) * real32 (Fmt.b32.round 3 5))| ≤ 1 - 1 / 2 ^ 22 := by
  have h0 := real32_withSign (neg := false) (x := 0) (by decide +kernel)
  have h3 := real32_withSign (neg := false) (x := Fmt.b32.round 3 5) (by decide +kernel)
  have h4 := real32_withSign (neg := false) (x := Fmt.b32.round 4 5) (by decide +kernel)
  have s : ∀ x, Fmt.b32.withSign false x = x := fun _ => rfl
  have e0 : floatMag 23 0 = 0 := by decide +kernel
  have e3 : floatMag 23 (Fmt.b32.round 3 5) = 10066330 * 2 ^ 125 := by decide +kernel
  have e4 : floatMag 23 (Fmt.b32.round 4 5) = 13421773 * 2 ^ 125 := by decide +kernel
  rw [s, e0] at h0
  rw [s, e3] at h3
  rw [s, e4] at h4
  refine ⟨⟨h0.1, h3.1, h0.1, h4.1, ?_⟩, ?_⟩
  · rw [h0.2, h3.2, h4.2]
    norm_num
  · rw [h0.2, h3.2, h4.2]
    norm_num [abs_le]

/-- the quaternion without pitch is as close to length 1 as the others -/
example : QuatFloats Sample.w119 (2 ^ 31 + Sample.x41) Sample.w119 Sample.x41 := by
  have hb := real32_withSign (neg := false) (x := Sample.w119) (by decide +kernel)
  have hs := real32_withSign (neg := false) (x := Sample.x41) (by decide +kernel)
  have hn := real32_withSign (neg := true) (x := Sample.x41) (by decide +kernel)
  have s : ∀ x, Fmt.b32.withSign false x = x := fun _ => rfl
  have n : ∀ x, Fmt.b32.withSign true x = 2 ^ 31 + x := fun _ => rfl
  have e1 : floatMag 23 Sample.w119 = 11216229 * 2 ^ 125 := by decide +kernel
  have e2 : floatMag 23 Sample.x41 = 15457660 * 2 ^ 123 := by decide +kernel
  rw [s, e1] at hb
  rw [s, e2] at hs
  rw [n, e2] at hn
  refine ⟨hb.1, hn.1, hb.1, hs.1, ?_⟩
  rw [hb.2, hs.2, hn.2]
  norm_num

end PyULog
