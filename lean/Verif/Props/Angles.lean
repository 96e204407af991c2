import Verif.Spec.Angles
import Mathlib.Tactic.Linarith
import Mathlib.Tactic.LinearCombination
import Mathlib.Tactic.FieldSimp
/-
C75: the formulas of the attitude angles over the real numbers.
-/
namespace PyULog
open Spec Real

/-- the angles that the code computes for a quaternion, in exact arithmetic -/
noncomputable def rollR (q : Quat) : ℝ := rollOf realOps q.w q.x q.y q.z
noncomputable def pitchR (q : Quat) : ℝ := pitchOf realOps q.w q.x q.y q.z
noncomputable def yawR (q : Quat) : ℝ := yawOf realOps q.w q.x q.y q.z

theorem arg_polar {r a : ℝ} (hr : 0 < r) (ha : a ∈ Set.Ioc (-π) π) : Complex.arg ⟨r * cos a, r * sin a⟩ = a := by
  have h := Complex.arg_mul_cos_add_sin_mul_I hr ha
  have e : (⟨r * cos a, r * sin a⟩ : ℂ) = (r : ℂ) * (Complex.cos a + Complex.sin a * Complex.I) := by
    apply Complex.ext <;> simp [← Complex.ofReal_cos, ← Complex.ofReal_sin]
  rw [e]; exact h

theorem halves (a : ℝ) : cos a = cos (a / 2) ^ 2 - sin (a / 2) ^ 2 ∧ sin a = 2 * sin (a / 2) * cos (a / 2) ∧
    cos (a / 2) ^ 2 + sin (a / 2) ^ 2 = 1 := by
  have h1 := cos_two_mul' (a / 2)
  have h2 := sin_two_mul (a / 2)
  have e : 2 * (a / 2) = a := by ring
  rw [e] at h1 h2
  exact ⟨h1, h2, cos_sq_add_sin_sq _⟩

/-- **C75**: the angles of the quaternion of a roll, a pitch and a yaw are this roll, pitch and yaw, for
pitches between -90 and 90 degrees (without these two). -/
theorem C75_angles {roll pitch yaw : ℝ} (hr : roll ∈ Set.Ioc (-π) π) (hp : pitch ∈ Set.Ioo (-(π / 2)) (π / 2))
    (hy : yaw ∈ Set.Ioc (-π) π) :
    rollR (quatOf roll pitch yaw) = roll ∧ pitchR (quatOf roll pitch yaw) = pitch ∧
      yawR (quatOf roll pitch yaw) = yaw := by
  have hc : 0 < cos pitch := cos_pos_of_mem_Ioo hp
  obtain ⟨a1, a2, a3⟩ := halves roll
  obtain ⟨b1, b2, b3⟩ := halves pitch
  obtain ⟨c1, c2, c3⟩ := halves yaw
  refine ⟨?_, ?_, ?_⟩
  · refine Eq.trans ?_ (arg_polar hc hr)
    simp only [rollR, rollOf, realOps, quatOf, quatX, quatY, quatZ, Quat.mul]
    rw [a1, a2, b1]
    generalize cos (roll / 2) = cr at *
    generalize sin (roll / 2) = sr at *
    generalize cos (pitch / 2) = cp at *
    generalize sin (pitch / 2) = sp at *
    generalize cos (yaw / 2) = cy at *
    generalize sin (yaw / 2) = sy at *
    congr 1
    apply Complex.ext
    · show 1 - 2 * _ = _
      linear_combination (-((cp ^ 2 + sp ^ 2) * (cy ^ 2 + sy ^ 2))) * a3 - (cy ^ 2 + sy ^ 2) * b3 +
        ((cr ^ 2 - sr ^ 2) * (cp ^ 2 - sp ^ 2) - 1) * c3
    · show 2 * _ = _
      linear_combination 2 * cr * sr * (cp ^ 2 - sp ^ 2) * c3
  · refine Eq.trans ?_ (arcsin_sin hp.1.le hp.2.le)
    simp only [pitchR, pitchOf, realOps, quatOf, quatX, quatY, quatZ, Quat.mul]
    rw [b2]
    generalize cos (roll / 2) = cr at *
    generalize sin (roll / 2) = sr at *
    generalize cos (pitch / 2) = cp at *
    generalize sin (pitch / 2) = sp at *
    generalize cos (yaw / 2) = cy at *
    generalize sin (yaw / 2) = sy at *
    congr 1
    linear_combination 2 * sp * cp * (cy ^ 2 + sy ^ 2) * a3 + 2 * sp * cp * c3
  · refine Eq.trans ?_ (arg_polar hc hy)
    simp only [yawR, yawOf, realOps, quatOf, quatX, quatY, quatZ, Quat.mul]
    rw [c1, c2, b1]
    generalize cos (roll / 2) = cr at *
    generalize sin (roll / 2) = sr at *
    generalize cos (pitch / 2) = cp at *
    generalize sin (pitch / 2) = sp at *
    generalize cos (yaw / 2) = cy at *
    generalize sin (yaw / 2) = sy at *
    congr 1
    apply Complex.ext
    · show 1 - 2 * _ = _
      linear_combination (-((cp ^ 2 + sp ^ 2) * (cr ^ 2 + sr ^ 2))) * c3 - (cr ^ 2 + sr ^ 2) * b3 +
        ((cy ^ 2 - sy ^ 2) * (cp ^ 2 - sp ^ 2) - 1) * a3
    · show 2 * _ = _
      linear_combination 2 * cy * sy * (cp ^ 2 - sp ^ 2) * a3

/-- **C75**: a unit quaternion rotates every vector as its angles do, first by the roll about the x axis, then
by the pitch about the y axis and by the yaw about the z axis, if the pitch is not 90 or -90 degrees. -/
theorem C75_rotation {q : Quat} (hq : q.Unit) (hp : pitchR q ≠ π / 2) (hm : pitchR q ≠ -(π / 2)) (v : Vec) :
    q.rotate v = (rotZ (yawR q) (rotY (pitchR q) (rotX (rollR q) v))).quat := by
  obtain ⟨w, x, y, z⟩ := q
  unfold Quat.Unit at hq
  simp only at hq
  have hS : pitchR ⟨w, x, y, z⟩ = arcsin (2 * (w * y - z * x)) := rfl
  set S := 2 * (w * y - z * x) with eS
  have habs1 : S ≤ 1 := by nlinarith [sq_nonneg (w - y), sq_nonneg (x + z)]
  have habs2 : -1 ≤ S := by nlinarith [sq_nonneg (w + y), sq_nonneg (x - z)]
  have hlt1 : S < 1 := lt_of_le_of_ne habs1 fun e => hp (by rw [hS, e, arcsin_one])
  have hlt2 : -1 < S := lt_of_le_of_ne habs2 fun e => hm (by rw [hS, ← e, arcsin_neg, arcsin_one])
  have hk0 : 0 < 1 - S ^ 2 := by nlinarith
  set k := √(1 - S ^ 2) with ek
  have hk : 0 < k := Real.sqrt_pos.mpr hk0
  have hk2 : k ^ 2 = 1 - S ^ 2 := Real.sq_sqrt hk0.le
  have hsp : sin (pitchR ⟨w, x, y, z⟩) = S := by rw [hS, sin_arcsin habs2 habs1]
  have hcp : cos (pitchR ⟨w, x, y, z⟩) = k := by rw [hS, cos_arcsin]
  have polar : ∀ a b : ℝ, a ^ 2 + b ^ 2 = k ^ 2 → cos (Complex.arg ⟨b, a⟩) = b / k ∧ sin (Complex.arg ⟨b, a⟩) = a / k := by
    intro a b h
    have hn : ‖(⟨b, a⟩ : ℂ)‖ = k := by
      rw [Complex.norm_def, Complex.normSq_mk, show b * b + a * a = k ^ 2 by linarith, Real.sqrt_sq hk.le]
    have hne : (⟨b, a⟩ : ℂ) ≠ 0 := by
      intro e
      rw [e, norm_zero] at hn
      linarith
    exact ⟨by rw [Complex.cos_arg hne, hn], by rw [Complex.sin_arg, hn]⟩
  clear_value k
  clear_value S
  subst eS
  obtain ⟨r1, r2⟩ := polar (2 * (w * x + y * z)) (1 - 2 * (x * x + y * y)) (by
    linear_combination (4 * (x ^ 2 + y ^ 2)) * hq - hk2)
  obtain ⟨y1, y2⟩ := polar (2 * (w * z + x * y)) (1 - 2 * (y * y + z * z)) (by
    linear_combination (4 * (y ^ 2 + z ^ 2)) * hq - hk2)
  have hr : rollR ⟨w, x, y, z⟩ = Complex.arg ⟨1 - 2 * (x * x + y * y), 2 * (w * x + y * z)⟩ := rfl
  have hy : yawR ⟨w, x, y, z⟩ = Complex.arg ⟨1 - 2 * (y * y + z * z), 2 * (w * z + x * y)⟩ := rfl
  rw [← hr] at r1 r2
  rw [← hy] at y1 y2
  have hk1 : k ≠ 0 := hk.ne'
  simp only [Quat.rotate, Quat.mul, Quat.conj, Vec.quat, rotX, rotY, rotZ, hsp, hcp, r1, r2, y1, y2]
  have e12 : (1 - 2 * (y * y + z * z)) / k * (2 * (w * y - z * x) * (2 * (w * x + y * z) / k)) -
      2 * (w * z + x * y) / k * ((1 - 2 * (x * x + y * y)) / k) = 2 * (x * y - w * z) := by
    field_simp
    linear_combination (1 / 2) * ((2 * (w * z + x * y) * (w ^ 2 - x ^ 2 - y ^ 2 + z ^ 2) +
      (w ^ 2 + x ^ 2 + y ^ 2 + z ^ 2 + 1) * (2 * (x * y - w * z)) - 2 * (w * y - z * x) * (2 * (w * x + y * z)) +
      2 * (w * z + x * y)) * hq - 2 * (x * y - w * z) * hk2)
  have e13 : (1 - 2 * (y * y + z * z)) / k * (2 * (w * y - z * x) * ((1 - 2 * (x * x + y * y)) / k)) +
      2 * (w * z + x * y) / k * (2 * (w * x + y * z) / k) = 2 * (x * z + w * y) := by
    field_simp
    linear_combination (1 / 2) * (((w ^ 2 + x ^ 2 + y ^ 2 + z ^ 2 + 1) * (2 * (x * z + w * y)) -
      2 * (w * z + x * y) * (2 * (w * x + y * z)) - 2 * (w * y - z * x) * (2 * w ^ 2 - 2 * y ^ 2) +
      (w ^ 2 + x ^ 2 + y ^ 2 + z ^ 2 - 1) * (2 * (w * y - z * x))) * hq - 2 * (x * z + w * y) * hk2)
  have e22 : 2 * (w * z + x * y) / k * (2 * (w * y - z * x) * (2 * (w * x + y * z) / k)) +
      (1 - 2 * (y * y + z * z)) / k * ((1 - 2 * (x * x + y * y)) / k) = w ^ 2 - x ^ 2 + y ^ 2 - z ^ 2 := by
    field_simp
    linear_combination ((w ^ 2 + x ^ 2 + y ^ 2 + z ^ 2 + 1) * (w ^ 2 - x ^ 2 + y ^ 2 - z ^ 2) -
      (w ^ 2 + x ^ 2 - y ^ 2 - z ^ 2) * (w ^ 2 - x ^ 2 - y ^ 2 + z ^ 2) - (2 * w ^ 2 - 2 * y ^ 2) +
      (w ^ 2 + x ^ 2 + y ^ 2 + z ^ 2 - 1)) * hq - (w ^ 2 - x ^ 2 + y ^ 2 - z ^ 2) * hk2
  have e23 : 2 * (w * z + x * y) / k * (2 * (w * y - z * x) * ((1 - 2 * (x * x + y * y)) / k)) -
      (1 - 2 * (y * y + z * z)) / k * (2 * (w * x + y * z) / k) = 2 * (y * z - w * x) := by
    field_simp
    linear_combination (1 / 2) * (((w ^ 2 + x ^ 2 + y ^ 2 + z ^ 2 + 1) * (2 * (y * z - w * x)) +
      (w ^ 2 + x ^ 2 - y ^ 2 - z ^ 2) * (2 * (w * x + y * z)) - 2 * (w * z + x * y) * (2 * (w * y - z * x)) +
      2 * (w * x + y * z)) * hq - 2 * (y * z - w * x) * hk2)
  have c1 : (1 - 2 * (y * y + z * z)) / k * k = 1 - 2 * (y * y + z * z) := div_mul_cancel₀ _ hk1
  have c2 : 2 * (w * z + x * y) / k * k = 2 * (w * z + x * y) := div_mul_cancel₀ _ hk1
  have c3 : 2 * (w * x + y * z) / k * k = 2 * (w * x + y * z) := div_mul_cancel₀ _ hk1
  have c4 : (1 - 2 * (x * x + y * y)) / k * k = 1 - 2 * (x * x + y * y) := div_mul_cancel₀ _ hk1
  apply Quat.ext
  · simp only; ring
  · simp only
    linear_combination (v.x) * hq - v.x * c1 - v.y * e12 - v.z * e13
  · simp only
    linear_combination -v.x * c2 - v.y * e22 - v.z * e23
  · simp only
    linear_combination (v.z) * hq - v.y * c3 - v.z * c4

/-- the quaternion (1 + i + j - k)/2 has the pitch 90 degrees, and its roll and yaw are 0; the rotation with
these angles is another one -/
theorem C75_gimbal_lock : ∃ q : Quat, q.Unit ∧ rollR q = 0 ∧ pitchR q = π / 2 ∧ yawR q = 0 ∧
    ∃ v : Vec, q.rotate v ≠ (rotZ (yawR q) (rotY (pitchR q) (rotX (rollR q) v))).quat := by
  let q : Quat := ⟨1 / 2, 1 / 2, 1 / 2, -1 / 2⟩
  have h1 : rollR q = 0 := by
    show Complex.arg ⟨1 - 2 * (1 / 2 * (1 / 2) + 1 / 2 * (1 / 2)), 2 * (1 / 2 * (1 / 2) + 1 / 2 * (-1 / 2))⟩ = 0
    norm_num
    exact Complex.arg_zero
  have h2 : pitchR q = π / 2 := by
    show arcsin (2 * (1 / 2 * (1 / 2) - -1 / 2 * (1 / 2))) = π / 2
    norm_num
  have h3 : yawR q = 0 := by
    show Complex.arg ⟨1 - 2 * (1 / 2 * (1 / 2) + -1 / 2 * (-1 / 2)), 2 * (1 / 2 * (-1 / 2) + 1 / 2 * (1 / 2))⟩ = 0
    norm_num
    exact Complex.arg_zero
  refine ⟨q, ?_, h1, h2, h3, ⟨0, 1, 0⟩, ?_⟩
  · show (1 / 2 : ℝ) ^ 2 + (1 / 2) ^ 2 + (1 / 2) ^ 2 + (-1 / 2) ^ 2 = 1
    norm_num
  · rw [h1, h2, h3]
    intro e
    have := congrArg Quat.x e
    simp [Quat.rotate, Quat.mul, Quat.conj, Vec.quat, rotX, rotY, rotZ, q] at this
    norm_num at this

/-- roll and yaw are 0 for every unit quaternion with the pitch 90 degrees -/
theorem C75_gimbal_zero {q : Quat} (hq : q.Unit) (hp : pitchR q = π / 2) : rollR q = 0 ∧ yawR q = 0 := by
  obtain ⟨w, x, y, z⟩ := q
  unfold Quat.Unit at hq
  simp only at hq
  have hS : 1 ≤ 2 * (w * y - z * x) := by
    have h : arcsin (2 * (w * y - z * x)) = π / 2 := hp
    exact arcsin_eq_pi_div_two.mp h
  have e1 : w = y := by nlinarith [sq_nonneg (w - y), sq_nonneg (x + z)]
  have e2 : z = -x := by nlinarith [sq_nonneg (w - y), sq_nonneg (x + z)]
  subst e1 e2
  have hz : ∀ a b : ℝ, a = 0 → b = 0 → Complex.arg ⟨b, a⟩ = 0 := by
    rintro a b rfl rfl
    exact Complex.arg_zero
  exact ⟨hz _ _ (by show 2 * (w * x + w * -x) = 0; ring) (by show 1 - 2 * (x * x + w * w) = 0; linarith),
    hz _ _ (by show 2 * (w * -x + x * w) = 0; ring) (by show 1 - 2 * (w * w + -x * -x) = 0; linarith)⟩

/-- negating the quaternion does not change the angles -/
theorem C75_negated (q : Quat) : rollR ⟨-q.w, -q.x, -q.y, -q.z⟩ = rollR q ∧
    pitchR ⟨-q.w, -q.x, -q.y, -q.z⟩ = pitchR q ∧ yawR ⟨-q.w, -q.x, -q.y, -q.z⟩ = yawR q := by
  simp [rollR, rollOf, pitchR, pitchOf, yawR, yawOf, realOps]

-- level flight, and a rotation by 90 degrees about the vertical axis
example : (quatOf 0 0 0).Unit ∧ pitchR (quatOf 0 0 0) = 0 := by
  have h := C75_angles (roll := 0) (pitch := 0) (yaw := 0) ⟨by linarith [pi_pos], pi_pos.le⟩
    ⟨by linarith [pi_pos], by linarith [pi_pos]⟩ ⟨by linarith [pi_pos], pi_pos.le⟩
  refine ⟨?_, h.2.1⟩
  simp [Quat.Unit, quatOf, quatX, quatY, quatZ, Quat.mul]
example : yawR (quatOf 0 0 (π / 2)) = π / 2 :=
  (C75_angles (roll := 0) (pitch := 0) (yaw := π / 2) ⟨by linarith [pi_pos], pi_pos.le⟩
    ⟨by linarith [pi_pos], by linarith [pi_pos]⟩ ⟨by linarith [pi_pos], by linarith [pi_pos]⟩).2.2

end PyULog
