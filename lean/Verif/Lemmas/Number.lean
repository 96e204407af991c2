import Verif.Spec.Number
import Verif.Model.Api
/-
The comparison of array elements is the comparison of the numbers.
-/
namespace PyULog
open Spec

/-- a normalised or subnormal magnitude determines exponent and fraction -/
theorem mag_inj {P e f e' f' : Nat} (hf : f < P) (hf' : f' < P)
    (h : (if e = 0 then f else (P + f) * 2 ^ (e - 1)) = if e' = 0 then f' else (P + f') * 2 ^ (e' - 1)) :
    e = e' ∧ f = f' := by
  have key : ∀ {e f e' f' : Nat}, f < P → f' < P → e < e' →
      (if e = 0 then f else (P + f) * 2 ^ (e - 1)) <
        if e' = 0 then f' else (P + f') * 2 ^ (e' - 1) := by
    intro e f e' f' hf hf' hlt
    have he' : e' ≠ 0 := by omega
    rw [if_neg he']
    by_cases he : e = 0
    · rw [if_pos he]
      have := Nat.two_pow_pos (e' - 1)
      calc f < P := hf
        _ ≤ (P + f') * 1 := by omega
        _ ≤ (P + f') * 2 ^ (e' - 1) := Nat.mul_le_mul_left _ this
    · rw [if_neg he]
      have hs : e' - 1 = (e - 1) + 1 + (e' - 1 - e) := by omega
      have h1 : 2 ^ (e - 1 + 1) ≤ 2 ^ (e' - 1) := Nat.pow_le_pow_right (by omega) (by omega)
      have hp := Nat.two_pow_pos (e - 1)
      calc (P + f) * 2 ^ (e - 1) < (2 * P) * 2 ^ (e - 1) :=
            Nat.mul_lt_mul_of_pos_right (by omega) hp
        _ = P * 2 ^ (e - 1 + 1) := by rw [Nat.pow_succ]; simp [Nat.mul_comm, Nat.mul_assoc]
        _ ≤ (P + f') * 2 ^ (e' - 1) := Nat.mul_le_mul (by omega) h1
  rcases Nat.lt_trichotomy e e' with hlt | heq | hgt
  · have := key hf hf' hlt
    omega
  · subst heq
    refine ⟨rfl, ?_⟩
    by_cases he : e = 0
    · rwa [if_pos he, if_pos he] at h
    · rw [if_neg he, if_neg he] at h
      have := Nat.eq_of_mul_eq_mul_right (Nat.two_pow_pos _) h
      omega
  · have := key hf' hf hgt
    omega

theorem mag32_eq_zero {b : Nat} (h : mag32 b = 0) : b % 2 ^ 31 = 0 := by
  unfold mag32 exp32 frac32 at h
  by_cases he : b / 2 ^ 23 % 2 ^ 8 = 0
  · rw [if_pos he] at h; omega
  · rw [if_neg he] at h
    have := Nat.two_pow_pos (b / 2 ^ 23 % 2 ^ 8 - 1)
    rcases Nat.mul_eq_zero.mp h with h | h <;> omega

theorem mag64_eq_zero {b : Nat} (h : mag64 b = 0) : b % 2 ^ 63 = 0 := by
  unfold mag64 exp64 frac64 at h
  by_cases he : b / 2 ^ 52 % 2 ^ 11 = 0
  · rw [if_pos he] at h; omega
  · rw [if_neg he] at h
    have := Nat.two_pow_pos (b / 2 ^ 52 % 2 ^ 11 - 1)
    rcases Nat.mul_eq_zero.mp h with h | h <;> omega

theorem mag32_of_zero {b : Nat} (h : b % 2 ^ 31 = 0) : mag32 b = 0 ∧ exp32 b = 0 := by
  have he : exp32 b = 0 := by unfold exp32; omega
  refine ⟨?_, he⟩
  unfold mag32
  rw [if_pos he]
  unfold frac32
  omega

theorem mag64_of_zero {b : Nat} (h : b % 2 ^ 63 = 0) : mag64 b = 0 ∧ exp64 b = 0 := by
  have he : exp64 b = 0 := by unfold exp64; omega
  refine ⟨?_, he⟩
  unfold mag64
  rw [if_pos he]
  unfold frac64
  omega

theorem mag32_inj {a b : Nat} (h : mag32 a = mag32 b) : exp32 a = exp32 b ∧ frac32 a = frac32 b :=
  mag_inj (Nat.mod_lt _ (by decide)) (Nat.mod_lt _ (by decide)) h

theorem mag64_inj {a b : Nat} (h : mag64 a = mag64 b) : exp64 a = exp64 b ∧ frac64 a = frac64 b :=
  mag_inj (Nat.mod_lt _ (by decide)) (Nat.mod_lt _ (by decide)) h

theorem isNan32_iff (b : Nat) : isNan32 b = true ↔ exp32 b = 255 ∧ frac32 b ≠ 0 := by
  simp [isNan32, exp32, frac32]

theorem isNan64_iff (b : Nat) : isNan64 b = true ↔ exp64 b = 2047 ∧ frac64 b ≠ 0 := by
  simp [isNan64, exp64, frac64]

theorem npIsNan_iff (v : NpVal) : npIsNan v = true ↔ IsNaN v := by
  cases v with
  | int n => simp [npIsNan, IsNaN]
  | f32 b => exact isNan32_iff b
  | f64 b => exact isNan64_iff b

theorem val_eq_cases {s s' m m' : Nat} (hs : s < 2) (hs' : s' < 2)
    (h : (if s = 0 then (m : Int) else -(m : Int)) = if s' = 0 then (m' : Int) else -(m' : Int)) :
    (s = s' ∧ m = m') ∨ (m = 0 ∧ m' = 0) := by
  by_cases h1 : s = 0 <;> by_cases h2 : s' = 0
  · rw [if_pos h1, if_pos h2] at h; omega
  · rw [if_pos h1, if_neg h2] at h; omega
  · rw [if_neg h1, if_pos h2] at h; omega
  · rw [if_neg h1, if_neg h2] at h; omega

theorem eq32_iff {a b : Nat} (ha : a < 2 ^ 32) (hb : b < 2 ^ 32) :
    eq32 a b = true ↔ SameNumber (.f32 a) (.f32 b) := by
  have sa : sign32 a < 2 := by unfold sign32; omega
  have sb : sign32 b < 2 := by unfold sign32; omega
  have join : ∀ {a b : Nat}, sign32 a = sign32 b → exp32 a = exp32 b → frac32 a = frac32 b → a = b := by
    intro a b h1 h2 h3
    unfold sign32 at h1
    unfold exp32 at h2
    unfold frac32 at h3
    omega
  unfold eq32
  simp only [Bool.and_eq_true, Bool.not_eq_true', Bool.or_eq_true, decide_eq_true_eq,
    ← Bool.not_eq_true, isNan32_iff]
  constructor
  · rintro ⟨⟨na, nb⟩, h | ⟨h1, h2⟩⟩
    · subst h
      by_cases hf : exp32 a = 255
      · exact Or.inr ⟨hf, by simpa [hf] using na, hf, by simpa [hf] using na, rfl⟩
      · exact Or.inl ⟨hf, hf, rfl⟩
    · obtain ⟨m1, e1⟩ := mag32_of_zero h1
      obtain ⟨m2, e2⟩ := mag32_of_zero h2
      refine Or.inl ⟨by unfold finite32; omega, by unfold finite32; omega, ?_⟩
      unfold val32
      rw [m1, m2]
      split <;> split <;> rfl
  · rintro (⟨f1, f2, hv⟩ | ⟨e1, z1, e2, z2, hs⟩)
    · refine ⟨⟨fun h => f1 h.1, fun h => f2 h.1⟩, ?_⟩
      rcases val_eq_cases sa sb hv with ⟨h1, h2⟩ | ⟨h1, h2⟩
      · obtain ⟨h3, h4⟩ := mag32_inj h2
        exact Or.inl (join h1 h3 h4)
      · exact Or.inr ⟨mag32_eq_zero h1, mag32_eq_zero h2⟩
    · exact ⟨⟨fun h => h.2 z1, fun h => h.2 z2⟩, Or.inl (join hs (e1.trans e2.symm) (z1.trans z2.symm))⟩

theorem eq64_iff {a b : Nat} (ha : a < 2 ^ 64) (hb : b < 2 ^ 64) :
    eq64 a b = true ↔ SameNumber (.f64 a) (.f64 b) := by
  have sa : sign64 a < 2 := by unfold sign64; omega
  have sb : sign64 b < 2 := by unfold sign64; omega
  have join : ∀ {a b : Nat}, sign64 a = sign64 b → exp64 a = exp64 b → frac64 a = frac64 b → a = b := by
    intro a b h1 h2 h3
    unfold sign64 at h1
    unfold exp64 at h2
    unfold frac64 at h3
    omega
  unfold eq64
  simp only [Bool.and_eq_true, Bool.not_eq_true', Bool.or_eq_true, decide_eq_true_eq,
    ← Bool.not_eq_true, isNan64_iff]
  constructor
  · rintro ⟨⟨na, nb⟩, h | ⟨h1, h2⟩⟩
    · subst h
      by_cases hf : exp64 a = 2047
      · exact Or.inr ⟨hf, by simpa [hf] using na, hf, by simpa [hf] using na, rfl⟩
      · exact Or.inl ⟨hf, hf, rfl⟩
    · obtain ⟨m1, e1⟩ := mag64_of_zero h1
      obtain ⟨m2, e2⟩ := mag64_of_zero h2
      refine Or.inl ⟨by unfold finite64; omega, by unfold finite64; omega, ?_⟩
      unfold val64
      rw [m1, m2]
      split <;> split <;> rfl
  · rintro (⟨f1, f2, hv⟩ | ⟨e1, z1, e2, z2, hs⟩)
    · refine ⟨⟨fun h => f1 h.1, fun h => f2 h.1⟩, ?_⟩
      rcases val_eq_cases sa sb hv with ⟨h1, h2⟩ | ⟨h1, h2⟩
      · obtain ⟨h3, h4⟩ := mag64_inj h2
        exact Or.inl (join h1 h3 h4)
      · exact Or.inr ⟨mag64_eq_zero h1, mag64_eq_zero h2⟩
    · exact ⟨⟨fun h => h.2 z1, fun h => h.2 z2⟩, Or.inl (join hs (e1.trans e2.symm) (z1.trans z2.symm))⟩

/-- `==` of two array elements holds exactly for the same numbers -/
theorem npEq_iff {a b : NpVal} (ha : InRange a) (hb : InRange b) :
    npEq a b = true ↔ SameNumber a b := by
  cases a <;> cases b <;> simp only [npEq, Bool.false_eq_true, decide_eq_true_eq]
  · exact Iff.rfl
  · simp [SameNumber]
  · simp [SameNumber]
  · simp [SameNumber]
  · exact eq32_iff ha hb
  · simp [SameNumber]
  · simp [SameNumber]
  · simp [SameNumber]
  · exact eq64_iff ha hb

/-! the relation -/

theorem Spec.SameNumber.symm {a b : NpVal} (h : SameNumber a b) : SameNumber b a := by
  cases a <;> cases b <;> simp only [SameNumber] at h ⊢
  · exact h.symm
  · rcases h with ⟨h1, h2, h3⟩ | ⟨h1, h2, h3, h4, h5⟩
    · exact Or.inl ⟨h2, h1, h3.symm⟩
    · exact Or.inr ⟨h3, h4, h1, h2, h5.symm⟩
  · rcases h with ⟨h1, h2, h3⟩ | ⟨h1, h2, h3, h4, h5⟩
    · exact Or.inl ⟨h2, h1, h3.symm⟩
    · exact Or.inr ⟨h3, h4, h1, h2, h5.symm⟩

theorem Spec.SameNumber.trans {a b c : NpVal} (h : SameNumber a b) (h' : SameNumber b c) :
    SameNumber a c := by
  cases a <;> cases b <;> cases c <;> simp only [SameNumber] at h h' ⊢
  · exact h.trans h'
  · rcases h with ⟨h1, h2, h3⟩ | ⟨h1, h2, h3, h4, h5⟩ <;>
      rcases h' with ⟨g1, g2, g3⟩ | ⟨g1, g2, g3, g4, g5⟩
    · exact Or.inl ⟨h1, g2, h3.trans g3⟩
    · exact absurd g1 h2
    · exact absurd h3 g1
    · exact Or.inr ⟨h1, h2, g3, g4, h5.trans g5⟩
  · rcases h with ⟨h1, h2, h3⟩ | ⟨h1, h2, h3, h4, h5⟩ <;>
      rcases h' with ⟨g1, g2, g3⟩ | ⟨g1, g2, g3, g4, g5⟩
    · exact Or.inl ⟨h1, g2, h3.trans g3⟩
    · exact absurd g1 h2
    · exact absurd h3 g1
    · exact Or.inr ⟨h1, h2, g3, g4, h5.trans g5⟩

theorem Spec.SameNumber.refl {a : NpVal} (h : ¬ IsNaN a) : SameNumber a a := by
  cases a with
  | int n => rfl
  | f32 b =>
    by_cases hf : exp32 b = 255
    · exact Or.inr ⟨hf, by simpa [IsNaN, hf] using h, hf, by simpa [IsNaN, hf] using h, rfl⟩
    · exact Or.inl ⟨hf, hf, rfl⟩
  | f64 b =>
    by_cases hf : exp64 b = 2047
    · exact Or.inr ⟨hf, by simpa [IsNaN, hf] using h, hf, by simpa [IsNaN, hf] using h, rfl⟩
    · exact Or.inl ⟨hf, hf, rfl⟩

theorem Spec.SameNumber.not_nan {a b : NpVal} (h : SameNumber a b) : ¬ IsNaN a ∧ ¬ IsNaN b := by
  cases a <;> cases b <;> simp only [SameNumber] at h <;> simp only [IsNaN]
  · simp
  · rcases h with ⟨h1, h2, h3⟩ | ⟨h1, h2, h3, h4, h5⟩
    · exact ⟨fun h => h1 h.1, fun h => h2 h.1⟩
    · exact ⟨fun h => h.2 h2, fun h => h.2 h4⟩
  · rcases h with ⟨h1, h2, h3⟩ | ⟨h1, h2, h3, h4, h5⟩
    · exact ⟨fun h => h1 h.1, fun h => h2 h.1⟩
    · exact ⟨fun h => h.2 h2, fun h => h.2 h4⟩

theorem Spec.SameOrNaN.refl (a : NpVal) : SameOrNaN a a := by
  by_cases h : IsNaN a
  · exact Or.inr ⟨h, h⟩
  · exact Or.inl (SameNumber.refl h)

theorem Spec.SameOrNaN.symm {a b : NpVal} (h : SameOrNaN a b) : SameOrNaN b a :=
  h.elim (fun h => Or.inl h.symm) (fun h => Or.inr ⟨h.2, h.1⟩)

theorem Spec.SameOrNaN.trans {a b c : NpVal} (h : SameOrNaN a b) (h' : SameOrNaN b c) :
    SameOrNaN a c := by
  rcases h with h | ⟨h1, h2⟩ <;> rcases h' with g | ⟨g1, g2⟩
  · exact Or.inl (h.trans g)
  · exact absurd g1 h.not_nan.2
  · exact absurd h2 g.not_nan.1
  · exact Or.inr ⟨h1, g2⟩

end PyULog
