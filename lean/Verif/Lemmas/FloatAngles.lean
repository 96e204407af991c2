import Verif.Model.FloatAngles
import Verif.Lemmas.FloatFmt
import Verif.Props.Floats
/-
Error of one rounding.
-/
namespace PyULog
open Spec

/-- the error is at most half the step of the floats below `2^(F+1+b)` units -/
theorem round_err (f : Fmt) (hF : 0 < f.F) {p q b : Nat} (hq : 0 < q) (h : p * 2 ^ f.E ≤ q * 2 ^ (f.F + 1 + b))
    (hb : (b + 1) * 2 ^ f.F + 2 ^ (f.F + 1) ≤ f.inf) :
    2 * gap (p * 2 ^ f.E) (floatMag f.F (f.round p q) * q) ≤ q * 2 ^ b := by
  have hN := round_nearest f hF (p := p) hq
  generalize f.round p q = x at hN
  have hpb : 0 < 2 ^ b := Nat.pow_pos (by omega)
  have hqb : 0 < q * 2 ^ b := Nat.mul_pos hq hpb
  obtain ⟨b1, b2⟩ := rneDiv_bounds (p * 2 ^ f.E) (q * 2 ^ b) hqb
  have hm : rneDiv (p * 2 ^ f.E) (q * 2 ^ b) ≤ 2 ^ (f.F + 1) := by
    refine rneDiv_le hqb ?_
    rw [Nat.mul_assoc, ← Nat.pow_add, Nat.add_comm b]
    exact h
  generalize rneDiv (p * 2 ^ f.E) (q * 2 ^ b) = m at b1 b2 hm
  have hy : ∃ y, y ≤ f.inf ∧ floatMag f.F y = m * 2 ^ b := by
    rcases Nat.lt_or_ge m (2 ^ (f.F + 1)) with hlt | hge
    · obtain ⟨y, h1, h2⟩ := exists_float (b := b) hlt
      refine ⟨y, ?_, h2⟩
      rw [Nat.add_mul] at hb
      omega
    · obtain ⟨y, h1, h2⟩ := exists_float (F := f.F) (b := b + 1) (a := 2 ^ f.F) (by rw [Nat.pow_succ]; have : 0 < 2 ^ f.F := Nat.pow_pos (by omega); omega)
      refine ⟨y, by omega, ?_⟩
      rw [h2, show m = 2 ^ (f.F + 1) by omega, ← Nat.pow_add, ← Nat.pow_add]
      congr 1
      omega
  obtain ⟨y, hy1, hy2⟩ := hy
  have key : 2 * gap (p * 2 ^ f.E) (floatMag f.F y * q) ≤ q * 2 ^ b := by
    have e : floatMag f.F y * q = q * 2 ^ b * m := by
      rw [hy2, Nat.mul_comm m, Nat.mul_comm _ q, Nat.mul_assoc]
    rw [e]
    rw [Nat.mul_assoc 2] at b1 b2
    unfold gap
    omega
  by_cases hxy : y = x
  · rw [← hxy]; exact key
  · rcases hN.2 y hy1 hxy with h1 | h1 <;> omega

end PyULog
