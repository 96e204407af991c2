import Verif.Spec.FormatText
/-
Decimal digits and white space of Unicode.
-/
namespace PyULog
open Spec

theorem zeros_eq : zeros.map Char.toNat = decimalZeros := by decide +kernel

/-- the blocks of digits do not overlap -/
theorem zeros_apart : decimalZeros.Pairwise fun a b => a + 10 ≤ b := by decide +kernel

theorem find_block {l : List Nat} {n d z : Nat} (h : l.Pairwise fun a b => a + 10 ≤ b) (hz : z ∈ l) (hd : d < 10)
    (hn : n = z + d) : l.find? (fun z => decide (z ≤ n) && decide (n < z + 10)) = some z := by
  induction l with
  | nil => cases hz
  | cons a l ih =>
    have h := List.pairwise_cons.mp h
    rcases List.mem_cons.mp hz with rfl | hz
    · rw [List.find?_cons_of_pos]
      simp
      omega
    · rw [List.find?_cons_of_neg]
      · exact ih h.2 hz
      · have := h.1 z hz
        simp
        omega

theorem digit_iff {c : Char} {d : Nat} : digitVal c = some d ↔ DigitOf c d := by
  unfold digitVal DigitOf
  constructor
  · intro h
    obtain ⟨z, h1, h2⟩ := Option.map_eq_some_iff.mp h
    have h3 := List.find?_some h1
    have h4 := List.mem_of_find?_eq_some h1
    simp only [Bool.and_eq_true, decide_eq_true_eq] at h3
    rw [← zeros_eq] at h4
    obtain ⟨y, h5, h6⟩ := List.mem_map.mp h4
    exact ⟨by omega, y, h5, by omega⟩
  · rintro ⟨hd, z, hz, hc⟩
    have hm : z.toNat ∈ decimalZeros := by
      rw [← zeros_eq]
      exact List.mem_map.mpr ⟨z, hz, rfl⟩
    rw [find_block zeros_apart hm hd hc]
    simp
    omega

theorem isSpace_blank (c : Char) : isIntSpace c = true ↔ Blank c := by
  unfold isIntSpace isSpaceC Blank blanks
  simp only [Bool.or_eq_true, Bool.and_eq_true, Bool.not_eq_true', Bool.and_eq_false_iff, decide_eq_true_eq,
    decide_eq_false_iff_not, List.mem_cons, List.not_mem_nil, or_false]
  omega

/-- digits are none of the other characters of integers -/
theorem digit_ne {c : Char} {d : Nat} (h : DigitOf c d) : c ≠ '_' ∧ c ≠ '-' ∧ c ≠ '+' ∧ isIntSpace c = false := by
  have key : ∀ z ∈ zeros, ∀ d : Fin 10, z.toNat + d.1 ≠ 95 ∧ z.toNat + d.1 ≠ 45 ∧ z.toNat + d.1 ≠ 43 ∧
      z.toNat + d.1 ∉ blanks := by decide +kernel
  obtain ⟨hd, z, hz, hc⟩ := h
  obtain ⟨h1, h2, h3, h4⟩ := key z hz ⟨d, hd⟩
  simp only [← hc] at h1 h2 h3 h4
  refine ⟨?_, ?_, ?_, ?_⟩
  · rintro rfl; exact h1 rfl
  · rintro rfl; exact h2 rfl
  · rintro rfl; exact h3 rfl
  · cases hs : isIntSpace c with
    | false => rfl
    | true => exact absurd ((isSpace_blank c).mp hs) h4

end PyULog
