import Verif.Model.Floats
import Verif.Lemmas.NumberText
import Verif.Props.KmlDoc
/-
Property theorems: C86 (coordinates and distances of the points in KML files).
-/
namespace PyULog
open Spec

/-- **C86**, rounding: the operations give the float nearest to the exact result. -/
theorem C86_round64 {p q : Nat} (hq : 0 < q) : Nearest64 p q (Fmt.b64.round p q) :=
  nearest64_iff.mpr (round_nearest Fmt.b64 b64_F hq)

theorem C86_round32 {p q : Nat} (hq : 0 < q) : Nearest32 p q (Fmt.b32.round p q) :=
  nearest32_iff.mpr (round_nearest Fmt.b32 b32_F hq)

/-- **C86**, integers: a scaled column holds the doubles nearest to `n / d`, with the sign of `n`. -/
theorem C86_scaled {d : Nat} (hd : 0 < d) {n : Int} (hn : n.natAbs < 2 ^ 53) :
    ∃ b, npScale d (.int n) = .f64 b ∧ b < 2 ^ 64 ∧ sign64 b = (if n < 0 then 1 else 0) ∧ Nearest64 n.natAbs d (b % 2 ^ 63) := by
  obtain ⟨h1, h2, h3, h4⟩ := ofInt64 hn
  refine ⟨_, rfl, ?_⟩
  unfold Fmt.divNat
  rw [h2, if_neg (by simp), if_neg h3, h1]
  have hr : Fmt.b64.round (floatMag Fmt.b64.F (Fmt.b64.abs (Fmt.b64.ofInt n))) (d * 2 ^ Fmt.b64.E) = Fmt.b64.round n.natAbs d := by
    refine round_eq Fmt.b64 b64_F (Nat.mul_pos hd (Nat.pow_pos (by omega))) hd ?_
    show floatMag 52 (Fmt.b64.abs (Fmt.b64.ofInt n)) * d = n.natAbs * (d * 2 ^ 1074)
    rw [h4, Nat.mul_comm d, Nat.mul_assoc]
  rw [hr]
  have hlt := round64_lt n.natAbs d
  have hN := C86_round64 (p := n.natAbs) hd
  generalize Fmt.b64.round n.natAbs d = x at hlt hN
  unfold Fmt.withSign sign64
  rw [show Fmt.b64.signBit = 2 ^ 63 from rfl]
  by_cases h0 : n < 0
  · rw [decide_eq_true h0, if_pos rfl, if_pos h0]
    refine ⟨by omega, by omega, ?_⟩
    rw [Nat.add_mod_left, Nat.mod_eq_of_lt (by omega)]
    exact hN
  · rw [decide_eq_false h0, if_neg (by simp), if_neg h0]
    refine ⟨by omega, by omega, ?_⟩
    rw [Nat.mod_eq_of_lt (by omega)]
    exact hN

/-- a step is small compared to the float -/
theorem step_small (F x : Nat) : 2 ^ F * 2 ^ (x / 2 ^ F - 1) ≤ floatMag F x ∨ x / 2 ^ F - 1 = 0 := by
  unfold floatMag
  by_cases h : x / 2 ^ F = 0
  · right; omega
  · left
    rw [if_neg h]
    exact Nat.mul_le_mul_right _ (by omega)

/-- **C86**, recovery: two different integers of up to 51 bits never give the same double. -/
theorem C86_recover {d m n x : Nat} (hd : 0 < d) (hd2 : d < 2 ^ 1000) (hm : m < 2 ^ 51) (hn : n < 2 ^ 51)
    (h1 : Nearest64 m d x) (h2 : Nearest64 n d x) : m = n := by
  have key : ∀ m n, m < n → n < 2 ^ 51 → Nearest64 m d x → Nearest64 n d x → False := by
    intro m n hlt hn h1 h2
    have h1 := nearest64_iff.mp h1
    have h2 := nearest64_iff.mp h2
    have hU : 2 ^ 1000 < (2 : Nat) ^ 1074 := Nat.pow_lt_pow_right (by omega) (by omega)
    have hA : m * 2 ^ 1074 + 2 ^ 1074 ≤ n * 2 ^ 1074 := by
      have := Nat.mul_le_mul_right (2 ^ 1074) (show m + 1 ≤ n from hlt)
      rw [Nat.add_mul, Nat.one_mul] at this
      exact this
    have hn2 : n * 2 ^ 1074 < 2 ^ 51 * 2 ^ 1074 := Nat.mul_lt_mul_of_pos_right hn (Nat.pow_pos (by omega))
    -- the float is at most twice as large
    have hx2 : floatMag 52 x * d ≤ 2 * (m * 2 ^ 1074) := by
      by_cases h0 : x = 0
      · rw [h0, show floatMag 52 0 = 0 from rfl]; omega
      · have := h1.2 0 (Nat.zero_le _) (fun h => h0 h.symm)
        rw [show floatMag 52 0 = 0 from rfl, Nat.zero_mul] at this
        unfold gap at this
        omega
    have htop : x < Fmt.b64.inf := by
      rcases Nat.lt_or_ge x Fmt.b64.inf with h | h
      · exact h
      · exfalso
        have hi : 2 ^ 54 * 2 ^ 1074 ≤ floatMag 52 Fmt.b64.inf := by decide +kernel
        have := floatMag_mono 52 h
        have := Nat.mul_le_mul_left (floatMag 52 x) hd
        omega
    -- between the middles
    have up : 2 * (n * 2 ^ 1074) ≤ (floatMag 52 x + floatMag 52 (x + 1)) * d := by
      have := h2.2 (x + 1) htop (by omega)
      have hs := Nat.mul_lt_mul_of_pos_right (floatMag_lt_succ 52 x) hd
      rw [Nat.add_mul]
      unfold gap at this
      omega
    have low : (floatMag 52 x) * d ≤ 2 * (m * 2 ^ 1074) - floatMag 52 (x - 1) * d ∨ x = 0 := by
      by_cases h0 : x = 0
      · exact .inr h0
      · left
        have := h1.2 (x - 1) (by omega) (by omega)
        have hs := floatMag_lt_succ 52 (x - 1)
        rw [Nat.sub_add_cancel (by omega)] at hs
        have hs := Nat.mul_lt_mul_of_pos_right hs hd
        unfold gap at this
        omega
    -- the step up
    have s1 := floatMag_succ 52 x
    generalize hS : 2 ^ (x / 2 ^ 52 - 1) = S at s1
    have hSd : S * d < 2 ^ 1074 := by
      rcases step_small 52 x with h | h
      · rw [hS] at h
        have := Nat.mul_le_mul_right d h
        rw [Nat.mul_assoc] at this
        have e : (2 : Nat) ^ 51 * 2 ^ 1074 * 2 = 2 ^ 52 * 2 ^ 1074 := by decide +kernel
        have : 2 ^ 52 * (S * d) < 2 ^ 52 * 2 ^ 1074 := by omega
        exact Nat.lt_of_mul_lt_mul_left this
      · rw [h] at hS
        rw [← hS, Nat.pow_zero, Nat.one_mul]
        omega
    rw [s1, Nat.add_mul, Nat.add_mul] at up
    rcases low with low | h0
    · have hz : floatMag 52 x * d ≤ floatMag 52 (x - 1) * d + S * d := by
        by_cases h0 : x = 0
        · rw [h0]; exact Nat.le_add_right _ _
        · have s2 := floatMag_succ 52 (x - 1)
          rw [Nat.sub_add_cancel (by omega)] at s2
          have hle : 2 ^ ((x - 1) / 2 ^ 52 - 1) ≤ S := by
            rw [← hS]
            refine Nat.pow_le_pow_right (by omega) ?_
            have := Nat.div_le_div_right (c := 2 ^ 52) (Nat.sub_le x 1)
            omega
          have := Nat.mul_le_mul_right d hle
          rw [s2, Nat.add_mul]
          omega
      omega
    · rw [h0, show floatMag 52 0 = 0 from rfl] at up
      omega
  rcases Nat.lt_trichotomy m n with h | h | h
  · exact absurd (key m n h hn h1 h2) (by simp)
  · exact h
  · exact absurd (key n m h hm h2 h1) (by simp)

/-- **C86**, positions: different longitudes (or latitudes, altitudes) of 32 bits stay different. -/
theorem C86_injective {d : Nat} (hd : 0 < d) (hd2 : d < 2 ^ 1000) {m n : Int} (hm : m.natAbs < 2 ^ 51) (hn : n.natAbs < 2 ^ 51)
    (h : npScale d (.int m) = npScale d (.int n)) : m = n := by
  obtain ⟨b, e1, _, s1, n1⟩ := C86_scaled hd (n := m) (by omega)
  obtain ⟨c, e2, _, s2, n2⟩ := C86_scaled hd (n := n) (by omega)
  rw [e1, e2] at h
  cases h
  have := C86_recover hd hd2 hm hn n1 n2
  rw [s1] at s2
  by_cases h1 : m < 0 <;> by_cases h2 : n < 0
  · omega
  · rw [if_pos h1, if_neg h2] at s2; omega
  · rw [if_neg h1, if_pos h2] at s2; omega
  · omega

/-! ### sums -/

/-- **C86**, sums: the sum of two finite doubles is the double nearest to the exact sum, with its sign. -/
theorem C86_sum64 {a b : Nat} (ha : a < 2 ^ 64) (hb : b < 2 ^ 64) (fa : finite64 a) (fb : finite64 b)
    (hs : val64 a + val64 b ≠ 0) :
    Fmt.b64.add a b < 2 ^ 64 ∧ sign64 (Fmt.b64.add a b) = (if val64 a + val64 b < 0 then 1 else 0) ∧
    Nearest64 (val64 a + val64 b).natAbs (2 ^ 1074) (Fmt.b64.add a b % 2 ^ 63) := by
  unfold Fmt.add
  rw [(notNaN64 fa).1, (notNaN64 fb).1, if_neg (by simp), if_neg (by simp), if_neg (notNaN64 fa).2, if_neg (notNaN64 fb).2]
  dsimp only
  rw [value64 ha, value64 hb, if_neg hs]
  generalize val64 a + val64 b = s
  have hlt := round64_lt s.natAbs (2 ^ Fmt.b64.E)
  have hN := C86_round64 (p := s.natAbs) (q := 2 ^ Fmt.b64.E) (Nat.pow_pos (by omega))
  generalize Fmt.b64.round s.natAbs (2 ^ Fmt.b64.E) = x at hlt hN
  unfold Fmt.withSign sign64
  rw [show Fmt.b64.signBit = 2 ^ 63 from rfl]
  by_cases h0 : s < 0
  · rw [decide_eq_true h0, if_pos rfl, if_pos h0]
    refine ⟨by omega, by omega, ?_⟩
    rw [Nat.add_mod_left, Nat.mod_eq_of_lt (by omega)]
    exact hN
  · rw [decide_eq_false h0, if_neg (by simp), if_neg h0]
    refine ⟨by omega, by omega, ?_⟩
    rw [Nat.mod_eq_of_lt (by omega)]
    exact hN

/-- **C86**, sums of two finite `float32` -/
theorem C86_sum32 {a b : Nat} (ha : a < 2 ^ 32) (hb : b < 2 ^ 32) (fa : finite32 a) (fb : finite32 b)
    (hs : val32 a + val32 b ≠ 0) :
    Fmt.b32.add a b < 2 ^ 32 ∧ sign32 (Fmt.b32.add a b) = (if val32 a + val32 b < 0 then 1 else 0) ∧
    Nearest32 (val32 a + val32 b).natAbs (2 ^ 149) (Fmt.b32.add a b % 2 ^ 31) := by
  unfold Fmt.add
  rw [(notNaN32 fa).1, (notNaN32 fb).1, if_neg (by simp), if_neg (by simp), if_neg (notNaN32 fa).2, if_neg (notNaN32 fb).2]
  dsimp only
  rw [value32 ha, value32 hb, if_neg hs]
  generalize val32 a + val32 b = s
  have hlt := round32_lt s.natAbs (2 ^ Fmt.b32.E)
  have hN := C86_round32 (p := s.natAbs) (q := 2 ^ Fmt.b32.E) (Nat.pow_pos (by omega))
  generalize Fmt.b32.round s.natAbs (2 ^ Fmt.b32.E) = x at hlt hN
  unfold Fmt.withSign sign32
  rw [show Fmt.b32.signBit = 2 ^ 31 from rfl]
  by_cases h0 : s < 0
  · rw [decide_eq_true h0, if_pos rfl, if_pos h0]
    refine ⟨by omega, by omega, ?_⟩
    rw [Nat.add_mod_left, Nat.mod_eq_of_lt (by omega)]
    exact hN
  · rw [decide_eq_false h0, if_neg (by simp), if_neg h0]
    refine ⟨by omega, by omega, ?_⟩
    rw [Nat.mod_eq_of_lt (by omega)]
    exact hN

theorem floatMag_ne_zero {F x : Nat} (h : x ≠ 0) : floatMag F x ≠ 0 := by
  obtain ⟨z, rfl⟩ := Nat.exists_eq_succ_of_ne_zero h
  have := floatMag_lt_succ F z
  show floatMag F (z + 1) ≠ 0
  omega

/-- adding zero changes only negative zero -/
theorem add_zero_float (f : Fmt) (hF : 0 < f.F) {b : Nat} (hb : b < 2 * f.signBit) (h : f.abs b < f.inf) :
    f.add b 0 = if b = f.signBit then 0 else b := by
  have hS : 0 < f.signBit := Nat.pow_pos (by omega)
  have a0 : f.abs 0 = 0 := Nat.zero_mod _
  have i0 : f.isNeg 0 = false := decide_eq_false (by omega)
  have m0 : floatMag f.F 0 = 0 := by
    have := floatMag_split (F := f.F) (k := 0) (m := 0) (Nat.zero_le _) (.inl rfl)
    simpa using this
  have v0 : f.value 0 = 0 := by
    unfold Fmt.value
    rw [i0, a0, m0]
    rfl
  have n0 : f.isNaN 0 = false := by unfold Fmt.isNaN; rw [a0]; exact decide_eq_false (by omega)
  have nb : f.isNaN b = false := by unfold Fmt.isNaN; exact decide_eq_false (by omega)
  have hr := round_exact f hF (x := f.abs b) (by omega)
  unfold Fmt.add
  rw [nb, n0, if_neg (by simp), if_neg (by simp), if_neg (by omega), if_neg (by omega)]
  dsimp only
  rw [v0, Int.add_zero]
  have hab : b = if f.isNeg b then f.signBit + f.abs b else f.abs b := by
    unfold Fmt.isNeg Fmt.abs
    by_cases hs : f.signBit ≤ b
    · rw [decide_eq_true hs, if_pos rfl, Nat.mod_eq_sub_mod hs, Nat.mod_eq_of_lt (by omega)]
      omega
    · rw [decide_eq_false hs, if_neg (by simp), Nat.mod_eq_of_lt (by omega)]
  have habs : f.abs b < f.signBit := Nat.mod_lt _ hS
  unfold Fmt.value Fmt.withSign
  generalize f.abs b = x at *
  generalize f.isNeg b = g at *
  subst hab
  by_cases h0 : x = 0
  · subst h0
    rw [m0]
    cases g with
    | true => simp [i0]
    | false => simp [i0]
  · have hm := floatMag_ne_zero (F := f.F) h0
    cases g with
    | true =>
      simp only [if_true]
      rw [if_neg (by omega), decide_eq_true (by omega), if_pos rfl, Int.natAbs_neg, Int.natAbs_natCast, hr, if_neg (by omega)]
    | false =>
      simp only [Bool.false_eq_true, if_false]
      rw [if_neg (by omega), decide_eq_false (by omega), if_neg (by simp), Int.natAbs_natCast, hr, if_neg (by omega)]

theorem ofInt_zero : Fmt.b64.ofInt 0 = 0 ∧ Fmt.b32.ofInt 0 = 0 := by decide +kernel

/-- **C86**, altitude: without offset the altitude is the logged number (negative zero becomes zero), and not a number
stays not a number. -/
theorem C86_altitude {v : NpVal} (h : InRange v) : SameOrNaN (npAdd v (.int 0)) v := by
  cases v with
  | int n => exact .inl (Int.add_zero n)
  | f64 b =>
    have hb : b < 2 ^ 64 := h
    show SameOrNaN (.f64 (Fmt.b64.add b (Fmt.b64.ofInt 0))) (.f64 b)
    rw [ofInt_zero.1]
    by_cases hn : Fmt.b64.isNaN b = true
    · right
      have hN := isNaN64_iff.mp hn
      refine ⟨?_, hN⟩
      unfold Fmt.add
      rw [if_pos hn]
      unfold Fmt.quiet
      rw [show Fmt.b64.F - 1 = 51 from rfl]
      have hN' : b / 2 ^ 52 % 2 ^ 11 = 2047 ∧ b % 2 ^ 52 ≠ 0 := hN
      by_cases hq : b / 2 ^ 51 % 2 = 1
      · rw [if_pos hq]
        exact hN
      · rw [if_neg hq]
        show (b + 2 ^ 51) / 2 ^ 52 % 2 ^ 11 = 2047 ∧ (b + 2 ^ 51) % 2 ^ 52 ≠ 0
        refine ⟨by omega, by omega⟩
    · have hN : ¬ IsNaN (.f64 b) := fun h => hn (isNaN64_iff.mpr h)
      left
      by_cases hf : finite64 b
      · have := add_zero_float Fmt.b64 b64_F (b := b) (by rw [show Fmt.b64.signBit = 2 ^ 63 from rfl]; omega)
          (by rw [b64_inf]; exact finite64_lt hf)
        rw [this, show Fmt.b64.signBit = 2 ^ 63 from rfl]
        refine .inl ?_
        split
        · rename_i e
          rw [e]
          unfold finite64
          decide +kernel
        · exact ⟨hf, hf, rfl⟩
      · right
        have he : exp64 b = 2047 := by unfold finite64 at hf; omega
        have hfr : frac64 b = 0 := by
          unfold IsNaN at hN
          rcases Nat.eq_zero_or_pos (frac64 b) with h | h
          · exact h
          · exact absurd ⟨he, by omega⟩ hN
        have : Fmt.b64.add b 0 = b := by
          unfold Fmt.add
          have hi : Fmt.b64.abs b = Fmt.b64.inf := by
            rw [b64_inf, abs64]
            unfold exp64 at he
            unfold frac64 at hfr
            omega
          rw [if_neg hn, if_neg (by decide +kernel), if_pos hi, if_neg]
          rintro ⟨h, _⟩
          revert h
          decide +kernel
        rw [this]
        exact ⟨he, hfr, he, hfr, rfl⟩
  | f32 b =>
    have hb : b < 2 ^ 32 := h
    show SameOrNaN (.f32 (Fmt.b32.add b (Fmt.b32.ofInt 0))) (.f32 b)
    rw [ofInt_zero.2]
    by_cases hn : Fmt.b32.isNaN b = true
    · right
      have hN := isNaN32_iff.mp hn
      refine ⟨?_, hN⟩
      unfold Fmt.add
      rw [if_pos hn]
      unfold Fmt.quiet
      rw [show Fmt.b32.F - 1 = 22 from rfl]
      have hN' : b / 2 ^ 23 % 2 ^ 8 = 255 ∧ b % 2 ^ 23 ≠ 0 := hN
      by_cases hq : b / 2 ^ 22 % 2 = 1
      · rw [if_pos hq]
        exact hN
      · rw [if_neg hq]
        show (b + 2 ^ 22) / 2 ^ 23 % 2 ^ 8 = 255 ∧ (b + 2 ^ 22) % 2 ^ 23 ≠ 0
        refine ⟨by omega, by omega⟩
    · have hN : ¬ IsNaN (.f32 b) := fun h => hn (isNaN32_iff.mpr h)
      left
      by_cases hf : finite32 b
      · have := add_zero_float Fmt.b32 b32_F (b := b) (by rw [show Fmt.b32.signBit = 2 ^ 31 from rfl]; omega)
          (by rw [b32_inf]; exact finite32_lt hf)
        rw [this, show Fmt.b32.signBit = 2 ^ 31 from rfl]
        refine .inl ?_
        split
        · rename_i e
          rw [e]
          unfold finite32
          decide +kernel
        · exact ⟨hf, hf, rfl⟩
      · right
        have he : exp32 b = 255 := by unfold finite32 at hf; omega
        have hfr : frac32 b = 0 := by
          unfold IsNaN at hN
          rcases Nat.eq_zero_or_pos (frac32 b) with h | h
          · exact h
          · exact absurd ⟨he, by omega⟩ hN
        have : Fmt.b32.add b 0 = b := by
          unfold Fmt.add
          have hi : Fmt.b32.abs b = Fmt.b32.inf := by
            rw [b32_inf, abs32]
            unfold exp32 at he
            unfold frac32 at hfr
            omega
          rw [if_neg hn, if_neg (by decide +kernel), if_pos hi, if_neg]
          rintro ⟨h, _⟩
          revert h
          decide +kernel
        rw [this]
        exact ⟨he, hfr, he, hfr, rfl⟩

/-- **C86**, quotients of floats: the sign is kept and the magnitude is the nearest float. -/
theorem C86_quotient64 {b d : Nat} (hb : b < 2 ^ 64) (fb : finite64 b) (hd : 0 < d) :
    sign64 (Fmt.b64.divNat b d) = sign64 b ∧ Nearest64 (mag64 b) (d * 2 ^ 1074) (Fmt.b64.divNat b d % 2 ^ 63) := by
  have hm : floatMag 52 (b % 2 ^ 63) = mag64 b := by
    rw [← mag64_floatMag (Nat.mod_lt _ (by omega))]
    unfold mag64 exp64 frac64
    rw [show b % 2 ^ 63 / 2 ^ 52 % 2 ^ 11 = b / 2 ^ 52 % 2 ^ 11 by omega, show b % 2 ^ 63 % 2 ^ 52 = b % 2 ^ 52 by omega]
  unfold Fmt.divNat
  rw [(notNaN64 fb).1, if_neg (by simp), if_neg (notNaN64 fb).2, abs64, show Fmt.b64.F = 52 from rfl, hm]
  have hlt := round64_lt (mag64 b) (d * 2 ^ Fmt.b64.E)
  have hN := C86_round64 (p := mag64 b) (q := d * 2 ^ Fmt.b64.E) (Nat.mul_pos hd (Nat.pow_pos (by omega)))
  generalize Fmt.b64.round (mag64 b) (d * 2 ^ Fmt.b64.E) = x at hlt hN
  unfold Fmt.withSign Fmt.isNeg sign64
  rw [show Fmt.b64.signBit = 2 ^ 63 from rfl]
  by_cases h : 2 ^ 63 ≤ b
  · rw [decide_eq_true h, if_pos rfl, Nat.add_mod_left, Nat.mod_eq_of_lt (by omega)]
    exact ⟨by omega, hN⟩
  · rw [decide_eq_false h, if_neg (by simp), Nat.mod_eq_of_lt (by omega)]
    exact ⟨by omega, hN⟩

theorem C86_quotient32 {b d : Nat} (hb : b < 2 ^ 32) (fb : finite32 b) (hd : 0 < d) :
    sign32 (Fmt.b32.divNat b d) = sign32 b ∧ Nearest32 (mag32 b) (d * 2 ^ 149) (Fmt.b32.divNat b d % 2 ^ 31) := by
  have hm : floatMag 23 (b % 2 ^ 31) = mag32 b := by
    rw [← mag32_floatMag (Nat.mod_lt _ (by omega))]
    unfold mag32 exp32 frac32
    rw [show b % 2 ^ 31 / 2 ^ 23 % 2 ^ 8 = b / 2 ^ 23 % 2 ^ 8 by omega, show b % 2 ^ 31 % 2 ^ 23 = b % 2 ^ 23 by omega]
  unfold Fmt.divNat
  rw [(notNaN32 fb).1, if_neg (by simp), if_neg (notNaN32 fb).2, abs32, show Fmt.b32.F = 23 from rfl, hm]
  have hlt := round32_lt (mag32 b) (d * 2 ^ Fmt.b32.E)
  have hN := C86_round32 (p := mag32 b) (q := d * 2 ^ Fmt.b32.E) (Nat.mul_pos hd (Nat.pow_pos (by omega)))
  generalize Fmt.b32.round (mag32 b) (d * 2 ^ Fmt.b32.E) = x at hlt hN
  unfold Fmt.withSign Fmt.isNeg sign32
  rw [show Fmt.b32.signBit = 2 ^ 31 from rfl]
  by_cases h : 2 ^ 31 ≤ b
  · rw [decide_eq_true h, if_pos rfl, Nat.add_mod_left, Nat.mod_eq_of_lt (by omega)]
    exact ⟨by omega, hN⟩
  · rw [decide_eq_false h, if_neg (by simp), Nat.mod_eq_of_lt (by omega)]
    exact ⟨by omega, hN⟩

/-- **C86**, a Python float next to a `float32` is rounded to one. -/
theorem C86_narrow {b : Nat} (hb : b < 2 ^ 64) (fb : finite64 b) :
    sign32 (narrow32 b) = sign64 b ∧ Nearest32 (mag64 b) (2 ^ 1074) (narrow32 b % 2 ^ 31) := by
  have hm : floatMag 52 (b % 2 ^ 63) = mag64 b := by
    rw [← mag64_floatMag (Nat.mod_lt _ (by omega))]
    unfold mag64 exp64 frac64
    rw [show b % 2 ^ 63 / 2 ^ 52 % 2 ^ 11 = b / 2 ^ 52 % 2 ^ 11 by omega, show b % 2 ^ 63 % 2 ^ 52 = b % 2 ^ 52 by omega]
  unfold narrow32
  rw [(notNaN64 fb).1, if_neg (by simp), if_neg (notNaN64 fb).2, abs64, hm]
  have hlt := round32_lt (mag64 b) (2 ^ 1074)
  have hN := C86_round32 (p := mag64 b) (q := 2 ^ 1074) (Nat.pow_pos (by omega))
  generalize Fmt.b32.round (mag64 b) (2 ^ 1074) = x at hlt hN
  unfold Fmt.withSign Fmt.isNeg sign32 sign64
  rw [show Fmt.b32.signBit = 2 ^ 31 from rfl, show Fmt.b64.signBit = 2 ^ 63 from rfl]
  by_cases h : 2 ^ 63 ≤ b
  · rw [decide_eq_true h, if_pos rfl, Nat.add_mod_left, Nat.mod_eq_of_lt (by omega)]
    exact ⟨by omega, hN⟩
  · rw [decide_eq_false h, if_neg (by simp), Nat.mod_eq_of_lt (by omega)]
    exact ⟨by omega, hN⟩

/-! ### distances -/

theorem ofNat_far {d : Nat} (hd : d < 2 ^ 64) :
    Fmt.b64.isNeg (Fmt.b64.ofInt d) = false ∧ Fmt.b64.isNaN (Fmt.b64.ofInt d) = false ∧
    Fmt.b64.abs (Fmt.b64.ofInt d) ≠ Fmt.b64.inf ∧ Fmt.b64.abs (Fmt.b64.ofInt d) = Fmt.b64.round d 1 := by
  have hlt : Fmt.b64.round d 1 ≤ Fmt.b64.round (2 ^ 64) 1 := round_mono Fmt.b64 b64_F (by omega) (by omega) (by omega)
  have hc : Fmt.b64.round (2 ^ 64) 1 = 1087 * 2 ^ 52 := by decide +kernel
  have e : Fmt.b64.ofInt d = Fmt.b64.round d 1 := by
    unfold Fmt.ofInt Fmt.withSign
    rw [decide_eq_false (by omega), if_neg (by simp), Int.natAbs_natCast]
  obtain ⟨h1, h2⟩ := withSign64 false (x := Fmt.b64.round d 1) (by omega)
  have h3 : Fmt.b64.withSign false (Fmt.b64.round d 1) = Fmt.b64.round d 1 := if_neg (by simp)
  rw [h3] at h1 h2
  rw [e]
  refine ⟨h1, ?_, ?_, h2⟩
  · unfold Fmt.isNaN
    rw [h2, b64_inf]
    exact decide_eq_false (by omega)
  · rw [h2, b64_inf]
    omega

theorem seconds64 {d : Nat} (hd : d < 2 ^ 64) : Fmt.b64.divNat (Fmt.b64.ofInt d) 1000000
    = Fmt.b64.round (floatMag 52 (Fmt.b64.round d 1)) (1000000 * 2 ^ 1074) := by
  obtain ⟨h1, h2, h3, h4⟩ := ofNat_far hd
  unfold Fmt.divNat
  rw [h2, if_neg (by simp), if_neg h3, h1, h4, show Fmt.b64.F = 52 from rfl, show Fmt.b64.E = 1074 from rfl]
  unfold Fmt.withSign
  rw [if_neg (by simp)]

/-- **C86**, distances: with the default interval of 0.1 s a point is used exactly when it is more than 100000
microseconds after the last one that was used. -/
theorem C86_far {d : Nat} (hd : d < 2 ^ 64) : kmlFar tenth d = true ↔ 100000 < d := by
  have hU : 0 < (2 : Nat) ^ 1074 := Nat.pow_pos (by omega)
  have hpos : 0 < 1000000 * 2 ^ 1074 := Nat.mul_pos (by omega) hU
  unfold kmlFar
  rw [seconds64 hd]
  have hlt := round64_lt (floatMag 52 (Fmt.b64.round d 1)) (1000000 * 2 ^ 1074)
  have hval : ∀ x, x < 2 ^ 63 → Fmt.b64.value x = floatMag 52 x := by
    intro x hx
    unfold Fmt.value Fmt.isNeg Fmt.abs
    rw [show Fmt.b64.signBit = 2 ^ 63 from rfl, decide_eq_false (by omega), if_neg (by simp), Nat.mod_eq_of_lt hx]
    rfl
  have ht : tenth < 2 ^ 63 ∧ Fmt.b64.isNaN tenth = false := by decide +kernel
  have hx : Fmt.b64.isNaN (Fmt.b64.round (floatMag 52 (Fmt.b64.round d 1)) (1000000 * 2 ^ 1074)) = false := by
    unfold Fmt.isNaN
    rw [abs64, b64_inf, Nat.mod_eq_of_lt (by omega)]
    exact decide_eq_false (by omega)
  unfold Fmt.gt
  rw [ht.2, hx, hval _ ht.1, hval _ (by omega)]
  simp only [Bool.not_false, Bool.true_and, decide_eq_true_eq]
  rw [Int.ofNat_lt]
  constructor
  · intro h
    rcases Nat.lt_or_ge 100000 d with h1 | h1
    · exact h1
    · exfalso
      have m1 : Fmt.b64.round d 1 ≤ Fmt.b64.round 100000 1 := round_mono Fmt.b64 b64_F (by omega) (by omega) (by omega)
      have m2 := Nat.mul_le_mul_right (1000000 * 2 ^ 1074) (floatMag_mono 52 m1)
      have m3 := round_mono Fmt.b64 b64_F hpos hpos m2
      have m4 : Fmt.b64.round (floatMag 52 (Fmt.b64.round 100000 1)) (1000000 * 2 ^ 1074) = tenth := by decide +kernel
      rw [m4] at m3
      have := floatMag_mono 52 m3
      omega
  · intro h1
    have m1 : Fmt.b64.round 100001 1 ≤ Fmt.b64.round d 1 := round_mono Fmt.b64 b64_F (by omega) (by omega) (by omega)
    have m2 := Nat.mul_le_mul_right (1000000 * 2 ^ 1074) (floatMag_mono 52 m1)
    have m3 := round_mono Fmt.b64 b64_F hpos hpos m2
    have m4 : tenth < Fmt.b64.round (floatMag 52 (Fmt.b64.round 100001 1)) (1000000 * 2 ^ 1074) := by decide +kernel
    exact Nat.lt_of_lt_of_le (floatMag_lt_succ 52 tenth) (floatMag_mono 52 (by omega))

/-- **C86**, other intervals: for distances below 2^53 microseconds (285 years) a point is used only if it is really farther
away than the interval, and certainly if it is at least the next float away. -/
theorem C86_interval {d m : Nat} (hd : d < 2 ^ 53) (hm : m < 2047 * 2 ^ 52) :
    (kmlFar m d = true → mag64 m * 1000000 < d * 2 ^ 1074) ∧
    (mag64 (m + 1) * 1000000 ≤ d * 2 ^ 1074 → kmlFar m d = true) := by
  have hU : 0 < (2 : Nat) ^ 1074 := Nat.pow_pos (by omega)
  have hpos : 0 < 1000000 * 2 ^ 1074 := Nat.mul_pos (by omega) hU
  have hmi : floatMag 52 (Fmt.b64.round d 1) = d * 2 ^ 1074 := round_int Fmt.b64 b64_F (by decide +kernel) (n := d) hd
  have hlt := round64_lt (floatMag 52 (Fmt.b64.round d 1)) (1000000 * 2 ^ 1074)
  have hval : ∀ x, x < 2 ^ 63 → Fmt.b64.value x = floatMag 52 x ∧ (x ≤ 2047 * 2 ^ 52 → Fmt.b64.isNaN x = false) := by
    intro x hx
    refine ⟨?_, fun h => ?_⟩
    · unfold Fmt.value Fmt.isNeg Fmt.abs
      rw [show Fmt.b64.signBit = 2 ^ 63 from rfl, decide_eq_false (by omega), if_neg (by simp), Nat.mod_eq_of_lt hx]
      rfl
    · unfold Fmt.isNaN
      rw [abs64, b64_inf, Nat.mod_eq_of_lt hx]
      exact decide_eq_false (by omega)
  have hiff : kmlFar m d = true ↔ m < Fmt.b64.round (floatMag 52 (Fmt.b64.round d 1)) (1000000 * 2 ^ 1074) := by
    unfold kmlFar
    rw [seconds64 (by omega)]
    generalize Fmt.b64.round (floatMag 52 (Fmt.b64.round d 1)) (1000000 * 2 ^ 1074) = x at hlt
    unfold Fmt.gt
    rw [(hval x (by omega)).1, (hval m (by omega)).1, (hval x (by omega)).2 hlt, (hval m (by omega)).2 (by omega)]
    simp only [Bool.not_false, Bool.true_and, decide_eq_true_eq]
    rw [Int.ofNat_lt]
    constructor
    · intro h
      rcases Nat.lt_or_ge m x with h1 | h1
      · exact h1
      · have := floatMag_mono 52 h1
        omega
    · intro h
      exact Nat.lt_of_lt_of_le (floatMag_lt_succ 52 m) (floatMag_mono 52 h)
  have hx : ∀ y, y ≤ Fmt.b64.inf → Fmt.b64.round (floatMag 52 y) (2 ^ 1074) = y := fun y hy => round_exact Fmt.b64 b64_F hy
  rw [hiff, hmi, mag64_floatMag (by omega), mag64_floatMag (by omega)]
  constructor
  · intro h
    rcases Nat.lt_or_ge (floatMag 52 m * 1000000) (d * 2 ^ 1074) with h1 | h1
    · exact h1
    · exfalso
      have := round_mono Fmt.b64 b64_F (p := d * 2 ^ 1074) (q := 1000000 * 2 ^ 1074) (p' := floatMag 52 m) (q' := 2 ^ 1074) hpos hU
        (by rw [← Nat.mul_assoc]; exact Nat.mul_le_mul_right _ h1)
      rw [hx m (by rw [b64_inf]; omega)] at this
      omega
  · intro h
    have := round_mono Fmt.b64 b64_F (p' := d * 2 ^ 1074) (q' := 1000000 * 2 ^ 1074) (p := floatMag 52 (m + 1)) (q := 2 ^ 1074) hU hpos
      (by rw [← Nat.mul_assoc]; exact Nat.mul_le_mul_right _ h)
    rw [hx (m + 1) (by rw [b64_inf]; omega)] at this
    exact this

/-- **C86**, track: the points that are used are more than 0.1 s apart, and the first is more than 0.1 s after the start of
the clock. -/
theorem C86_apart {P : Type} {rows kept : List (Nat × P)} (h : Thinned (kmlFar tenth) 0 rows kept) {i : Nat} (hi : i < kept.length) :
    100000 < (kept[i].1 + 2 ^ 64 - (0 :: kept.map (·.1))[i]'(by simp; omega)) % 2 ^ 64 := by
  have := (C36_thinning h).2 i hi
  exact (C86_far (Nat.mod_lt _ (by omega))).mp this

/-- **C86**, positions in integers: the point is the logged position in degrees and metres, every coordinate rounded to
the nearest double. -/
theorem C86_point {x y z : Int} (hx : x.natAbs < 2 ^ 53) (hy : y.natAbs < 2 ^ 53) (hz : z.natAbs < 2 ^ 53) :
    ∃ a b c c', kmlCoord (.int 0) true (.int x) (.int y) (.int z) = (.f64 a, .f64 b, c') ∧ SameNumber c' (.f64 c) ∧
      (sign64 a = (if x < 0 then 1 else 0) ∧ Nearest64 x.natAbs 10000000 (a % 2 ^ 63)) ∧
      (sign64 b = (if y < 0 then 1 else 0) ∧ Nearest64 y.natAbs 10000000 (b % 2 ^ 63)) ∧
      (sign64 c = (if z < 0 then 1 else 0) ∧ Nearest64 z.natAbs 1000 (c % 2 ^ 63)) := by
  obtain ⟨a, e1, _, s1, n1⟩ := C86_scaled (d := 10000000) (by omega) hx
  obtain ⟨b, e2, _, s2, n2⟩ := C86_scaled (d := 10000000) (by omega) hy
  obtain ⟨c, e3, l3, s3, n3⟩ := C86_scaled (d := 1000) (by omega) hz
  refine ⟨a, b, c, npAdd (.f64 c) (.int 0), ?_, ?_, ⟨s1, n1⟩, ⟨s2, n2⟩, ⟨s3, n3⟩⟩
  · unfold kmlCoord
    rw [if_pos rfl, e1, e2, e3]
  · rcases C86_altitude (v := .f64 c) l3 with h | ⟨_, h⟩
    · exact h
    · exfalso
      have h1 : c / 2 ^ 52 % 2 ^ 11 = 2047 ∧ c % 2 ^ 52 ≠ 0 := h
      have := n3.1
      omega

/-- **C86**, other positions are not changed. -/
theorem C86_unscaled {lon lat alt : NpVal} (h : InRange alt) :
    ∃ z, kmlCoord (.int 0) false lon lat alt = (lon, lat, z) ∧ SameOrNaN z alt :=
  ⟨_, rfl, C86_altitude h⟩

/-- 0.1 is the double nearest to one tenth -/
example : Nearest64 1 10 tenth := C86_round64 (by omega)

/-- longitude 8.54 degrees, altitude 488 m and an offset of 0.5 m -/
example : kmlCoord (.float (Fmt.b64.round 1 2)) true (.int 85400000) (.int (-473900000)) (.int 488000)
    = (.f64 (Fmt.b64.round 854 100), .f64 (Fmt.b64.signBit + Fmt.b64.round 4739 100), .f64 (Fmt.b64.round 977 2)) := by decide +kernel

/-- a `float32` altitude stays one -/
example : kmlCoord (.int 3) false (.f64 0) (.f64 0) (.f32 (Fmt.b32.round 1 3)) = (.f64 0, .f64 0, .f32 (Fmt.b32.round 10 3)) := by
  decide +kernel

/-- 0.1 and 0.2 are finite doubles with a sum that is not zero; 0.1 is a finite double to narrow or divide -/
example : finite64 tenth ∧ finite64 (Fmt.b64.round 1 5) ∧ val64 tenth + val64 (Fmt.b64.round 1 5) ≠ 0 ∧
    tenth < 2 ^ 64 ∧ Fmt.b64.round 1 5 < 2 ^ 64 := by
  unfold finite64
  decide +kernel

/-- 0.1 + 0.2 is the double after 0.3 -/
example : Fmt.b64.add tenth (Fmt.b64.round 1 5) = Fmt.b64.round 3 10 + 1 := by decide +kernel

end PyULog
