import Verif.Model.FloatFmt
import Verif.Spec.Floats
/-
Lemmas about the arithmetic of floats: the model rounds to the nearest float.
-/
namespace PyULog
open Spec

theorem rneDiv_bounds (p q : Nat) (hq : 0 < q) :
    2 * p ≤ 2 * q * rneDiv p q + q ∧ 2 * q * rneDiv p q ≤ 2 * p + q := by
  have h1 := Nat.div_add_mod p q
  have h2 := Nat.mod_lt p hq
  unfold rneDiv
  dsimp only
  generalize p / q = d at h1 ⊢
  generalize p % q = r at h1 h2 ⊢
  have h3 : q * (d + 1) = q * d + q := by rw [Nat.mul_add, Nat.mul_one]
  have h4 : ∀ x, 2 * q * x = 2 * (q * x) := fun x => Nat.mul_assoc 2 q x
  split
  · rw [h4]; omega
  · split
    · rw [h4, h3]; omega
    · have h5 : d % 2 = 0 ∨ d % 2 = 1 := by omega
      rcases h5 with h5 | h5
      · rw [h5, Nat.add_zero, h4]; omega
      · rw [h5, h4, h3]; omega

/-! ### neighbouring floats -/

/-- the step from one pattern to the next -/
theorem floatMag_succ (F x : Nat) : floatMag F (x + 1) = floatMag F x + 2 ^ (x / 2 ^ F - 1) := by
  have hp : 0 < 2 ^ F := Nat.pow_pos (by omega)
  have hdm := Nat.div_add_mod x (2 ^ F)
  have hlt := Nat.mod_lt x hp
  by_cases hw : x % 2 ^ F + 1 < 2 ^ F
  · have e1 : (x + 1) / 2 ^ F = x / 2 ^ F := by
      rw [Nat.div_eq_iff hp]
      rw [Nat.mul_comm] at hdm
      constructor
      · omega
      · omega
    have e2 : (x + 1) % 2 ^ F = x % 2 ^ F + 1 := by
      have := Nat.div_add_mod (x + 1) (2 ^ F)
      rw [e1] at this
      omega
    unfold floatMag
    rw [e1, e2]
    by_cases h0 : x / 2 ^ F = 0
    · rw [if_pos h0, if_pos h0, h0]
    · rw [if_neg h0, if_neg h0, ← Nat.add_assoc, Nat.add_mul, Nat.one_mul]
  · have e1 : (x + 1) / 2 ^ F = x / 2 ^ F + 1 := by
      rw [Nat.div_eq_iff hp]
      rw [Nat.mul_comm] at hdm
      rw [Nat.add_mul]
      constructor
      · omega
      · omega
    have e2 : (x + 1) % 2 ^ F = 0 := by
      have := Nat.div_add_mod (x + 1) (2 ^ F)
      rw [e1, Nat.mul_add] at this
      omega
    unfold floatMag
    rw [e1, e2, if_neg (Nat.succ_ne_zero _)]
    by_cases h0 : x / 2 ^ F = 0
    · rw [if_pos h0, h0]
      simp only [Nat.zero_add, Nat.sub_self, Nat.zero_sub, Nat.pow_zero, Nat.mul_one, Nat.add_zero]
      omega
    · rw [if_neg h0]
      obtain ⟨e, he⟩ := Nat.exists_eq_succ_of_ne_zero h0
      rw [he, Nat.succ_eq_add_one]
      simp only [Nat.add_sub_cancel, Nat.add_zero]
      have : 2 ^ F + x % 2 ^ F + 1 = 2 ^ F * 2 := by omega
      calc 2 ^ F * 2 ^ (e + 1) = 2 ^ F * 2 * 2 ^ e := by rw [Nat.pow_succ, Nat.mul_comm (2 ^ e), Nat.mul_assoc]
        _ = (2 ^ F + x % 2 ^ F + 1) * 2 ^ e := by rw [this]
        _ = _ := by rw [Nat.add_mul, Nat.one_mul]

theorem floatMag_lt_succ (F x : Nat) : floatMag F x < floatMag F (x + 1) := by
  rw [floatMag_succ]
  have : 0 < 2 ^ (x / 2 ^ F - 1) := Nat.pow_pos (by omega)
  omega

theorem floatMag_mono (F : Nat) {x y : Nat} (h : x ≤ y) : floatMag F x ≤ floatMag F y := by
  induction h with
  | refl => exact Nat.le_refl _
  | step h ih => exact Nat.le_trans ih (Nat.le_of_lt (floatMag_lt_succ _ _))

/-- a float is less than `2^(F+1)` steps large -/
theorem floatMag_steps (F x : Nat) :
    floatMag F x + 2 ^ (x / 2 ^ F - 1) ≤ 2 ^ (F + 1) * 2 ^ (x / 2 ^ F - 1) := by
  have hlt := Nat.mod_lt x (Nat.pow_pos (by omega) : 0 < 2 ^ F)
  unfold floatMag
  split
  · rename_i h
    rw [h]
    simp only [Nat.zero_sub, Nat.pow_zero, Nat.mul_one, Nat.pow_succ]
    omega
  · have : (2 ^ F + x % 2 ^ F) * 2 ^ (x / 2 ^ F - 1) + 2 ^ (x / 2 ^ F - 1)
        = (2 ^ F + x % 2 ^ F + 1) * 2 ^ (x / 2 ^ F - 1) := by rw [Nat.add_mul _ 1, Nat.one_mul]
    rw [this]
    refine Nat.mul_le_mul_right _ ?_
    rw [Nat.pow_succ]
    omega

theorem mag64_floatMag {x : Nat} (h : x < 2 ^ 63) : mag64 x = floatMag 52 x := by
  have : x / 2 ^ 52 % 2 ^ 11 = x / 2 ^ 52 := Nat.mod_eq_of_lt (by omega)
  unfold mag64 floatMag exp64 frac64
  rw [this]

theorem mag32_floatMag {x : Nat} (h : x < 2 ^ 31) : mag32 x = floatMag 23 x := by
  have : x / 2 ^ 23 % 2 ^ 8 = x / 2 ^ 23 := Nat.mod_eq_of_lt (by omega)
  unfold mag32 floatMag exp32 frac32
  rw [this]

/-! ### rounding -/

theorem rneDiv_tie {p q : Nat} (hq : 0 < q) (h : 2 * p = 2 * (q * rneDiv p q) + q ∨ 2 * (q * rneDiv p q) = 2 * p + q) :
    rneDiv p q % 2 = 0 := by
  have h1 := Nat.div_add_mod p q
  have h2 := Nat.mod_lt p hq
  revert h
  unfold rneDiv
  dsimp only
  generalize p / q = d at h1 ⊢
  generalize p % q = r at h1 h2 ⊢
  have h3 : q * (d + 1) = q * d + q := by rw [Nat.mul_add, Nat.mul_one]
  split
  · omega
  · split
    · rw [h3]; omega
    · omega

theorem rneDiv_le {p q m : Nat} (hq : 0 < q) (h : p ≤ q * m) : rneDiv p q ≤ m := by
  obtain ⟨_, b⟩ := rneDiv_bounds p q hq
  rcases Nat.lt_or_ge m (rneDiv p q) with hlt | hge
  · have := Nat.mul_le_mul_left q hlt
    rw [Nat.succ_eq_add_one, Nat.mul_add, Nat.mul_one] at this
    rw [Nat.mul_assoc] at b
    omega
  · exact hge

theorem le_rneDiv {p q m : Nat} (hq : 0 < q) (h : q * m ≤ p) : m ≤ rneDiv p q := by
  obtain ⟨b, _⟩ := rneDiv_bounds p q hq
  rcases Nat.lt_or_ge (rneDiv p q) m with hlt | hge
  · have := Nat.mul_le_mul_left q hlt
    rw [Nat.succ_eq_add_one, Nat.mul_add, Nat.mul_one] at this
    rw [Nat.mul_assoc] at b
    omega
  · exact hge

/-- between the middles to its neighbours a pattern is the nearest one -/
theorem nearest_of_mid {F E top p q x : Nat} (hq : 0 < q) (hx : x ≤ top)
    (h1 : 0 < x → (floatMag F (x - 1) + floatMag F x) * q ≤ 2 * (p * 2 ^ E) ∧
      ((floatMag F (x - 1) + floatMag F x) * q = 2 * (p * 2 ^ E) → x % 2 = 0))
    (h2 : x < top → 2 * (p * 2 ^ E) ≤ (floatMag F x + floatMag F (x + 1)) * q ∧
      (2 * (p * 2 ^ E) = (floatMag F x + floatMag F (x + 1)) * q → x % 2 = 0)) :
    Nearest (floatMag F) E top p q x := by
  refine ⟨hx, fun y hy hne => ?_⟩
  generalize p * 2 ^ E = A at h1 h2 ⊢
  rw [Nat.add_mul] at h1 h2
  unfold gap
  rcases Nat.lt_or_gt_of_ne hne with hlt | hgt
  · obtain ⟨a1, a2⟩ := h1 (by omega)
    have hm := Nat.mul_le_mul_right q (floatMag_mono F (by omega : y ≤ x - 1))
    have hs := floatMag_lt_succ F (x - 1)
    rw [Nat.sub_add_cancel (by omega)] at hs
    have hs := Nat.mul_lt_mul_of_pos_right hs hq
    by_cases he : floatMag F (x - 1) * q + floatMag F x * q = 2 * A
    · have := a2 he
      omega
    · omega
  · obtain ⟨a1, a2⟩ := h2 (by omega)
    have hm := Nat.mul_le_mul_right q (floatMag_mono F (by omega : x + 1 ≤ y))
    have hs := Nat.mul_lt_mul_of_pos_right (floatMag_lt_succ F x) hq
    by_cases he : 2 * A = floatMag F x * q + floatMag F (x + 1) * q
    · have := a2 he
      omega
    · omega

/-- magnitude of a pattern given by dropped bits and fraction -/
theorem floatMag_split {F k m : Nat} (hm : m ≤ 2 ^ (F + 1)) (h : k = 0 ∨ 2 ^ F ≤ m) :
    floatMag F (k * 2 ^ F + m) = m * 2 ^ k := by
  have hp : 0 < 2 ^ F := Nat.pow_pos (by omega)
  rw [Nat.pow_succ] at hm
  have key : ∀ j r, r < 2 ^ F → floatMag F ((j + 1) * 2 ^ F + r) = (2 ^ F + r) * 2 ^ j := by
    intro j r hr
    have e1 : ((j + 1) * 2 ^ F + r) / 2 ^ F = j + 1 := by
      rw [Nat.mul_comm, Nat.mul_add_div hp, Nat.div_eq_of_lt hr, Nat.add_zero]
    have e2 : ((j + 1) * 2 ^ F + r) % 2 ^ F = r := by
      rw [Nat.mul_comm, Nat.mul_add_mod, Nat.mod_eq_of_lt hr]
    unfold floatMag
    rw [e1, e2, if_neg (Nat.succ_ne_zero _), Nat.add_sub_cancel]
  by_cases h0 : m < 2 ^ F
  · have : k = 0 := by omega
    subst this
    unfold floatMag
    rw [Nat.zero_mul, Nat.zero_add, Nat.div_eq_of_lt h0, if_pos rfl, Nat.mod_eq_of_lt h0, Nat.pow_zero, Nat.mul_one]
  · by_cases h1 : m < 2 ^ F * 2
    · have := key k (m - 2 ^ F) (by omega)
      rw [Nat.add_mul, Nat.one_mul, Nat.add_assoc, show 2 ^ F + (m - 2 ^ F) = m by omega] at this
      exact this
    · have hm' : m = 2 ^ F * 2 := by omega
      have := key (k + 1) 0 hp
      rw [Nat.add_zero, show k + 1 + 1 = k + 2 from rfl, Nat.add_mul] at this
      rw [hm', Nat.mul_comm (2 ^ F) 2, this, Nat.add_zero, Nat.pow_succ, Nat.mul_comm (2 ^ k) 2, ← Nat.mul_assoc,
        Nat.mul_comm 2]

/-- the pattern before the limit to infinity -/
theorem round_mid {F E p q : Nat} (hF : 0 < F) (hq : 0 < q) {n k x : Nat} (hn : n = p * 2 ^ E / q)
    (hk : k = if n < 2 ^ (F + 1) then 0 else n.log2 - F)
    (hx : x = k * 2 ^ F + rneDiv (p * 2 ^ E) (q * 2 ^ k)) :
    (0 < x → (floatMag F (x - 1) + floatMag F x) * q ≤ 2 * (p * 2 ^ E) ∧
      ((floatMag F (x - 1) + floatMag F x) * q = 2 * (p * 2 ^ E) → x % 2 = 0)) ∧
    2 * (p * 2 ^ E) ≤ (floatMag F x + floatMag F (x + 1)) * q ∧
      (2 * (p * 2 ^ E) = (floatMag F x + floatMag F (x + 1)) * q → x % 2 = 0) := by
  generalize p * 2 ^ E = A at *
  have hp : 0 < 2 ^ F := Nat.pow_pos (by omega)
  have hpk : 0 < 2 ^ k := Nat.pow_pos (by omega)
  have hQ : 0 < q * 2 ^ k := Nat.mul_pos hq hpk
  have hs1 : 2 ^ (F + 1) = 2 ^ F * 2 := Nat.pow_succ ..
  -- bounds of the quotient
  have hA : q * n ≤ A ∧ A < q * (n + 1) := by
    have h1 := Nat.div_add_mod A q
    have h2 := Nat.mod_lt A hq
    rw [← hn] at h1
    rw [Nat.mul_add, Nat.mul_one]
    omega
  have hm2 : A ≤ q * 2 ^ k * 2 ^ (F + 1) := by
    rw [Nat.mul_assoc]
    refine Nat.le_trans (Nat.le_of_lt hA.2) (Nat.mul_le_mul_left q ?_)
    rw [hk]
    split
    · rename_i h
      rw [Nat.pow_zero, Nat.one_mul]
      omega
    · rename_i h
      have hl : F ≤ n.log2 := by
        have hne : n ≠ 0 := by intro h0; rw [h0] at h; exact h (Nat.pow_pos (by omega))
        rw [Nat.le_log2 hne]
        have := Nat.pow_le_pow_right (n := 2) (by omega) (Nat.le_succ F)
        exact Nat.le_trans this (by omega)
      rw [← Nat.pow_add, show n.log2 - F + (F + 1) = n.log2 + 1 by omega]
      exact Nat.lt_log2_self
  have hm1 : k = 0 ∨ q * 2 ^ k * 2 ^ F ≤ A := by
    rw [hk]
    split
    · exact .inl rfl
    · rename_i h
      right
      have hne : n ≠ 0 := by intro h0; rw [h0] at h; exact h (Nat.pow_pos (by omega))
      have hl : F ≤ n.log2 := by
        rw [Nat.le_log2 hne]
        have := Nat.pow_le_pow_right (n := 2) (by omega) (Nat.le_succ F)
        exact Nat.le_trans this (by omega)
      rw [Nat.mul_assoc, ← Nat.pow_add, Nat.sub_add_cancel hl]
      exact Nat.le_trans (Nat.mul_le_mul_left q (Nat.log2_self_le hne)) hA.1
  have b1 := rneDiv_le hQ hm2
  have b2 : k = 0 ∨ 2 ^ F ≤ rneDiv A (q * 2 ^ k) := hm1.imp_right fun h => le_rneDiv hQ h
  have bt := rneDiv_tie (p := A) hQ
  obtain ⟨c1, c2⟩ := rneDiv_bounds A (q * 2 ^ k) hQ
  generalize rneDiv A (q * 2 ^ k) = m at *
  rw [Nat.mul_assoc 2] at c1 c2
  have hmag : floatMag F x = m * 2 ^ k := by rw [hx]; exact floatMag_split b1 b2
  have hxdiv : x / 2 ^ F = k + m / 2 ^ F := by
    rw [hx, Nat.mul_comm k, Nat.mul_add_div hp]
  have hpar : x % 2 = m % 2 := by
    obtain ⟨F', rfl⟩ : ∃ F', F = F' + 1 := ⟨F - 1, by omega⟩
    rw [hx, Nat.pow_succ, ← Nat.mul_assoc, Nat.add_comm, Nat.add_mul_mod_self_right]
  have eQ : m * 2 ^ k * q = q * 2 ^ k * m := by
    rw [Nat.mul_comm (m * 2 ^ k), Nat.mul_comm m, Nat.mul_assoc]
  refine ⟨fun h0 => ?_, ?_⟩
  · -- lower middle
    obtain ⟨z, hz⟩ : ∃ z, x = z + 1 := ⟨x - 1, by omega⟩
    have hstep := floatMag_succ F z
    rw [← hz] at hstep
    rw [show x - 1 = z by omega]
    by_cases hlow : k ≠ 0 ∧ m = 2 ^ F
    · have hA' : q * 2 ^ k * m ≤ A := by
        rw [hlow.2]
        exact hm1.resolve_left hlow.1
      have hlt : floatMag F z < floatMag F x := by
        have : 0 < 2 ^ (z / 2 ^ F - 1) := Nat.pow_pos (by omega)
        omega
      have := Nat.mul_lt_mul_of_pos_right hlt hq
      rw [Nat.add_mul, hmag, eQ]
      rw [hmag, eQ] at this
      omega
    · have hs : z / 2 ^ F - 1 = k := by
        have hzz : z = k * 2 ^ F + (m - 1) ∧ 0 < m := by
          rcases b2 with h | h
          · subst h; omega
          · omega
        have hzd : z / 2 ^ F = k + (m - 1) / 2 ^ F := by
          rw [hzz.1, Nat.mul_comm k, Nat.mul_add_div hp]
        have h2 : (m - 1) / 2 ^ F < 2 := by
          rw [Nat.div_lt_iff_lt_mul hp]
          omega
        by_cases hk0 : k = 0
        · omega
        · have : 1 ≤ (m - 1) / 2 ^ F := by
            rw [Nat.le_div_iff_mul_le hp]
            have : 2 ^ F ≤ m := b2.resolve_left hk0
            have : m ≠ 2 ^ F := fun h => hlow ⟨hk0, h⟩
            omega
          omega
      rw [hs] at hstep
      have e3 : floatMag F z * q + q * 2 ^ k = q * 2 ^ k * m := by
        rw [← eQ, ← hmag, hstep, Nat.add_mul, Nat.mul_comm q]
      rw [Nat.add_mul, hmag, eQ]
      refine ⟨by omega, fun he => ?_⟩
      rw [hpar]
      exact bt (.inr (by omega))
  · -- upper middle
    have hstep := floatMag_succ F x
    have hs : k ≤ x / 2 ^ F - 1 := by
      rw [hxdiv]
      rcases b2 with h | h
      · omega
      · have : 1 ≤ m / 2 ^ F := by
          rw [Nat.le_div_iff_mul_le hp]
          omega
        omega
    have hge := Nat.mul_le_mul_right q (Nat.pow_le_pow_right (n := 2) (by omega) hs)
    have e3 : floatMag F (x + 1) * q = q * 2 ^ k * m + 2 ^ (x / 2 ^ F - 1) * q := by
      rw [hstep, Nat.add_mul, hmag, eQ]
    rw [Nat.mul_comm (2 ^ k) q] at hge
    rw [Nat.add_mul, hmag, eQ, e3]
    refine ⟨by omega, fun he => ?_⟩
    rw [hpar]
    exact bt (.inl (by omega))

/-- the rounding of the model is correct -/
theorem round_nearest (f : Fmt) (hF : 0 < f.F) {p q : Nat} (hq : 0 < q) :
    Nearest (floatMag f.F) f.E f.inf p q (f.round p q) := by
  obtain ⟨h1, h2⟩ := round_mid (F := f.F) (E := f.E) (p := p) hF hq rfl rfl rfl
  unfold Fmt.round
  dsimp only
  generalize (if p * 2 ^ f.E / q < 2 ^ (f.F + 1) then 0 else (p * 2 ^ f.E / q).log2 - f.F) * 2 ^ f.F +
    rneDiv (p * 2 ^ f.E) (q * 2 ^ (if p * 2 ^ f.E / q < 2 ^ (f.F + 1) then 0 else (p * 2 ^ f.E / q).log2 - f.F)) = x at *
  rcases Nat.le_total x f.inf with hx | hx
  · rw [Nat.min_eq_left hx]
    exact nearest_of_mid hq hx h1 (fun _ => h2)
  · rw [Nat.min_eq_right hx]
    by_cases he : x = f.inf
    · rw [← he]
      exact nearest_of_mid hq (Nat.le_refl _) h1 (fun _ => h2)
    · obtain ⟨a1, _⟩ := h1 (by omega)
      have m1 := Nat.mul_le_mul_right q (floatMag_mono f.F (by omega : f.inf ≤ x - 1))
      have m2 := Nat.mul_le_mul_right q (floatMag_mono f.F (by omega : f.inf ≤ x))
      rw [Nat.add_mul] at a1
      refine nearest_of_mid hq (Nat.le_refl _) (fun h0 => ?_) (fun h => absurd h (by omega))
      have hs := floatMag_lt_succ f.F (f.inf - 1)
      rw [Nat.sub_add_cancel (by omega)] at hs
      have hs := Nat.mul_lt_mul_of_pos_right hs hq
      rw [Nat.add_mul]
      omega

/-- the nearest pattern is unique -/
theorem nearest_unique {F E top p q x y : Nat} (h1 : Nearest (floatMag F) E top p q x)
    (h2 : Nearest (floatMag F) E top p q y) (hq : 0 < q) : x = y := by
  have key : ∀ x y, x < y → Nearest (floatMag F) E top p q x → Nearest (floatMag F) E top p q y → False := by
    intro x y hlt h1 h2
    have a1 := h1.2 y h2.1 (by omega)
    have a2 := h2.2 x h1.1 (by omega)
    have hm := Nat.mul_lt_mul_of_pos_right (Nat.lt_of_lt_of_le (floatMag_lt_succ F x) (floatMag_mono F hlt)) hq
    have e : gap (p * 2 ^ E) (floatMag F x * q) = gap (p * 2 ^ E) (floatMag F y * q) ∧ x % 2 = 0 ∧ y % 2 = 0 := by
      omega
    -- both even: there is a pattern between them, which is closer
    have hm1 := Nat.mul_lt_mul_of_pos_right (floatMag_lt_succ F x) hq
    have hm2 := Nat.mul_lt_mul_of_pos_right (Nat.lt_of_lt_of_le (floatMag_lt_succ F (x + 1))
      (floatMag_mono F (by omega : x + 1 + 1 ≤ y))) hq
    have := h1.2 (x + 1) (by have := h2.1; omega) (by omega)
    unfold gap at *
    omega
  rcases Nat.lt_trichotomy x y with h | h | h
  · exact absurd (key x y h h1 h2) (by simp)
  · exact h
  · exact absurd (key y x h h2 h1) (by simp)

/-- a float is nearest to itself -/
theorem nearest_self {F E top x q : Nat} (hx : x ≤ top) (hq : 0 < q) :
    Nearest (floatMag F) E top (floatMag F x * q) (2 ^ E * q) x := by
  refine ⟨hx, fun y _ hne => .inl ?_⟩
  have hp : 0 < 2 ^ E := Nat.pow_pos (by omega)
  have e : ∀ z, floatMag F z * (2 ^ E * q) = floatMag F z * q * 2 ^ E := fun z => by
    rw [Nat.mul_comm (2 ^ E), Nat.mul_assoc]
  have hqe : 0 < q * 2 ^ E := Nat.mul_pos hq hp
  rw [e, e]
  have hne' : floatMag F x * q * 2 ^ E ≠ floatMag F y * q * 2 ^ E := by
    rw [Nat.mul_assoc, Nat.mul_assoc]
    rcases Nat.lt_or_gt_of_ne hne with h | h
    · have := Nat.mul_lt_mul_of_pos_right (Nat.lt_of_lt_of_le (floatMag_lt_succ F y) (floatMag_mono F h)) hqe
      omega
    · have := Nat.mul_lt_mul_of_pos_right (Nat.lt_of_lt_of_le (floatMag_lt_succ F x) (floatMag_mono F h)) hqe
      omega
  unfold gap
  omega

theorem round_exact (f : Fmt) (hF : 0 < f.F) {x : Nat} (hx : x ≤ f.inf) : f.round (floatMag f.F x) (2 ^ f.E) = x := by
  have h1 := round_nearest f hF (p := floatMag f.F x) (q := 2 ^ f.E) (Nat.pow_pos (by omega))
  have h2 := nearest_self (F := f.F) (E := f.E) (q := 1) hx (by omega)
  rw [Nat.mul_one, Nat.mul_one] at h2
  exact nearest_unique h1 h2 (Nat.pow_pos (by omega))

/-- larger quotients are not rounded to smaller floats -/
theorem nearest_mono {F E top p q p' q' x y : Nat} (hq : 0 < q) (hq' : 0 < q') (h : p * q' ≤ p' * q)
    (h1 : Nearest (floatMag F) E top p q x) (h2 : Nearest (floatMag F) E top p' q' y) : x ≤ y := by
  rcases Nat.lt_or_ge y x with hlt | hge
  · exfalso
    have a1 := h1.2 y h2.1 (by omega)
    have a2 := h2.2 x h1.1 (by omega)
    have hs := Nat.lt_of_lt_of_le (floatMag_lt_succ F y) (floatMag_mono F hlt)
    -- both numbers with the same denominator
    have e : ∀ a b c : Nat, gap a b * c = gap (a * c) (b * c) := fun a b c => by
      unfold gap
      rw [Nat.add_mul, Nat.sub_mul, Nat.sub_mul]
    have c1 : ∀ z, gap (p * 2 ^ E) (floatMag F z * q) * q' = gap (p * q' * 2 ^ E) (floatMag F z * (q * q')) := fun z => by
      rw [e, Nat.mul_right_comm, Nat.mul_assoc (floatMag F z)]
    have c2 : ∀ z, gap (p' * 2 ^ E) (floatMag F z * q') * q = gap (p' * q * 2 ^ E) (floatMag F z * (q * q')) := fun z => by
      rw [e, Nat.mul_right_comm, Nat.mul_assoc (floatMag F z), Nat.mul_comm q']
    have b1 : gap (p * q' * 2 ^ E) (floatMag F x * (q * q')) ≤ gap (p * q' * 2 ^ E) (floatMag F y * (q * q')) := by
      rw [← c1, ← c1]
      exact Nat.mul_le_mul_right _ (by omega)
    have b2 : gap (p' * q * 2 ^ E) (floatMag F y * (q * q')) ≤ gap (p' * q * 2 ^ E) (floatMag F x * (q * q')) := by
      rw [← c2, ← c2]
      exact Nat.mul_le_mul_right _ (by omega)
    have hm := Nat.mul_le_mul_right (2 ^ E) h
    have hs' := Nat.mul_lt_mul_of_pos_right hs (Nat.mul_pos hq hq')
    have heq : p * q' * 2 ^ E = p' * q * 2 ^ E := by
      unfold gap at b1 b2
      omega
    have heven : x % 2 = 0 ∧ y % 2 = 0 := by
      have d1 : gap (p * 2 ^ E) (floatMag F x * q) * q' = gap (p * 2 ^ E) (floatMag F y * q) * q' := by
        rw [c1, c1]
        unfold gap at *
        omega
      have d2 : gap (p' * 2 ^ E) (floatMag F y * q') * q = gap (p' * 2 ^ E) (floatMag F x * q') * q := by
        rw [c2, c2]
        unfold gap at *
        omega
      have d1 := Nat.eq_of_mul_eq_mul_right hq' d1
      have d2 := Nat.eq_of_mul_eq_mul_right hq d2
      omega
    have a3 := h1.2 (y + 1) (by have := h1.1; omega) (by omega)
    have b3 : gap (p * q' * 2 ^ E) (floatMag F x * (q * q')) ≤ gap (p * q' * 2 ^ E) (floatMag F (y + 1) * (q * q')) := by
      rw [← c1, ← c1]
      exact Nat.mul_le_mul_right _ (by omega)
    have m1 := Nat.mul_lt_mul_of_pos_right (floatMag_lt_succ F y) (Nat.mul_pos hq hq')
    have m2 := Nat.mul_lt_mul_of_pos_right (Nat.lt_of_lt_of_le (floatMag_lt_succ F (y + 1))
      (floatMag_mono F (by omega : y + 1 + 1 ≤ x))) (Nat.mul_pos hq hq')
    unfold gap at b1 b2 b3
    omega
  · exact hge

theorem round_mono (f : Fmt) (hF : 0 < f.F) {p q p' q' : Nat} (hq : 0 < q) (hq' : 0 < q') (h : p * q' ≤ p' * q) :
    f.round p q ≤ f.round p' q' := nearest_mono hq hq' h (round_nearest f hF hq) (round_nearest f hF hq')

theorem round_eq (f : Fmt) (hF : 0 < f.F) {p q p' q' : Nat} (hq : 0 < q) (hq' : 0 < q') (h : p * q' = p' * q) :
    f.round p q = f.round p' q' :=
  Nat.le_antisymm (round_mono f hF hq hq' (Nat.le_of_eq h)) (round_mono f hF hq' hq (Nat.le_of_eq h.symm))

/-- numbers with few enough bits are floats -/
theorem exists_float {F : Nat} : ∀ {b a : Nat}, a < 2 ^ (F + 1) → ∃ y, y ≤ b * 2 ^ F + 2 ^ (F + 1) ∧ floatMag F y = a * 2 ^ b := by
  intro b
  induction b with
  | zero =>
    intro a ha
    refine ⟨a, by omega, ?_⟩
    have := floatMag_split (F := F) (k := 0) (m := a) (by omega) (.inl rfl)
    rwa [Nat.zero_mul, Nat.zero_add] at this
  | succ b ih =>
    intro a ha
    by_cases h : 2 ^ F ≤ a
    · exact ⟨(b + 1) * 2 ^ F + a, by omega, floatMag_split (by omega) (.inr h)⟩
    · obtain ⟨y, h1, h2⟩ := ih (a := 2 * a) (by rw [Nat.pow_succ]; omega)
      refine ⟨y, ?_, ?_⟩
      · rw [Nat.add_mul]
        omega
      · rw [h2, Nat.pow_succ, Nat.mul_comm 2 a, Nat.mul_assoc, Nat.mul_comm 2]

/-- integers of up to `F + 1` bits are exact -/
theorem round_int (f : Fmt) (hF : 0 < f.F) (hE : f.E * 2 ^ f.F + 2 ^ (f.F + 1) ≤ f.inf) {n : Nat} (hn : n < 2 ^ (f.F + 1)) :
    floatMag f.F (f.round n 1) = n * 2 ^ f.E := by
  obtain ⟨y, h1, h2⟩ := exists_float (b := f.E) hn
  have : f.round n 1 = y := by
    rw [← round_exact f hF (x := y) (by omega), h2]
    exact round_eq f hF (by omega) (Nat.pow_pos (by omega)) (by rw [Nat.mul_one])
  rw [this, h2]

/-! ### the two formats -/

theorem b64_F : 0 < Fmt.b64.F := by decide
theorem b32_F : 0 < Fmt.b32.F := by decide
theorem b64_inf : Fmt.b64.inf = 2047 * 2 ^ 52 := by decide
theorem b32_inf : Fmt.b32.inf = 255 * 2 ^ 23 := by decide

theorem nearest64_iff {p q x : Nat} : Nearest64 p q x ↔ Nearest (floatMag 52) 1074 Fmt.b64.inf p q x := by
  unfold Nearest64 Nearest
  rw [b64_inf]
  have e : ∀ y, y ≤ 2047 * 2 ^ 52 → mag64 y = floatMag 52 y := fun y hy => mag64_floatMag (by omega)
  constructor
  · rintro ⟨h, h2⟩
    refine ⟨h, fun y hy hne => ?_⟩
    rw [← e x h, ← e y hy]
    exact h2 y hy hne
  · rintro ⟨h, h2⟩
    refine ⟨h, fun y hy hne => ?_⟩
    rw [e x h, e y hy]
    exact h2 y hy hne

theorem nearest32_iff {p q x : Nat} : Nearest32 p q x ↔ Nearest (floatMag 23) 149 Fmt.b32.inf p q x := by
  unfold Nearest32 Nearest
  rw [b32_inf]
  have e : ∀ y, y ≤ 255 * 2 ^ 23 → mag32 y = floatMag 23 y := fun y hy => mag32_floatMag (by omega)
  constructor
  · rintro ⟨h, h2⟩
    refine ⟨h, fun y hy hne => ?_⟩
    rw [← e x h, ← e y hy]
    exact h2 y hy hne
  · rintro ⟨h, h2⟩
    refine ⟨h, fun y hy hne => ?_⟩
    rw [e x h, e y hy]
    exact h2 y hy hne

theorem round64_lt (p q : Nat) : Fmt.b64.round p q ≤ 2047 * 2 ^ 52 := by
  unfold Fmt.round
  dsimp only
  rw [← b64_inf]
  exact Nat.min_le_right _ _

theorem round32_lt (p q : Nat) : Fmt.b32.round p q ≤ 255 * 2 ^ 23 := by
  unfold Fmt.round
  dsimp only
  rw [← b32_inf]
  exact Nat.min_le_right _ _

theorem withSign64 (neg : Bool) {x : Nat} (hx : x < 2 ^ 63) :
    Fmt.b64.isNeg (Fmt.b64.withSign neg x) = neg ∧ Fmt.b64.abs (Fmt.b64.withSign neg x) = x := by
  unfold Fmt.isNeg Fmt.abs Fmt.withSign
  rw [show Fmt.b64.signBit = 2 ^ 63 from rfl]
  cases neg with
  | true =>
    refine ⟨decide_eq_true (Nat.le_add_right _ _), ?_⟩
    rw [if_pos rfl, Nat.add_mod_left, Nat.mod_eq_of_lt hx]
  | false =>
    refine ⟨decide_eq_false (by rw [if_neg (by simp)]; omega), ?_⟩
    rw [if_neg (by simp), Nat.mod_eq_of_lt hx]

/-- an integer of up to 53 bits as a double -/
theorem ofInt64 {n : Int} (hn : n.natAbs < 2 ^ 53) :
    Fmt.b64.isNeg (Fmt.b64.ofInt n) = decide (n < 0) ∧ Fmt.b64.isNaN (Fmt.b64.ofInt n) = false ∧
    Fmt.b64.abs (Fmt.b64.ofInt n) ≠ Fmt.b64.inf ∧ floatMag 52 (Fmt.b64.abs (Fmt.b64.ofInt n)) = n.natAbs * 2 ^ 1074 := by
  have hlt := round64_lt n.natAbs 1
  obtain ⟨h1, h2⟩ := withSign64 (decide (n < 0)) (x := Fmt.b64.round n.natAbs 1) (by omega)
  have hm := round_int Fmt.b64 b64_F (by decide +kernel) (n := n.natAbs) hn
  have hne : Fmt.b64.round n.natAbs 1 ≠ Fmt.b64.inf := by
    intro h
    have hi : 2 ^ 53 * 2 ^ 1074 ≤ floatMag 52 Fmt.b64.inf := by decide +kernel
    rw [h] at hm
    have := Nat.mul_lt_mul_of_pos_right hn (Nat.pow_pos (by omega) : 0 < 2 ^ 1074)
    have hm' : floatMag 52 Fmt.b64.inf = n.natAbs * 2 ^ 1074 := hm
    omega
  refine ⟨h1, ?_, ?_, ?_⟩
  · unfold Fmt.isNaN
    unfold Fmt.ofInt
    rw [h2, b64_inf]
    exact decide_eq_false (by omega)
  · unfold Fmt.ofInt
    rw [h2]
    exact hne
  · unfold Fmt.ofInt
    rw [h2]
    exact hm

theorem abs64 (b : Nat) : Fmt.b64.abs b = b % 2 ^ 63 := rfl
theorem abs32 (b : Nat) : Fmt.b32.abs b = b % 2 ^ 31 := rfl

/-- a NaN in the words of the specification -/
theorem isNaN64_iff {b : Nat} : Fmt.b64.isNaN b = true ↔ IsNaN (.f64 b) := by
  unfold Fmt.isNaN IsNaN exp64 frac64
  rw [decide_eq_true_eq, b64_inf, abs64]
  omega

theorem isNaN32_iff {b : Nat} : Fmt.b32.isNaN b = true ↔ IsNaN (.f32 b) := by
  unfold Fmt.isNaN IsNaN exp32 frac32
  rw [decide_eq_true_eq, b32_inf, abs32]
  omega

theorem finite64_lt {b : Nat} (h : finite64 b) : b % 2 ^ 63 < 2047 * 2 ^ 52 := by
  unfold finite64 exp64 at h
  omega

theorem finite32_lt {b : Nat} (h : finite32 b) : b % 2 ^ 31 < 255 * 2 ^ 23 := by
  unfold finite32 exp32 at h
  omega

theorem value64 {b : Nat} (hb : b < 2 ^ 64) : Fmt.b64.value b = val64 b := by
  have hm : floatMag 52 (b % 2 ^ 63) = mag64 b := by
    rw [← mag64_floatMag (Nat.mod_lt _ (by omega))]
    unfold mag64 exp64 frac64
    rw [show b % 2 ^ 63 / 2 ^ 52 % 2 ^ 11 = b / 2 ^ 52 % 2 ^ 11 by omega, show b % 2 ^ 63 % 2 ^ 52 = b % 2 ^ 52 by omega]
  unfold Fmt.value val64 Fmt.isNeg sign64
  rw [show Fmt.b64.signBit = 2 ^ 63 from rfl, abs64, show Fmt.b64.F = 52 from rfl, hm]
  by_cases h : 2 ^ 63 ≤ b
  · rw [decide_eq_true h, if_pos rfl, if_neg (by omega)]
  · rw [decide_eq_false h, if_neg (by simp), if_pos (by omega)]

theorem value32 {b : Nat} (hb : b < 2 ^ 32) : Fmt.b32.value b = val32 b := by
  have hm : floatMag 23 (b % 2 ^ 31) = mag32 b := by
    rw [← mag32_floatMag (Nat.mod_lt _ (by omega))]
    unfold mag32 exp32 frac32
    rw [show b % 2 ^ 31 / 2 ^ 23 % 2 ^ 8 = b / 2 ^ 23 % 2 ^ 8 by omega, show b % 2 ^ 31 % 2 ^ 23 = b % 2 ^ 23 by omega]
  unfold Fmt.value val32 Fmt.isNeg sign32
  rw [show Fmt.b32.signBit = 2 ^ 31 from rfl, abs32, show Fmt.b32.F = 23 from rfl, hm]
  by_cases h : 2 ^ 31 ≤ b
  · rw [decide_eq_true h, if_pos rfl, if_neg (by omega)]
  · rw [decide_eq_false h, if_neg (by simp), if_pos (by omega)]

theorem notNaN64 {b : Nat} (h : finite64 b) : Fmt.b64.isNaN b = false ∧ Fmt.b64.abs b ≠ Fmt.b64.inf := by
  have := finite64_lt h
  unfold Fmt.isNaN
  rw [b64_inf, abs64]
  exact ⟨decide_eq_false (by omega), by omega⟩

theorem notNaN32 {b : Nat} (h : finite32 b) : Fmt.b32.isNaN b = false ∧ Fmt.b32.abs b ≠ Fmt.b32.inf := by
  have := finite32_lt h
  unfold Fmt.isNaN
  rw [b32_inf, abs32]
  exact ⟨decide_eq_false (by omega), by omega⟩

end PyULog
