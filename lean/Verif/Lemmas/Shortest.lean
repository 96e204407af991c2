import Verif.Lemmas.NumberText
/-
The search for the shortest digits finds the shortest ones, and the closest of these.
-/
namespace PyULog
open Spec

/-- the number `A / 10^T` in units lies between the middles to the neighbours of `x` -/
def Span (F x T A : Nat) : Prop :=
  (floatMag F (x - 1) + floatMag F x) * 10 ^ T ≤ 2 * A ∧ 2 * A ≤ (floatMag F x + floatMag F (x + 1)) * 10 ^ T ∧
    (x % 2 = 0 ∨ (floatMag F (x - 1) + floatMag F x) * 10 ^ T < 2 * A ∧
      2 * A < (floatMag F x + floatMag F (x + 1)) * 10 ^ T)

theorem readsBack_iff {F x P Q n : Nat} : readsBack F x P Q n = true ↔
    (floatMag F (x - 1) + floatMag F x) * P ≤ 2 * n * Q ∧ 2 * n * Q ≤ (floatMag F x + floatMag F (x + 1)) * P ∧
    (x % 2 = 0 ∨ (floatMag F (x - 1) + floatMag F x) * P < 2 * n * Q ∧
      2 * n * Q < (floatMag F x + floatMag F (x + 1)) * P) := by
  unfold readsBack
  dsimp only
  by_cases h : x % 2 = 0
  · rw [if_pos h]
    simp only [Bool.and_eq_true, decide_eq_true_eq]
    exact ⟨fun ⟨a, b⟩ => ⟨a, b, .inl h⟩, fun ⟨a, b, _⟩ => ⟨a, b⟩⟩
  · rw [if_neg h]
    simp only [Bool.and_eq_true, decide_eq_true_eq]
    constructor
    · rintro ⟨a, b⟩
      exact ⟨by omega, by omega, .inr ⟨a, b⟩⟩
    · rintro ⟨_, _, h' | h'⟩
      · exact absurd h' h
      · exact h'

/-- decimals on a common scale -/
theorem readsBack_span {F E x n T : Nat} {k : Int} (hT : -(T : Int) ≤ k) :
    readsBack F x (10 ^ (-k).toNat) (2 ^ E * 10 ^ k.toNat) n = true ↔ Span F x T (n * 10 ^ (k + T).toNat * 2 ^ E) := by
  rw [readsBack_iff]
  unfold Span
  obtain ⟨c, hc⟩ : ∃ c, T = (-k).toNat + c := ⟨T - (-k).toNat, by omega⟩
  have e1 : (k + T).toNat = k.toNat + c := by omega
  rw [e1, hc, Nat.pow_add, Nat.pow_add]
  have hp : 0 < 10 ^ c := Nat.pow_pos (by omega)
  have m1 : ∀ m, m * (10 ^ (-k).toNat * 10 ^ c) = m * 10 ^ (-k).toNat * 10 ^ c := fun m => (Nat.mul_assoc _ _ _).symm
  have m2 : 2 * (n * (10 ^ k.toNat * 10 ^ c) * 2 ^ E) = 2 * n * (2 ^ E * 10 ^ k.toNat) * 10 ^ c := by
    simp only [Nat.mul_assoc]
    congr 2
    rw [Nat.mul_comm (10 ^ c), ← Nat.mul_assoc, ← Nat.mul_assoc, Nat.mul_comm (10 ^ k.toNat)]
  rw [m1, m1, m2, Nat.mul_le_mul_right_iff hp, Nat.mul_le_mul_right_iff hp, Nat.mul_lt_mul_right hp, Nat.mul_lt_mul_right hp]

/-- what lies between a number that reads back and the value reads back -/
theorem span_low {F x T A B : Nat} (h : Span F x T A) (h1 : A ≤ B) (h2 : B ≤ floatMag F x * 10 ^ T) : Span F x T B := by
  have hp : 0 < 10 ^ T := Nat.pow_pos (by omega)
  have := Nat.mul_lt_mul_of_pos_right (floatMag_lt_succ F x) hp
  unfold Span at *
  simp only [Nat.add_mul] at *
  omega

theorem span_high {F x T A B : Nat} (hx : 0 < x) (h : Span F x T A) (h1 : B ≤ A) (h2 : floatMag F x * 10 ^ T ≤ B) : Span F x T B := by
  have hp : 0 < 10 ^ T := Nat.pow_pos (by omega)
  have h3 := floatMag_lt_succ F (x - 1)
  rw [Nat.sub_add_cancel hx] at h3
  have := Nat.mul_lt_mul_of_pos_right h3 hp
  unfold Span at *
  simp only [Nat.add_mul] at *
  omega

/-- a decimal that is rounded to the pattern lies between the middles -/
theorem readsBack_of_roundsTo {F E top x n : Nat} {k : Int} (hx : 0 < x) (ht : x < top)
    (h : RoundsTo (floatMag F) E top n k x) : readsBack F x (10 ^ (-k).toNat) (2 ^ E * 10 ^ k.toNat) n = true := by
  have hP : 0 < 10 ^ (-k).toNat := Nat.pow_pos (by omega)
  have l := h (x - 1) (by omega) (by omega)
  have u := h (x + 1) (by omega) (by omega)
  have hA : n * 10 ^ k.toNat * 2 ^ E = n * (2 ^ E * 10 ^ k.toNat) := by
    rw [Nat.mul_assoc, Nat.mul_comm (10 ^ k.toNat)]
  rw [hA] at l u
  rw [readsBack_iff, Nat.mul_assoc 2 n, Nat.add_mul, Nat.add_mul]
  have h3 := floatMag_lt_succ F (x - 1)
  rw [Nat.sub_add_cancel hx] at h3
  have h4 := Nat.mul_lt_mul_of_pos_right h3 hP
  have h5 := Nat.mul_lt_mul_of_pos_right (floatMag_lt_succ F x) hP
  generalize n * (2 ^ E * 10 ^ k.toNat) = A at *
  generalize floatMag F (x - 1) * 10 ^ (-k).toNat = a at *
  generalize floatMag F x * 10 ^ (-k).toNat = b at *
  generalize floatMag F (x + 1) * 10 ^ (-k).toNat = c at *
  unfold gap at l u
  omega

/-! ### one number of digits -/

/-- what `shortestF` tries with `nd` digits -/
def lowOf (F E x : Nat) (K : Int) (nd : Nat) : Nat :=
  floatMag F x * 10 ^ ((nd : Int) - K).toNat / (2 ^ E * 10 ^ (-((nd : Int) - K)).toNat)

/-- the floor on the common scale -/
theorem lowOf_scale {F E x nd T : Nat} {K : Int} (hT : -(T : Int) ≤ K - nd) :
    lowOf F E x K nd * (10 ^ (K - nd + T).toNat * 2 ^ E) ≤ floatMag F x * 10 ^ T ∧
    floatMag F x * 10 ^ T < (lowOf F E x K nd + 1) * (10 ^ (K - nd + T).toNat * 2 ^ E) := by
  unfold lowOf
  obtain ⟨c, hc⟩ : ∃ c, T = ((nd : Int) - K).toNat + c := ⟨T - ((nd : Int) - K).toNat, by omega⟩
  have e1 : (K - nd + T).toNat = (-((nd : Int) - K)).toNat + c := by omega
  rw [e1, hc, Nat.pow_add, Nat.pow_add]
  have hp : 0 < 10 ^ c := Nat.pow_pos (by omega)
  generalize hQ : 2 ^ E * 10 ^ (-((nd : Int) - K)).toNat = Q
  have hQ0 : 0 < Q := by rw [← hQ]; exact Nat.mul_pos (Nat.pow_pos (by omega)) (Nat.pow_pos (by omega))
  have e2 : 10 ^ (-((nd : Int) - K)).toNat * 10 ^ c * 2 ^ E = Q * 10 ^ c := by
    rw [← hQ, Nat.mul_right_comm, Nat.mul_comm (10 ^ _) (2 ^ E)]
  rw [e2, ← Nat.mul_assoc, ← Nat.mul_assoc, ← Nat.mul_assoc]
  generalize floatMag F x * 10 ^ ((nd : Int) - K).toNat = W
  have h1 := Nat.div_mul_le_self W Q
  have h2 : W < (W / Q + 1) * Q := by
    have := Nat.div_add_mod W Q
    have := Nat.mod_lt W hQ0
    rw [Nat.add_mul, Nat.one_mul, Nat.mul_comm]
    omega
  exact ⟨Nat.mul_le_mul_right _ h1, Nat.mul_lt_mul_of_pos_right h2 hp⟩

/-- the number of units in the lower bound -/
theorem low_scale {F E x : Nat} (hE : 2 ^ E ≤ 10 ^ 400) (hx : 0 < floatMag F x) {nd : Nat} (hnd : 0 < nd) :
    10 ^ (nd - 1) ≤ lowOf F E x (decExp F E x) nd := by
  unfold lowOf
  rw [Nat.le_div_iff_mul_le (Nat.mul_pos (Nat.pow_pos (by omega)) (Nat.pow_pos (by omega)))]
  exact decExp_low hE hx hnd

/-- every decimal with at most `d` digits that reads back is not closer to the value than one of the two that are
tried -/
theorem candidate_side {F E x : Nat} (hE : 2 ^ E ≤ 10 ^ 400) (hx : 0 < x) {d n T : Nat} {k : Int} (hd : 0 < d) (hn : n < 10 ^ d)
    (hT : -(T : Int) ≤ k) (hT2 : -(T : Int) ≤ decExp F E x - d) :
    n * 10 ^ (k + T).toNat * 2 ^ E ≤ lowOf F E x (decExp F E x) d * (10 ^ (decExp F E x - d + T).toNat * 2 ^ E) ∨
    (lowOf F E x (decExp F E x) d + 1) * (10 ^ (decExp F E x - d + T).toNat * 2 ^ E) ≤ n * 10 ^ (k + T).toNat * 2 ^ E := by
  have hm : 0 < floatMag F x := by
    obtain ⟨z, rfl⟩ : ∃ z, x = z + 1 := ⟨x - 1, by omega⟩
    have := floatMag_lt_succ F z
    omega
  have hlow := low_scale hE hm hd
  have hsc := lowOf_scale (F := F) (E := E) (x := x) hT2
  generalize lowOf F E x (decExp F E x) d = lo at *
  generalize decExp F E x = K at *
  by_cases hk : K - d ≤ k
  · -- a multiple of the last digit
    obtain ⟨j, hj⟩ : ∃ j, (k + T).toNat = (K - d + T).toNat + j := ⟨(k + T).toNat - (K - d + T).toNat, by omega⟩
    have e : n * 10 ^ (k + T).toNat * 2 ^ E = n * 10 ^ j * (10 ^ (K - d + T).toNat * 2 ^ E) := by
      rw [hj, Nat.pow_add, Nat.mul_comm (10 ^ (K - d + T).toNat), ← Nat.mul_assoc, Nat.mul_assoc]
    rw [e]
    rcases Nat.lt_or_ge lo (n * 10 ^ j) with h | h
    · exact .inr (Nat.mul_le_mul_right _ h)
    · exact .inl (Nat.mul_le_mul_right _ h)
  · -- too small
    refine .inl (Nat.le_trans ?_ (Nat.mul_le_mul_right _ hlow))
    have e : 10 ^ (d - 1) * (10 ^ (K - d + T).toNat * 2 ^ E) = 10 ^ (d - 1 + (K - d + T).toNat) * 2 ^ E := by
      rw [← Nat.mul_assoc, ← Nat.pow_add]
    rw [e]
    refine Nat.mul_le_mul_right _ ?_
    have h1 : n * 10 ^ (k + T).toNat ≤ 10 ^ d * 10 ^ (k + T).toNat := Nat.mul_le_mul_right _ (by omega)
    rw [← Nat.pow_add] at h1
    exact Nat.le_trans h1 (Nat.pow_le_pow_right (by omega) (by omega))

/-- the closer one of the two that are tried with `nd` digits -/
def nearOf (F E x : Nat) (K : Int) (nd : Nat) : Nat :=
  rneDiv (floatMag F x * 10 ^ ((nd : Int) - K).toNat) (2 ^ E * 10 ^ (-((nd : Int) - K)).toNat)

/-- `n` of `nd` digits reads back -/
def Back (F E x : Nat) (K : Int) (nd n : Nat) : Prop :=
  readsBack F x (10 ^ ((nd : Int) - K).toNat) (2 ^ E * 10 ^ (-((nd : Int) - K)).toNat) n = true

theorem nearOf_ends (F E x : Nat) (K : Int) (nd : Nat) :
    nearOf F E x K nd = lowOf F E x K nd ∨ nearOf F E x K nd = lowOf F E x K nd + 1 := by
  unfold nearOf lowOf rneDiv
  dsimp only
  split
  · exact .inl rfl
  · split
    · exact .inr rfl
    · omega

theorem otherEnd_ends {near lo : Nat} (h : near = lo ∨ near = lo + 1) :
    near = lo ∧ otherEnd near lo = lo + 1 ∨ near = lo + 1 ∧ otherEnd near lo = lo := by
  unfold otherEnd
  rcases h with h | h
  · exact .inl ⟨h, if_pos h⟩
  · exact .inr ⟨h, if_neg (by omega)⟩

/-- the closer one, on the common scale -/
theorem nearOf_scale {F E x nd T : Nat} {K : Int} (hT : -(T : Int) ≤ K - nd) :
    2 * (floatMag F x * 10 ^ T) ≤ (2 * nearOf F E x K nd + 1) * (10 ^ (K - nd + T).toNat * 2 ^ E) ∧
    2 * nearOf F E x K nd * (10 ^ (K - nd + T).toNat * 2 ^ E) ≤ 2 * (floatMag F x * 10 ^ T) + 10 ^ (K - nd + T).toNat * 2 ^ E := by
  unfold nearOf
  obtain ⟨c, hc⟩ : ∃ c, T = ((nd : Int) - K).toNat + c := ⟨T - ((nd : Int) - K).toNat, by omega⟩
  have e1 : (K - nd + T).toNat = (-((nd : Int) - K)).toNat + c := by omega
  rw [e1, hc, Nat.pow_add, Nat.pow_add]
  generalize hQ : 2 ^ E * 10 ^ (-((nd : Int) - K)).toNat = Q
  have hQ0 : 0 < Q := by rw [← hQ]; exact Nat.mul_pos (Nat.pow_pos (by omega)) (Nat.pow_pos (by omega))
  have e2 : 10 ^ (-((nd : Int) - K)).toNat * 10 ^ c * 2 ^ E = Q * 10 ^ c := by
    rw [← hQ, Nat.mul_right_comm, Nat.mul_comm (10 ^ _) (2 ^ E)]
  rw [e2, ← Nat.mul_assoc (floatMag F x)]
  generalize floatMag F x * 10 ^ ((nd : Int) - K).toNat = W
  obtain ⟨h1, h2⟩ := rneDiv_bounds W Q hQ0
  generalize rneDiv W Q = n at *
  have e3 : 2 * Q * n = 2 * n * Q := by rw [Nat.mul_assoc, Nat.mul_comm Q, Nat.mul_assoc]
  rw [e3] at h1 h2
  have g1 := Nat.mul_le_mul_right (10 ^ c) h1
  have g2 := Nat.mul_le_mul_right (10 ^ c) h2
  rw [Nat.add_mul] at g1 g2
  rw [Nat.add_mul, Nat.one_mul, ← Nat.mul_assoc, ← Nat.mul_assoc]
  exact ⟨g1, g2⟩

theorem numeral_lt (s : Str) (h : ∀ c ∈ s, isNumeral c = true) : numeral s < 10 ^ s.length := by
  induction s with
  | nil => decide
  | cons c s ih =>
    have h1 := numeral_append [c] s
    have h2 := ih fun d hd => h d (List.mem_cons_of_mem _ hd)
    have h3 : numeral [c] ≤ 9 := by
      have := h c (List.mem_cons_self ..)
      unfold isNumeral at this
      simp only [Bool.and_eq_true, decide_eq_true_eq] at this
      show 0 * 10 + (c.toNat - 48) ≤ 9
      omega
    rw [List.singleton_append] at h1
    rw [h1, List.length_cons, Nat.pow_succ]
    have := Nat.mul_le_mul_right (10 ^ s.length) h3
    omega

theorem natDec_upper (n : Nat) : n < 10 ^ (natDec n).length := by
  have := numeral_lt (natDec n) (natDec_numerals n)
  rwa [numeral_natDec] at this

/-- with `nd` digits, the number is less than `10^nd` units of the last digit -/
theorem lowOf_upper {F E x nd : Nat} : lowOf F E x (decExp F E x) nd < 10 ^ nd := by
  have h1 := natDec_upper (floatMag F x * 10 ^ 400 / 2 ^ E)
  rw [Nat.div_lt_iff_lt_mul (Nat.pow_pos (by omega))] at h1
  have hK : ((natDec (floatMag F x * 10 ^ 400 / 2 ^ E)).length : Int) = decExp F E x + 400 := by unfold decExp; omega
  generalize (natDec (floatMag F x * 10 ^ 400 / 2 ^ E)).length = D at *
  generalize decExp F E x = K at *
  have hs := (lowOf_scale (F := F) (E := E) (x := x) (K := K) (nd := nd) (T := nd + 400) (by omega)).1
  generalize lowOf F E x K nd = lo at *
  rw [Nat.pow_add] at hs
  have e : (K - nd + ((nd + 400 : Nat) : Int)).toNat = D := by omega
  rw [e] at hs
  have h2 := Nat.mul_lt_mul_of_pos_left h1 (Nat.pow_pos (by omega) : 0 < 10 ^ nd)
  rw [← Nat.mul_assoc, Nat.mul_comm (10 ^ nd) (floatMag F x), Nat.mul_assoc] at h2
  exact Nat.lt_of_mul_lt_mul_right (Nat.lt_of_le_of_lt hs h2)

/-- what the search returns -/
theorem shortestF_spec (F E x : Nat) (K : Int) (left nd0 : Nat) :
    ∃ nd, nd0 ≤ nd ∧ nd ≤ nd0 + left ∧ (shortestF F E x K left nd0).2 = K - nd ∧
      ((shortestF F E x K left nd0).1 = nearOf F E x K nd ∨
        (shortestF F E x K left nd0).1 = otherEnd (nearOf F E x K nd) (lowOf F E x K nd) ∧ ¬Back F E x K nd (nearOf F E x K nd)) ∧
      ∀ d, nd0 ≤ d → d < nd → ¬Back F E x K d (nearOf F E x K d) ∧
        ¬Back F E x K d (otherEnd (nearOf F E x K d) (lowOf F E x K d)) := by
  induction left generalizing nd0 with
  | zero =>
    refine ⟨nd0, Nat.le_refl _, Nat.le_refl _, ?_, .inl ?_, fun d _ _ => by omega⟩
    · unfold shortestF
      dsimp only
      omega
    · unfold shortestF
      rfl
  | succ left ih =>
    by_cases h1 : Back F E x K nd0 (nearOf F E x K nd0)
    · refine ⟨nd0, Nat.le_refl _, by omega, ?_, .inl ?_, fun d _ _ => by omega⟩
      · unfold shortestF
        dsimp only
        rw [if_pos (by exact h1)]
        dsimp only
        omega
      · unfold shortestF
        dsimp only
        rw [if_pos (by exact h1)]
        rfl
    · by_cases h2 : Back F E x K nd0 (otherEnd (nearOf F E x K nd0) (lowOf F E x K nd0))
      · refine ⟨nd0, Nat.le_refl _, by omega, ?_, .inr ⟨?_, h1⟩, fun d _ _ => by omega⟩
        · unfold shortestF
          dsimp only
          rw [if_neg (by exact h1), if_pos (by exact h2)]
          dsimp only
          omega
        · unfold shortestF
          dsimp only
          rw [if_neg (by exact h1), if_pos (by exact h2)]
          rfl
      · obtain ⟨nd, a, b, c, d, e⟩ := ih (nd0 + 1)
        have hs : shortestF F E x K (left + 1) nd0 = shortestF F E x K left (nd0 + 1) := by
          conv => lhs; unfold shortestF
          dsimp only
          rw [if_neg (by exact h1), if_neg (by exact h2)]
        rw [hs]
        refine ⟨nd, by omega, by omega, c, d, fun d' h3 h4 => ?_⟩
        rcases Nat.eq_or_lt_of_le h3 with rfl | h5
        · exact ⟨h1, h2⟩
        · exact e d' h5 h4

theorem back_span {F E x n nd T : Nat} {K : Int} (hT : -(T : Int) ≤ K - nd) :
    Back F E x K nd n ↔ Span F x T (n * (10 ^ (K - nd + T).toNat * 2 ^ E)) := by
  unfold Back
  have e : ((nd : Int) - K) = -(K - nd) := by omega
  rw [e, Int.neg_neg, readsBack_span hT, Nat.mul_assoc]

/-- a decimal with at most `d` digits that reads back, on one of both sides -/
theorem back_of_candidate {F E x : Nat} (hE : 2 ^ E ≤ 10 ^ 400) (hx : 0 < x) {d n T : Nat} {k : Int} (hd : 0 < d) (hn : n < 10 ^ d)
    (hT : -(T : Int) ≤ k) (hT2 : -(T : Int) ≤ decExp F E x - d) (hs : Span F x T (n * 10 ^ (k + T).toNat * 2 ^ E)) :
    Back F E x (decExp F E x) d (lowOf F E x (decExp F E x) d) ∧
      n * 10 ^ (k + T).toNat * 2 ^ E ≤ lowOf F E x (decExp F E x) d * (10 ^ (decExp F E x - d + T).toNat * 2 ^ E) ∨
    Back F E x (decExp F E x) d (lowOf F E x (decExp F E x) d + 1) ∧
      (lowOf F E x (decExp F E x) d + 1) * (10 ^ (decExp F E x - d + T).toNat * 2 ^ E) ≤ n * 10 ^ (k + T).toNat * 2 ^ E := by
  obtain ⟨l1, l2⟩ := lowOf_scale (F := F) (E := E) (x := x) hT2
  rcases candidate_side hE hx hd hn hT hT2 with h | h
  · exact .inl ⟨(back_span hT2).mpr (span_low hs h l1), h⟩
  · exact .inr ⟨(back_span hT2).mpr (span_high hx hs h (Nat.le_of_lt l2)), h⟩

theorem gap_le_below {a b m : Nat} (h1 : a ≤ b) (h2 : b ≤ m) : gap b m ≤ gap a m := by unfold gap; omega
theorem gap_le_above {a b m : Nat} (h1 : b ≤ a) (h2 : m ≤ b) : gap b m ≤ gap a m := by unfold gap; omega

/-- no decimal that reads back has fewer digits than the one found, and none with as many is closer -/
theorem shortestF_shortest {F E x N : Nat} (hE : 2 ^ E ≤ 10 ^ 400) (hx : 0 < x) :
    ∃ nd, 0 < nd ∧ nd ≤ 1 + (N - 1) ∧ (shortestF F E x (decExp F E x) (N - 1) 1).2 = decExp F E x - nd ∧
      10 ^ (nd - 1) ≤ (shortestF F E x (decExp F E x) (N - 1) 1).1 ∧
      (shortestF F E x (decExp F E x) (N - 1) 1).1 ≤ 10 ^ nd ∧
      ∀ (d n T : Nat) (k : Int), n < 10 ^ d → -(T : Int) ≤ k → -(T : Int) ≤ decExp F E x - d → -(T : Int) ≤ decExp F E x - nd →
        Span F x T (n * 10 ^ (k + T).toNat * 2 ^ E) →
        nd ≤ d ∧ (nd = d → gap ((shortestF F E x (decExp F E x) (N - 1) 1).1 * (10 ^ (decExp F E x - nd + T).toNat * 2 ^ E)) (floatMag F x * 10 ^ T)
          ≤ gap (n * 10 ^ (k + T).toNat * 2 ^ E) (floatMag F x * 10 ^ T)) := by
  obtain ⟨nd, a, b, c, d, e⟩ := shortestF_spec F E x (decExp F E x) (N - 1) 1
  have hm : 0 < floatMag F x := by
    obtain ⟨z, rfl⟩ : ∃ z, x = z + 1 := ⟨x - 1, by omega⟩
    have := floatMag_lt_succ F z
    omega
  have hlow := low_scale hE hm a
  have hup := lowOf_upper (F := F) (E := E) (x := x) (nd := nd)
  have hends := otherEnd_ends (nearOf_ends F E x (decExp F E x) nd)
  refine ⟨nd, a, b, c, ?_, ?_, ?_⟩
  · omega
  · omega
  · intro d' n T k hn hT hT2 hT3 hs
    have hd : 0 < d' := by
      rcases Nat.eq_zero_or_pos d' with rfl | h
      · exfalso
        have : n = 0 := by
          rw [Nat.pow_zero] at hn
          omega
        subst this
        rw [Nat.zero_mul, Nat.zero_mul] at hs
        have h1 := hs.1
        have := Nat.mul_pos (Nat.add_pos_right (floatMag F (x - 1)) hm) (Nat.pow_pos (by omega) : 0 < 10 ^ T)
        omega
      · exact h
    have hc := back_of_candidate hE hx hd hn hT hT2 hs
    constructor
    · rcases Nat.lt_or_ge d' nd with hlt | hge
      · exfalso
        have h1 := e d' hd hlt
        rcases otherEnd_ends (nearOf_ends F E x (decExp F E x) d') with ⟨h2, h3⟩ | ⟨h2, h3⟩
        · rw [h3, h2] at h1
          rcases hc with hc | hc
          · exact h1.1 hc.1
          · exact h1.2 hc.1
        · rw [h3, h2] at h1
          rcases hc with hc | hc
          · exact h1.2 hc.1
          · exact h1.1 hc.1
      · exact hge
    · rintro rfl
      obtain ⟨l1, l2⟩ := lowOf_scale (F := F) (E := E) (x := x) hT3
      obtain ⟨r1, r2⟩ := nearOf_scale (F := F) (E := E) (x := x) hT3
      generalize (shortestF F E x (decExp F E x) (N - 1) 1).1 = r at *
      generalize nearOf F E x (decExp F E x) nd = near at *
      generalize lowOf F E x (decExp F E x) nd = lo at *
      generalize 10 ^ (decExp F E x - nd + T).toNat * 2 ^ E = S at *
      generalize n * 10 ^ (k + T).toNat * 2 ^ E = B at *
      generalize floatMag F x * 10 ^ T = M at *
      rw [Nat.add_mul, Nat.one_mul] at l2
      rw [Nat.add_mul, Nat.one_mul, Nat.mul_assoc] at r1
      rw [Nat.mul_assoc] at r2
      have hlo : ∀ {y}, y = lo + 1 → y * S = lo * S + S := by
        rintro y rfl
        rw [Nat.add_mul, Nat.one_mul]
      rcases hends with ⟨h2, h3⟩ | ⟨h2, h3⟩
      · rw [h3] at d
        subst h2
        rcases d with rfl | ⟨rfl, hb⟩
        · -- the lower end, the closer one
          rcases hc with ⟨_, hc⟩ | ⟨_, hc⟩
          · exact gap_le_below hc l1
          · rw [hlo rfl] at hc
            unfold gap
            omega
        · rcases hc with ⟨hb', _⟩ | ⟨_, hc⟩
          · exact absurd hb' hb
          · refine gap_le_above hc ?_
            rw [hlo rfl]
            omega
      · rw [h3] at d
        rcases d with h | ⟨rfl, hb⟩
        · rw [← h] at h2 r1 r2
          rw [hlo h2] at r1 r2 ⊢
          rcases hc with ⟨_, hc⟩ | ⟨_, hc⟩
          · unfold gap
            omega
          · rw [hlo rfl] at hc
            exact gap_le_above hc (by omega)
        · rw [h2] at hb
          rcases hc with ⟨_, hc⟩ | ⟨hb', _⟩
          · exact gap_le_below hc l1
          · exact absurd hb' hb

/-! ### trailing zeros -/

theorem stripZeros_spec (f n : Nat) (k : Int) (h0 : 0 < n) (hn : n ≤ 10 ^ f) :
    (stripZeros f n k).1 % 10 ≠ 0 ∧ k ≤ (stripZeros f n k).2 ∧
      (stripZeros f n k).1 * 10 ^ ((stripZeros f n k).2 - k).toNat = n := by
  induction f generalizing n k with
  | zero =>
    rw [Nat.pow_zero] at hn
    have : n = 1 := by omega
    subst this
    refine ⟨by show 1 % 10 ≠ 0; decide, Int.le_refl _, ?_⟩
    show 1 * 10 ^ (k - k).toNat = 1
    rw [Int.sub_self]
    rfl
  | succ f ih =>
    unfold stripZeros
    split
    · rename_i h
      rw [Nat.pow_succ] at hn
      obtain ⟨a, b, c⟩ := ih (n / 10) (k + 1) (by omega) (by omega)
      refine ⟨a, by omega, ?_⟩
      have e : ((stripZeros f (n / 10) (k + 1)).2 - k).toNat = ((stripZeros f (n / 10) (k + 1)).2 - (k + 1)).toNat + 1 := by omega
      rw [e, Nat.pow_succ, ← Nat.mul_assoc, c]
      omega
    · rename_i h
      refine ⟨h, Int.le_refl _, ?_⟩
      dsimp only
      rw [Int.sub_self]
      exact Nat.mul_one n

end PyULog
