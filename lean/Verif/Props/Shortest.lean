import Verif.Spec.Shortest
import Verif.Lemmas.Shortest
import Verif.Props.NumberText
import Verif.Props.Ros2
/-
Property theorems: C84 (form of the printed floats: shortest digits, notation).
-/
namespace PyULog
open Spec

/-! ### the digits -/

theorem gap_scale (a b c : Nat) : gap (a * c) (b * c) = gap a b * c := by
  unfold gap
  rw [Nat.add_mul, Nat.sub_mul, Nat.sub_mul]

theorem pow_shift {k : Int} {T c : Nat} (h : -(T : Int) ≤ k) : 10 ^ (k + (T + c : Nat)).toNat = 10 ^ (k + T).toNat * 10 ^ c := by
  rw [← Nat.pow_add]
  congr 1
  omega

/-- a larger common scale is as good -/
theorem gap_shift {m n u M T c : Nat} {j k : Int} (hj : -(T : Int) ≤ j) (hk : -(T : Int) ≤ k)
    (h : gap (m * 10 ^ (j + (T + c : Nat)).toNat * 2 ^ u) (M * 10 ^ (T + c)) ≤
      gap (n * 10 ^ (k + (T + c : Nat)).toNat * 2 ^ u) (M * 10 ^ (T + c))) :
    gap (m * 10 ^ (j + T).toNat * 2 ^ u) (M * 10 ^ T) ≤ gap (n * 10 ^ (k + T).toNat * 2 ^ u) (M * 10 ^ T) := by
  rw [pow_shift hj, pow_shift hk, Nat.pow_add, ← Nat.mul_assoc, ← Nat.mul_assoc, ← Nat.mul_assoc,
    Nat.mul_right_comm _ (10 ^ c), Nat.mul_right_comm _ (10 ^ c), gap_scale, gap_scale] at h
  exact Nat.le_of_mul_le_mul_right h (Nat.pow_pos (by omega))

theorem sameDecimal_of {n m : Nat} {k j : Int}
    (h : m * 10 ^ j.toNat * 10 ^ (-k).toNat = n * 10 ^ k.toNat * 10 ^ (-j).toNat) : SameDecimal n k m j := by
  intro T hk hj
  have hp : 0 < 10 ^ (-k).toNat * 10 ^ (-j).toNat := Nat.mul_pos (Nat.pow_pos (by omega)) (Nat.pow_pos (by omega))
  apply Nat.eq_of_mul_eq_mul_right hp
  have e1 : 10 ^ (k + T).toNat * 10 ^ (-k).toNat = 10 ^ k.toNat * 10 ^ T := by
    rw [← Nat.pow_add, ← Nat.pow_add]
    congr 1
    omega
  have e2 : 10 ^ (j + T).toNat * 10 ^ (-j).toNat = 10 ^ j.toNat * 10 ^ T := by
    rw [← Nat.pow_add, ← Nat.pow_add]
    congr 1
    omega
  calc n * 10 ^ (k + T).toNat * (10 ^ (-k).toNat * 10 ^ (-j).toNat)
      = n * (10 ^ (k + T).toNat * 10 ^ (-k).toNat) * 10 ^ (-j).toNat := by simp only [Nat.mul_assoc]
    _ = n * 10 ^ k.toNat * 10 ^ (-j).toNat * 10 ^ T := by rw [e1, ← Nat.mul_assoc, Nat.mul_right_comm]
    _ = m * (10 ^ j.toNat * 10 ^ T) * 10 ^ (-k).toNat := by rw [← h, ← Nat.mul_assoc, Nat.mul_right_comm]
    _ = m * 10 ^ (j + T).toNat * (10 ^ (-k).toNat * 10 ^ (-j).toNat) := by
      rw [← e2, ← Nat.mul_assoc, Nat.mul_assoc _ _ (10 ^ (-k).toNat), Nat.mul_comm (10 ^ (-j).toNat)]

/-- the digits of a positive finite float -/
theorem strip_shortest {F E N x top : Nat} (hE : 2 ^ E ≤ 10 ^ 400) (hx : 0 < x) (ht : x < top) (hN : 0 < N)
    (hF : 2 ^ (F + 1) < 10 ^ (N - 1)) :
    Shortest (floatMag F) E top
      (stripZeros N (shortestF F E x (decExp F E x) (N - 1) 1).1 (shortestF F E x (decExp F E x) (N - 1) 1).2).1
      (stripZeros N (shortestF F E x (decExp F E x) (N - 1) 1).1 (shortestF F E x (decExp F E x) (N - 1) 1).2).2 x := by
  have h1 := shortestF_readsBack hE hx (N - 1) 1 (by omega)
    (by rw [show 1 + (N - 1) - 1 = N - 1 by omega]; exact hF)
  have h2 := stripZeros_roundsTo N _ _ (roundsTo_of_readsBack (top := top) hx h1)
  obtain ⟨nd, a, b, c, l, u, hs⟩ := shortestF_shortest (F := F) (E := E) (x := x) (N := N) hE hx
  have hpos : 0 < (shortestF F E x (decExp F E x) (N - 1) 1).1 := Nat.lt_of_lt_of_le (Nat.pow_pos (by omega)) l
  obtain ⟨p, q, r⟩ := stripZeros_spec N _ (shortestF F E x (decExp F E x) (N - 1) 1).2 hpos
    (Nat.le_trans u (Nat.pow_le_pow_right (by omega) (by omega)))
  generalize hm : (stripZeros N (shortestF F E x (decExp F E x) (N - 1) 1).1 (shortestF F E x (decExp F E x) (N - 1) 1).2).1 = m at *
  generalize hj : (stripZeros N (shortestF F E x (decExp F E x) (N - 1) 1).1 (shortestF F E x (decExp F E x) (N - 1) 1).2).2 = j at *
  generalize (shortestF F E x (decExp F E x) (N - 1) 1).1 = n at *
  generalize (shortestF F E x (decExp F E x) (N - 1) 1).2 = k at *
  generalize decExp F E x = K at *
  clear hE hF h1
  -- the stripped digits are fewer, and `10^nd` becomes a single one
  have hm1 : m < 10 ^ nd := by
    have hp : 0 < 10 ^ (j - k).toNat := Nat.pow_pos (by omega)
    rcases Nat.eq_zero_or_pos (j - k).toNat with h0 | h0
    · rw [h0, Nat.pow_zero, Nat.mul_one] at r
      subst r
      rcases Nat.eq_or_lt_of_le u with h | h
      · exfalso
        obtain ⟨z, rfl⟩ : ∃ z, nd = z + 1 := ⟨nd - 1, by omega⟩
        rw [h, Nat.pow_succ] at p
        omega
      · exact h
    · have : m * 10 ≤ n := by
        rw [← r]
        refine Nat.mul_le_mul_left _ ?_
        calc 10 = 10 ^ 1 := rfl
          _ ≤ _ := Nat.pow_le_pow_right (by omega) h0
      omega
  have key : ∀ (n' : Nat) (k' : Int) (d : Nat), RoundsTo (floatMag F) E top n' k' x → n' < 10 ^ d →
      ∀ T : Nat, -(T : Int) ≤ k' → -(T : Int) ≤ K - d → -(T : Int) ≤ K - nd →
      nd ≤ d ∧ (nd = d → gap (n * (10 ^ (K - nd + T).toNat * 2 ^ E)) (floatMag F x * 10 ^ T)
          ≤ gap (n' * 10 ^ (k' + T).toNat * 2 ^ E) (floatMag F x * 10 ^ T)) := by
    intro n' k' d hr hn T t1 t2 t3
    exact hs d n' T k' hn t1 t2 t3 ((readsBack_span t1).mp (readsBack_of_roundsTo hx ht hr))
  refine ⟨p, h2, fun n' k' d hr hn => ?_, fun n' k' d hr hn hd T t1 t2 => ?_⟩
  · have := (key n' k' d hr hn (k'.natAbs + K.natAbs + d + nd) (by omega) (by omega) (by omega)).1
    exact Nat.lt_of_lt_of_le hm1 (Nat.pow_le_pow_right (by omega) this)
  · refine gap_shift (c := K.natAbs + d + nd) t2 t1 ?_
    obtain ⟨g1, g2⟩ := key n' k' d hr hn (T + (K.natAbs + d + nd)) (by omega) (by omega) (by omega)
    have e : nd = d := by
      have h3 : 10 ^ (d - 1) < 10 ^ nd := Nat.lt_of_le_of_lt hd hm1
      have := (Nat.pow_lt_pow_iff_right (by omega : 1 < 10)).mp h3
      omega
    have g3 := g2 e
    rw [← c, ← r] at g3
    have e2 : m * 10 ^ (j - k).toNat * (10 ^ (k + (T + (K.natAbs + d + nd) : Nat)).toNat * 2 ^ E)
        = m * 10 ^ (j + (T + (K.natAbs + d + nd) : Nat)).toNat * 2 ^ E := by
      rw [← Nat.mul_assoc, Nat.mul_assoc m, ← Nat.pow_add]
      congr 3
      omega
    rw [e2] at g3
    exact g3

/-! ### the notation -/

theorem natDec_last {n : Nat} (h : n % 10 ≠ 0) : (natDec n).getLast? ≠ some '0' := by
  intro h0
  obtain ⟨a, ha⟩ := List.getLast?_eq_some_iff.mp h0
  have := numeral_append a ['0']
  rw [← ha, numeral_natDec, show numeral ['0'] = 0 from rfl] at this
  rw [this] at h
  simp at h

theorem natDec_head {n : Nat} (h : 0 < n) : (natDec n).head? ≠ some '0' := by
  obtain ⟨c, cs, h1, h2⟩ := natDec_first n h
  rw [h1]
  intro h3
  have : c = '0' := by simpa using h3
  subst this
  exact absurd h2 (by decide)

theorem digits_natDec (n : Nat) : DigitRun (natDec n) := ⟨natDec_ne_nil n, natDec_numerals n⟩

theorem layout_fixed {n : Nat} {k : Int} (h : n % 10 ≠ 0) : FixedText (layout false n k) := by
  have hn : 0 < n := by omega
  have hd := digits_natDec n
  have hl := natDec_last h
  have hh := natDec_head hn
  unfold layout
  dsimp only
  rw [if_neg (by decide)]
  generalize natDec n = ds at *
  by_cases h1 : (ds.length : Int) + k ≤ 0
  · rw [if_pos h1]
    refine ⟨['0'], _, rfl, ⟨by decide, by decide⟩, ⟨by simp [hd.1], ?_⟩, .inl rfl, .inr ?_⟩
    · intro c hc
      rcases List.mem_append.mp hc with hc | hc
      · exact numerals_zeros _ c hc
      · exact hd.2 c hc
    · rw [List.getLast?_append]
      cases h3 : ds.getLast? with
      | none => exact absurd (List.getLast?_eq_none_iff.mp h3) hd.1
      | some c =>
        rw [h3] at hl
        exact hl
  · rw [if_neg h1]
    by_cases h2 : (ds.length : Int) + k < ds.length
    · rw [if_pos h2]
      have hd2 : ds.drop ((ds.length : Int) + k).toNat ≠ [] := by
        rw [Ne, List.drop_eq_nil_iff]
        omega
      refine ⟨_, _, rfl, ⟨?_, fun c hc => hd.2 c (List.mem_of_mem_take hc)⟩, ⟨hd2, fun c hc => hd.2 c (List.mem_of_mem_drop hc)⟩, .inr ?_, .inr ?_⟩
      · rw [Ne, List.take_eq_nil_iff]
        rintro (h3 | h3)
        · omega
        · exact hd.1 h3
      · rw [List.head?_take, if_neg (by omega)]
        exact hh
      · rw [List.getLast?_drop, if_neg (by omega)]
        exact hl
    · rw [if_neg h2]
      refine ⟨_, ['0'], rfl, ⟨by simp [hd.1], ?_⟩, ⟨by decide, by decide⟩, .inr ?_, .inl rfl⟩
      · intro c hc
        rcases List.mem_append.mp hc with hc | hc
        · exact hd.2 c hc
        · exact numerals_zeros _ c hc
      · cases ds with
        | nil => exact absurd rfl hd.1
        | cons c cs => exact hh

theorem atLeast2_form (e : Nat) : DigitRun (atLeast2 e) ∧ 2 ≤ (atLeast2 e).length ∧
    (2 < (atLeast2 e).length → (atLeast2 e).head? ≠ some '0') := by
  unfold atLeast2
  by_cases h : e < 10
  · rw [if_pos h, natDec_one e h]
    refine ⟨⟨by simp, ?_⟩, by simp, by simp⟩
    intro c hc
    rcases List.mem_cons.mp hc with rfl | hc
    · decide
    · exact natDec_numerals e c (by rw [natDec_one e h]; exact hc)
  · rw [if_neg h]
    refine ⟨digits_natDec e, ?_, fun _ => natDec_head (by omega)⟩
    rcases Nat.lt_or_ge (natDec e).length 2 with hlt | hge
    · exfalso
      have := natDec_upper e
      have := Nat.pow_le_pow_right (by omega : 0 < 10) (by omega : (natDec e).length ≤ 1)
      omega
    · exact hge

theorem layout_sci {n : Nat} {k : Int} (h : n % 10 ≠ 0) : SciText (layout true n k) := by
  have hn : 0 < n := by omega
  have hd := digits_natDec n
  have hl := natDec_last h
  obtain ⟨c, cs, h1, h2⟩ := natDec_first n hn
  unfold layout
  dsimp only
  rw [if_pos rfl]
  generalize natDec n = ds at *
  subst h1
  obtain ⟨x1, x2, x3⟩ := atLeast2_form (((c :: cs).length : Int) + k - 1).natAbs
  refine ⟨c, if 1 < (c :: cs).length then '.' :: cs else [], _, _, rfl, hd.2 c (List.mem_cons_self ..), ?_, ?_, ?_, x1, x2, x3⟩
  · rintro rfl
    exact absurd h2 (by decide)
  · cases cs with
    | nil => exact .inl (if_neg (by simp))
    | cons c' cs =>
      refine .inr ⟨c' :: cs, if_pos (by simp), ⟨by simp, fun x hx => hd.2 x (List.mem_cons_of_mem _ hx)⟩, ?_⟩
      rw [List.getLast?_cons_cons] at hl
      exact hl
  · split
    · exact .inr rfl
    · exact .inl rfl

/-! ### printed floats -/

theorem floatText_form {W F E N bits top : Nat} (hE : 2 ^ E ≤ 10 ^ 400) (hN : 0 < N)
    (hF : 2 ^ (F + 1) < 10 ^ (N - 1)) (hx : bits % 2 ^ (W - 1) / 2 ^ F ≠ 2 ^ (W - 1 - F) - 1)
    (h0 : bits % 2 ^ (W - 1) ≠ 0) (ht : bits % 2 ^ (W - 1) < top) :
    ∃ t n k m j, floatText W F E N bits = (if 2 ^ (W - 1) ≤ bits then ['-'] else []) ++ t ∧ readUnsigned t = some (n, k) ∧
      SameDecimal n k m j ∧ Shortest (floatMag F) E top m j (bits % 2 ^ (W - 1)) ∧
      (scientific F E (bits % 2 ^ (W - 1)) = true → SciText t) ∧ (scientific F E (bits % 2 ^ (W - 1)) = false → FixedText t) := by
  have hs := strip_shortest hE (Nat.pos_of_ne_zero h0) ht hN hF
  unfold floatText
  dsimp only
  rw [if_neg hx, if_neg h0]
  generalize bits % 2 ^ (W - 1) = x at *
  generalize (stripZeros N (shortestF F E x (decExp F E x) (N - 1) 1).1 (shortestF F E x (decExp F E x) (N - 1) 1).2).1 = m at *
  generalize (stripZeros N (shortestF F E x (decExp F E x) (N - 1) 1).1 (shortestF F E x (decExp F E x) (N - 1) 1).2).2 = j at *
  obtain ⟨n, k, h1, h2⟩ := layout_reads (scientific F E x) m j
  refine ⟨_, n, k, m, j, rfl, h1, sameDecimal_of h2, hs, fun h => ?_, fun h => ?_⟩
  · rw [h]
    exact layout_sci hs.digits
  · rw [h]
    exact layout_fixed hs.digits

theorem shortest_mag {mag mag' : Nat → Nat} {u top m x : Nat} {j : Int} (h : ∀ y, y ≤ top → mag y = mag' y)
    (hx : x ≤ top) (hs : Shortest mag u top m j x) : Shortest mag' u top m j x := by
  have h' : ∀ y, y ≤ top → mag' y = mag y := fun y hy => (h y hy).symm
  refine ⟨hs.digits, roundsTo_mag h hx hs.rounds, fun n k d hr => hs.short n k d (roundsTo_mag h' hx hr), fun n k d hr => ?_⟩
  rw [← h x hx]
  exact hs.close n k d (roundsTo_mag h' hx hr)

/-- **C84**, 64-bit floats: a finite number other than zero is printed with the shortest digits that stand for it, and the
closest ones of these. It is printed with an exponent exactly if it is smaller than 1e-4 or not smaller than 1e16,
and without superfluous zeros. -/
theorem C84_shortest64 {bits : Nat} (hf : finite64 bits) (h0 : bits % 2 ^ 63 ≠ 0) :
    ∃ t n k m j, f64Text bits = (if 2 ^ 63 ≤ bits then ['-'] else []) ++ t ∧ readUnsigned t = some (n, k) ∧
      SameDecimal n k m j ∧ Shortest mag64 1074 (2047 * 2 ^ 52) m j (bits % 2 ^ 63) ∧
      (mag64 bits * 10 ^ 4 < 2 ^ 1074 ∨ 10 ^ 16 * 2 ^ 1074 ≤ mag64 bits → SciText t) ∧
      (2 ^ 1074 ≤ mag64 bits * 10 ^ 4 ∧ mag64 bits < 10 ^ 16 * 2 ^ 1074 → FixedText t) := by
  have hx : bits % 2 ^ 63 < 2 ^ 63 := Nat.mod_lt _ (by omega)
  have e1 : exp64 bits = bits % 2 ^ 63 / 2 ^ 52 := by unfold exp64; omega
  have em : mag64 bits = floatMag 52 (bits % 2 ^ 63) := by
    rw [← mag64_floatMag hx]
    have a1 : exp64 (bits % 2 ^ 63) = exp64 bits := by unfold exp64; omega
    have a2 : frac64 (bits % 2 ^ 63) = frac64 bits := by unfold frac64; omega
    unfold mag64
    rw [a1, a2]
  unfold finite64 at hf
  rw [e1] at hf
  have ht : bits % 2 ^ 63 < 2047 * 2 ^ 52 := by omega
  obtain ⟨t, n, k, m, j, a, b, c, d, e, f⟩ := floatText_form (W := 64) (F := 52) (N := 17) (bits := bits)
    (top := 2047 * 2 ^ 52) pow_1074 (by decide) (by decide) hf h0 ht
  rw [show 64 - 1 = 63 from rfl] at a d e f
  refine ⟨t, n, k, m, j, a, b, c, shortest_mag (fun y hy => (mag64_floatMag (by omega)).symm) (Nat.le_of_lt ht) d, fun h => e ?_, fun h => f ?_⟩
  · rw [em] at h
    unfold scientific
    rw [Bool.or_eq_true, decide_eq_true_eq, decide_eq_true_eq]
    exact h
  · rw [em] at h
    unfold scientific
    rw [Bool.or_eq_false_iff, decide_eq_false_iff_not, decide_eq_false_iff_not]
    exact ⟨Nat.not_lt.mpr h.1, Nat.not_le.mpr h.2⟩

/-- **C84**, 32-bit floats -/
theorem C84_shortest32 {bits : Nat} (hf : finite32 bits) (h0 : bits % 2 ^ 31 ≠ 0) :
    ∃ t n k m j, f32Text bits = (if 2 ^ 31 ≤ bits then ['-'] else []) ++ t ∧ readUnsigned t = some (n, k) ∧
      SameDecimal n k m j ∧ Shortest mag32 149 (255 * 2 ^ 23) m j (bits % 2 ^ 31) ∧
      (mag32 bits * 10 ^ 4 < 2 ^ 149 ∨ 10 ^ 16 * 2 ^ 149 ≤ mag32 bits → SciText t) ∧
      (2 ^ 149 ≤ mag32 bits * 10 ^ 4 ∧ mag32 bits < 10 ^ 16 * 2 ^ 149 → FixedText t) := by
  have hx : bits % 2 ^ 31 < 2 ^ 31 := Nat.mod_lt _ (by omega)
  have e1 : exp32 bits = bits % 2 ^ 31 / 2 ^ 23 := by unfold exp32; omega
  have em : mag32 bits = floatMag 23 (bits % 2 ^ 31) := by
    rw [← mag32_floatMag hx]
    have a1 : exp32 (bits % 2 ^ 31) = exp32 bits := by unfold exp32; omega
    have a2 : frac32 (bits % 2 ^ 31) = frac32 bits := by unfold frac32; omega
    unfold mag32
    rw [a1, a2]
  unfold finite32 at hf
  rw [e1] at hf
  have ht : bits % 2 ^ 31 < 255 * 2 ^ 23 := by omega
  obtain ⟨t, n, k, m, j, a, b, c, d, e, f⟩ := floatText_form (W := 32) (F := 23) (N := 9) (bits := bits)
    (top := 255 * 2 ^ 23) pow_149 (by decide) (by decide) hf h0 ht
  rw [show 32 - 1 = 31 from rfl] at a d e f
  refine ⟨t, n, k, m, j, a, b, c, shortest_mag (fun y hy => (mag32_floatMag (by omega)).symm) (Nat.le_of_lt ht) d, fun h => e ?_, fun h => f ?_⟩
  · rw [em] at h
    unfold scientific
    rw [Bool.or_eq_true, decide_eq_true_eq, decide_eq_true_eq]
    exact h
  · rw [em] at h
    unfold scientific
    rw [Bool.or_eq_false_iff, decide_eq_false_iff_not, decide_eq_false_iff_not]
    exact ⟨Nat.not_lt.mpr h.1, Nat.not_le.mpr h.2⟩

/-- examples: the hypotheses hold of pi, of the largest number (printed above), and of the 32-bit float next to 1e-4, which is
smaller than 1e-4 -/
example : finite64 0x400921fb54442d18 ∧ 0x400921fb54442d18 % 2 ^ 63 ≠ 0 ∧ finite64 0xffefffffffffffff ∧ 0xffefffffffffffff % 2 ^ 63 ≠ 0 ∧
    finite32 0x38d1b717 ∧ 0x38d1b717 % 2 ^ 31 ≠ 0 ∧ mag32 0x38d1b717 * 10 ^ 4 < 2 ^ 149 := by
  unfold finite64 finite32
  decide +kernel

example : f64Text 0x400921fb54442d18 = py! "3.141592653589793" := by decide +kernel
example : f32Text 0x38d1b717 = py! "1e-04" := by decide +kernel

/-- 5e-324, the smallest number, could also be written 3e-324 or 7e-324; the printed digit is the closest one to
4.94e-324 -/
example : readsBack 52 1 (10 ^ 324) (2 ^ 1074) 3 = true ∧ readsBack 52 1 (10 ^ 324) (2 ^ 1074) 7 = true := by decide +kernel

end PyULog
