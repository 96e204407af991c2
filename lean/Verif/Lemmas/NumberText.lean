import Verif.Model.NumberText
import Verif.Spec.NumberText
import Verif.Lemmas.Decimal
import Verif.Lemmas.FloatFmt
import Verif.Props.Tools
/-
Lemmas about `str` of numbers: the search for the digits and
the layout.
-/
namespace PyULog
open Spec

/-! ### what reads back -/

/-- a decimal between the middles is rounded to the pattern -/
theorem roundsTo_of_readsBack {F E top x n : Nat} {k : Int} (hx : 0 < x)
    (h : readsBack F x (10 ^ (-k).toNat) (2 ^ E * 10 ^ k.toNat) n = true) :
    RoundsTo (floatMag F) E top n k x := by
  intro y _ hne
  have hP : 0 < 10 ^ (-k).toNat := Nat.pow_pos (by omega)
  have hA : n * 10 ^ k.toNat * 2 ^ E = n * (2 ^ E * 10 ^ k.toNat) := by
    rw [Nat.mul_assoc, Nat.mul_comm (10 ^ k.toNat)]
  rw [hA]
  unfold readsBack at h
  simp only [Nat.add_mul] at h
  rw [Nat.mul_assoc 2 n] at h
  revert h
  generalize 10 ^ (-k).toNat = P at hP ⊢
  generalize n * (2 ^ E * 10 ^ k.toNat) = A
  obtain ⟨z, rfl⟩ : ∃ z, x = z + 1 := ⟨x - 1, by omega⟩
  have hb := Nat.mul_lt_mul_of_pos_right (floatMag_lt_succ F z) hP
  have ha := Nat.mul_lt_mul_of_pos_right (floatMag_lt_succ F (z + 1)) hP
  rw [Nat.add_sub_cancel]
  intro h
  have hmid : floatMag F z * P + floatMag F (z + 1) * P ≤ 2 * A ∧
      2 * A ≤ floatMag F (z + 1) * P + floatMag F (z + 1 + 1) * P ∧
      ((z + 1) % 2 = 0 ∨ floatMag F z * P + floatMag F (z + 1) * P < 2 * A ∧
      2 * A < floatMag F (z + 1) * P + floatMag F (z + 1 + 1) * P) := by
    split at h
    · rename_i he
      simp only [Bool.and_eq_true, decide_eq_true_eq] at h
      exact ⟨h.1, h.2, .inl he⟩
    · simp only [Bool.and_eq_true, decide_eq_true_eq] at h
      exact ⟨by omega, by omega, .inr h⟩
  obtain ⟨h1, h2, h3⟩ := hmid
  unfold gap
  rcases Nat.lt_or_gt_of_ne hne with hy | hy
  · have hm := Nat.mul_le_mul_right P (floatMag_mono F (by omega : y ≤ z))
    omega
  · have hm := Nat.mul_le_mul_right P (floatMag_mono F (by omega : z + 1 + 1 ≤ y))
    omega

/-- with enough digits the nearest decimal reads back -/
theorem readsBack_near {F x P Q M : Nat} (hx : 0 < x) (hQ : 0 < Q)
    (hM : 2 ^ (F + 1) < M) (h : M * Q ≤ floatMag F x * P) :
    readsBack F x P Q (rneDiv (floatMag F x * P) Q) = true := by
  obtain ⟨z, rfl⟩ : ∃ z, x = z + 1 := ⟨x - 1, by omega⟩
  obtain ⟨b1, b2⟩ := rneDiv_bounds (floatMag F (z + 1) * P) Q hQ
  generalize rneDiv (floatMag F (z + 1) * P) Q = n at b1 b2
  have e : 2 * Q * n = 2 * n * Q := by rw [Nat.mul_assoc, Nat.mul_comm Q, Nat.mul_assoc]
  rw [e] at b1 b2
  -- the steps to both neighbours are larger than the distance of decimals
  have small : ∀ g, 0 < g → floatMag F (z + 1) ≤ 2 ^ (F + 1) * g → Q < g * P := by
    intro g hg hv
    rcases Nat.lt_or_ge Q (g * P) with hlt | hge
    · exact hlt
    · have h1 : M * Q ≤ 2 ^ (F + 1) * (g * P) := by
        rw [← Nat.mul_assoc]
        exact Nat.le_trans h (Nat.mul_le_mul_right P hv)
      have h2 := Nat.mul_le_mul_left (2 ^ (F + 1)) hge
      have h3 := Nat.mul_lt_mul_of_pos_right hM hQ
      omega
  have g1 := small (2 ^ (z / 2 ^ F - 1)) (Nat.pow_pos (by omega))
    (by rw [floatMag_succ]; exact floatMag_steps F z)
  have g2 := small (2 ^ ((z + 1) / 2 ^ F - 1)) (Nat.pow_pos (by omega))
    (Nat.le_trans (Nat.le_add_right _ _) (floatMag_steps F (z + 1)))
  have s1 : floatMag F (z + 1) * P = floatMag F z * P + 2 ^ (z / 2 ^ F - 1) * P := by
    rw [floatMag_succ, Nat.add_mul]
  have s2 : floatMag F (z + 1 + 1) * P = floatMag F (z + 1) * P + 2 ^ ((z + 1) / 2 ^ F - 1) * P := by
    rw [floatMag_succ F (z + 1), Nat.add_mul]
  unfold readsBack
  simp only [Nat.add_sub_cancel, Nat.add_mul]
  split
  · simp only [Bool.and_eq_true, decide_eq_true_eq]
    omega
  · simp only [Bool.and_eq_true, decide_eq_true_eq]
    omega

/-! ### the decimal exponent -/

theorem natDecF_length (f n : Nat) (h : n ≤ f) (h0 : 0 < n) : 10 ^ ((natDecF f n).length - 1) ≤ n := by
  induction f generalizing n with
  | zero => omega
  | succ f ih =>
    unfold natDecF
    split
    · simp only [List.length_singleton, Nat.sub_self, Nat.pow_zero]
      omega
    · have h1 := ih (n / 10) (by omega) (by omega)
      have hne : (natDecF f (n / 10)).length ≠ 0 := by
        cases f with
        | zero => simp [natDecF]
        | succ f => unfold natDecF; split <;> simp
      simp only [List.length_append, List.length_singleton, Nat.add_sub_cancel]
      obtain ⟨l, hl⟩ : ∃ l, (natDecF f (n / 10)).length = l + 1 := ⟨_, (Nat.succ_pred hne).symm⟩
      rw [hl] at h1 ⊢
      simp only [Nat.add_sub_cancel] at h1
      rw [Nat.pow_succ]
      omega

theorem natDec_length {n : Nat} (h0 : 0 < n) : 10 ^ ((natDec n).length - 1) ≤ n :=
  natDecF_length n n (Nat.le_refl _) h0

theorem low_aux {V U D nd L : Nat} (hD : 0 < D) (hnd : 0 < nd) (h1 : 10 ^ (D - 1) * U ≤ V * 10 ^ L) :
    10 ^ (nd - 1) * (U * 10 ^ (-((nd : Int) - ((D : Int) - (L : Int)))).toNat)
      ≤ V * 10 ^ ((nd : Int) - ((D : Int) - (L : Int))).toNat := by
  have hT : 0 < 10 ^ L := Nat.pow_pos (by omega)
  by_cases hc : D ≤ nd + L
  · have e1 : (-((nd : Int) - ((D : Int) - (L : Int)))).toNat = 0 := by omega
    have e2 : ((nd : Int) - ((D : Int) - (L : Int))).toNat = nd + L - D := by omega
    rw [e1, e2, Nat.pow_zero, Nat.mul_one]
    have h2 := Nat.mul_le_mul_right (10 ^ (nd + L - D)) h1
    have h3 : 10 ^ (D - 1) * U * 10 ^ (nd + L - D) = 10 ^ (nd - 1) * U * 10 ^ L := by
      rw [Nat.mul_right_comm, ← Nat.pow_add, Nat.mul_right_comm (10 ^ (nd - 1)), ← Nat.pow_add]
      congr 2
      omega
    have h4 : V * 10 ^ L * 10 ^ (nd + L - D) = V * 10 ^ (nd + L - D) * 10 ^ L := Nat.mul_right_comm _ _ _
    rw [h3, h4] at h2
    exact Nat.le_of_mul_le_mul_right h2 hT
  · have e1 : (-((nd : Int) - ((D : Int) - (L : Int)))).toNat = D - L - nd := by omega
    have e2 : ((nd : Int) - ((D : Int) - (L : Int))).toNat = 0 := by omega
    rw [e1, e2, Nat.pow_zero, Nat.mul_one]
    have h3 : 10 ^ (D - 1) * U = 10 ^ (nd - 1) * (U * 10 ^ (D - L - nd)) * 10 ^ L := by
      have : 10 ^ (D - 1) = 10 ^ (nd - 1) * 10 ^ (D - L - nd) * 10 ^ L := by
        rw [← Nat.pow_add, ← Nat.pow_add]
        congr 1
        omega
      rw [this, Nat.mul_comm U, ← Nat.mul_assoc]
      exact Nat.mul_right_comm _ _ _
    rw [h3] at h1
    exact Nat.le_of_mul_le_mul_right h1 hT

theorem exp_aux {V U L D : Nat} (hU : 0 < U) (hL : U ≤ 10 ^ L) (hV : 0 < V)
    (hD : D = (natDec (V * 10 ^ L / U)).length) : 0 < D ∧ 10 ^ (D - 1) * U ≤ V * 10 ^ L := by
  have hw : 0 < V * 10 ^ L / U := by
    rw [Nat.div_pos_iff]
    exact ⟨hU, Nat.le_trans hL (Nat.le_mul_of_pos_left _ hV)⟩
  have hne := natDec_ne_nil (V * 10 ^ L / U)
  rw [← List.length_pos_iff] at hne
  subst hD
  exact ⟨hne, (Nat.le_div_iff_mul_le hU).mp (natDec_length hw)⟩

/-- with `nd` digits, the number is at least `10^(nd-1)` units of the last digit -/
theorem decExp_low {F E x nd : Nat} (hE : 2 ^ E ≤ 10 ^ 400) (hx : 0 < floatMag F x) (hnd : 0 < nd) :
    10 ^ (nd - 1) * (2 ^ E * 10 ^ (-((nd : Int) - decExp F E x)).toNat)
      ≤ floatMag F x * 10 ^ ((nd : Int) - decExp F E x).toNat := by
  obtain ⟨h1, h2⟩ := exp_aux (L := 400) (Nat.pow_pos (by omega) : 0 < 2 ^ E) hE hx rfl
  exact low_aux (L := 400) h1 hnd h2

/-- the decimal that is found reads back -/
theorem shortestF_readsBack {F E x : Nat} (hE : 2 ^ E ≤ 10 ^ 400) (hx : 0 < x) (left nd : Nat)
    (hnd : 0 < nd) (hN : 2 ^ (F + 1) < 10 ^ (nd + left - 1)) :
    readsBack F x (10 ^ (-(shortestF F E x (decExp F E x) left nd).2).toNat)
      (2 ^ E * 10 ^ (shortestF F E x (decExp F E x) left nd).2.toNat)
      (shortestF F E x (decExp F E x) left nd).1 = true := by
  induction left generalizing nd with
  | zero =>
    unfold shortestF
    simp only [Int.neg_neg]
    have hpos : 0 < floatMag F x := by
      obtain ⟨z, rfl⟩ : ∃ z, x = z + 1 := ⟨x - 1, by omega⟩
      have := floatMag_lt_succ F z
      omega
    exact readsBack_near hx (Nat.mul_pos (Nat.pow_pos (by omega)) (Nat.pow_pos (by omega)))
      hN (decExp_low hE hpos hnd)
  | succ left ih =>
    unfold shortestF
    dsimp only
    split
    · rename_i h
      rw [Int.neg_neg]
      exact h
    · split
      · rename_i h
        rw [Int.neg_neg]
        exact h
      · have e : nd + 1 + left - 1 = nd + (left + 1) - 1 := by omega
        exact ih (nd + 1) (Nat.succ_pos _) (by rw [e]; exact hN)

/-! ### decimals with the same value -/

/-- the rounding depends on the value of the decimal only -/
theorem roundsTo_congr {mag : Nat → Nat} {u top n n' x : Nat} {k k' : Int}
    (h : n * 10 ^ k.toNat * 10 ^ (-k').toNat = n' * 10 ^ k'.toNat * 10 ^ (-k).toNat)
    (hr : RoundsTo mag u top n k x) : RoundsTo mag u top n' k' x := by
  intro y hy hne
  have key : ∀ m, gap (n * 10 ^ k.toNat * 2 ^ u) (m * 10 ^ (-k).toNat) * 10 ^ (-k').toNat
      = gap (n' * 10 ^ k'.toNat * 2 ^ u) (m * 10 ^ (-k').toNat) * 10 ^ (-k).toNat := by
    intro m
    have scale : ∀ a b c : Nat, gap a b * c = gap (a * c) (b * c) := by
      intro a b c
      unfold gap
      rw [Nat.add_mul, Nat.sub_mul, Nat.sub_mul]
    rw [scale, scale, Nat.mul_right_comm _ (2 ^ u), Nat.mul_right_comm _ (2 ^ u), h,
      Nat.mul_right_comm m]
  have p1 : 0 < 10 ^ (-k').toNat := Nat.pow_pos (by omega)
  have p2 : 0 < 10 ^ (-k).toNat := Nat.pow_pos (by omega)
  have kx := key (mag x)
  have ky := key (mag y)
  rcases hr y hy hne with hlt | ⟨heq, hev⟩
  · left
    have := Nat.mul_lt_mul_of_pos_right hlt p1
    rw [kx, ky] at this
    exact Nat.lt_of_mul_lt_mul_right this
  · right
    rw [heq, ky] at kx
    exact ⟨(Nat.eq_of_mul_eq_mul_right p2 kx).symm, hev⟩

theorem stripZeros_roundsTo {mag : Nat → Nat} {u top x : Nat} (f n : Nat) (k : Int)
    (hr : RoundsTo mag u top n k x) :
    RoundsTo mag u top (stripZeros f n k).1 (stripZeros f n k).2 x := by
  induction f generalizing n k with
  | zero => exact hr
  | succ f ih =>
    unfold stripZeros
    split
    · rename_i h0
      refine ih _ _ (roundsTo_congr ?_ hr)
      have hn : n = n / 10 * 10 := by omega
      by_cases hk : 0 ≤ k
      · have e1 : (k + 1).toNat = k.toNat + 1 := by omega
        have e2 : (-(k + 1)).toNat = 0 := by omega
        have e3 : (-k).toNat = 0 := by omega
        rw [e1, e2, e3, Nat.pow_zero, Nat.mul_one, Nat.mul_one, Nat.pow_succ, Nat.mul_comm (10 ^ k.toNat),
          ← Nat.mul_assoc, ← hn]
      · have e1 : (k + 1).toNat = 0 := by omega
        have e2 : k.toNat = 0 := by omega
        have e3 : (-k).toNat = (-(k + 1)).toNat + 1 := by omega
        rw [e1, e2, e3, Nat.pow_zero, Nat.mul_one, Nat.mul_one, Nat.pow_succ,
          Nat.mul_comm (10 ^ (-(k + 1)).toNat) 10, ← Nat.mul_assoc, ← hn]
    · exact hr

/-! ### reading the text -/

theorem isNumeral_iff {c : Char} : isNumeral c = true ↔ isDigitC c := by
  unfold isNumeral isDigitC
  rw [Bool.and_eq_true, decide_eq_true_eq, decide_eq_true_eq]

theorem natDec_numerals (n : Nat) : ∀ c ∈ natDec n, isNumeral c = true :=
  fun c hc => isNumeral_iff.mpr (natDec_chars n c hc)

theorem numeral_from (l : Str) (a : Nat) :
    l.foldl (fun a c => a * 10 + (c.toNat - 48)) a = a * 10 ^ l.length + numeral l := by
  unfold numeral
  induction l generalizing a with
  | nil => simp
  | cons c l ih =>
    simp only [List.foldl_cons, List.length_cons]
    rw [ih, ih (0 * 10 + (c.toNat - 48)), Nat.pow_succ, Nat.add_mul, Nat.zero_mul, Nat.zero_add]
    have : a * (10 ^ l.length * 10) = a * 10 * 10 ^ l.length := by
      rw [Nat.mul_comm (10 ^ l.length), Nat.mul_assoc]
    omega

theorem numeral_append (a b : Str) : numeral (a ++ b) = numeral a * 10 ^ b.length + numeral b := by
  conv => lhs; unfold numeral
  rw [List.foldl_append, numeral_from]
  rfl

theorem numeral_digitC {d : Nat} (h : d < 10) : numeral [digitC d] = d := by
  unfold numeral
  simp only [List.foldl_cons, List.foldl_nil, digitC_toNat h]
  omega

theorem numeral_natDecF (f n : Nat) (h : n ≤ f) : numeral (natDecF f n) = n := by
  induction f generalizing n with
  | zero =>
    have : n = 0 := by omega
    subst this
    exact numeral_digitC (by omega)
  | succ f ih =>
    unfold natDecF
    split
    · rename_i h
      exact numeral_digitC h
    · rw [numeral_append, ih _ (by omega), numeral_digitC (Nat.mod_lt _ (by omega))]
      simp only [List.length_singleton, Nat.pow_one]
      omega

theorem numeral_natDec (n : Nat) : numeral (natDec n) = n := numeral_natDecF n n (Nat.le_refl _)

theorem numeral_zeros (m : Nat) : numeral (List.replicate m '0') = 0 := by
  induction m with
  | zero => rfl
  | succ m ih =>
    rw [List.replicate_succ', numeral_append, ih]
    simp [numeral]

theorem numerals_zeros (m : Nat) : ∀ c ∈ List.replicate m '0', isNumeral c = true := by
  intro c hc
  rw [(List.mem_replicate.mp hc).2]
  decide

theorem takeWhile_numerals {a b : Str} (ha : ∀ c ∈ a, isNumeral c = true)
    (hb : b.takeWhile isNumeral = []) : (a ++ b).takeWhile isNumeral = a := by
  rw [List.takeWhile_append_of_pos ha, hb, List.append_nil]

theorem dropWhile_numerals {a b : Str} (ha : ∀ c ∈ a, isNumeral c = true)
    (hb : b.takeWhile isNumeral = []) : (a ++ b).dropWhile isNumeral = b := by
  rw [List.dropWhile_append_of_pos ha]
  have := List.takeWhile_append_dropWhile (p := isNumeral) (l := b)
  rw [hb, List.nil_append] at this
  exact this

/-- digits, a point, digits and an exponent -/
theorem readUnsigned_point {ip fp ex : Str} {e : Int} (h1 : ip ≠ []) (h2 : ∀ c ∈ ip, isNumeral c = true)
    (h3 : ∀ c ∈ fp, isNumeral c = true) (h4 : ex.takeWhile isNumeral = [])
    (h5 : readExponent ex = some e) :
    readUnsigned (ip ++ '.' :: (fp ++ ex)) = some (numeral (ip ++ fp), e - fp.length) := by
  have hp : ('.' :: (fp ++ ex)).takeWhile isNumeral = [] := by
    rw [List.takeWhile_cons_of_neg (by decide)]
  unfold readUnsigned
  dsimp only
  rw [takeWhile_numerals h2 hp, dropWhile_numerals h2 hp, if_neg h1]
  show (readExponent ((fp ++ ex).dropWhile isNumeral)).map _ = _
  rw [takeWhile_numerals h3 h4, dropWhile_numerals h3 h4, h5]
  rfl

/-- digits and an exponent -/
theorem readUnsigned_plain {ip ex : Str} {e : Int} (h1 : ip ≠ []) (h2 : ∀ c ∈ ip, isNumeral c = true)
    (h4 : ex.takeWhile isNumeral = []) (h6 : ∀ r, ex ≠ '.' :: r)
    (h5 : readExponent ex = some e) :
    readUnsigned (ip ++ ex) = some (numeral ip, e) := by
  unfold readUnsigned
  dsimp only
  rw [takeWhile_numerals h2 h4, dropWhile_numerals h2 h4, if_neg h1]
  split
  · rename_i r
    exact absurd rfl (h6 r)
  · rw [h5]
    rfl

theorem readExponent_text (e : Int) :
    readExponent ('e' :: (if e < 0 then '-' else '+') :: atLeast2 e.natAbs) = some e := by
  have h1 : atLeast2 e.natAbs ≠ [] := by
    unfold atLeast2
    split
    · simp
    · exact natDec_ne_nil _
  have h2 : (atLeast2 e.natAbs).all isNumeral = true := by
    rw [List.all_eq_true]
    unfold atLeast2
    split
    · intro c hc
      rcases List.mem_cons.mp hc with rfl | hc
      · decide
      · exact natDec_numerals _ c hc
    · exact natDec_numerals _
  have h3 : numeral (atLeast2 e.natAbs) = e.natAbs := by
    unfold atLeast2
    split
    · have := numeral_append ['0'] (natDec e.natAbs)
      rw [numeral_natDec, show numeral ['0'] = 0 from rfl] at this
      rw [List.singleton_append] at this
      omega
    · exact numeral_natDec _
  by_cases he : e < 0
  · rw [if_pos he]
    show (if _ then some (-(numeral (atLeast2 e.natAbs) : Int)) else none) = _
    rw [if_pos ⟨h1, h2⟩, h3]
    congr 1
    omega
  · rw [if_neg he]
    show (if _ then some (numeral (atLeast2 e.natAbs) : Int) else none) = _
    rw [if_pos ⟨h1, h2⟩, h3]
    congr 1
    omega

/-- what a reader makes of the layout -/
theorem layout_reads (sci : Bool) (n : Nat) (k : Int) :
    ∃ n' k', readUnsigned (layout sci n k) = some (n', k') ∧
      n * 10 ^ k.toNat * 10 ^ (-k').toNat = n' * 10 ^ k'.toNat * 10 ^ (-k).toNat := by
  have hds := natDec_numerals n
  have hn := numeral_natDec n
  have hne := natDec_ne_nil n
  unfold layout
  generalize natDec n = ds at hds hn hne
  dsimp only
  have noexp : ([] : Str).takeWhile isNumeral = [] := rfl
  split
  · -- exponent
    obtain ⟨c, rest, rfl⟩ := List.exists_cons_of_ne_nil hne
    refine ⟨n, k, ?_, rfl⟩
    have hex : ∀ s : Str, ('e' :: s).takeWhile isNumeral = [] := by
      intro s
      rw [List.takeWhile_cons_of_neg (by decide)]
    have h1 : ∀ d ∈ [c], isNumeral d = true := fun d hd => hds d (by simp at hd; simp [hd])
    have h2 : ∀ d ∈ rest, isNumeral d = true := fun d hd => hds d (by simp [hd])
    cases rest with
    | nil =>
      have := readUnsigned_plain (by simp) h1 (hex _) (by intro r hr; cases hr)
        (readExponent_text (((([c] : Str).length : Nat) : Int) + k - 1))
      rw [hn] at this
      simp only [List.length_singleton] at this ⊢
      simp only [List.take_succ_cons, List.take_zero, Nat.lt_irrefl, if_false, List.append_nil]
      rw [this]
      congr 2
      omega
    | cons d rest =>
      have := readUnsigned_point (by simp) h1 h2 (hex _)
        (readExponent_text ((((c :: d :: rest).length : Nat) : Int) + k - 1))
      rw [List.singleton_append, List.singleton_append, hn] at this
      rw [if_pos (by simp)]
      simp only [List.take_succ_cons, List.take_zero, List.drop_succ_cons, List.drop_zero,
        List.cons_append, List.nil_append] at this ⊢
      rw [this]
      congr 2
      simp only [List.length_cons]
      omega
  · split
    · -- leading zeros
      rename_i hp
      refine ⟨n, k, ?_, rfl⟩
      have hz : ∀ c ∈ List.replicate (-((ds.length : Int) + k)).toNat '0' ++ ds, isNumeral c = true := by
        intro c hc
        rcases List.mem_append.mp hc with hc | hc
        · exact numerals_zeros _ c hc
        · exact hds c hc
      have := readUnsigned_point (ip := ['0']) (ex := []) (by simp) (by decide) hz noexp rfl
      rw [List.append_nil, List.singleton_append] at this
      rw [this]
      congr 2
      · rw [numeral_append, numeral_append, numeral_zeros, hn, show numeral ['0'] = 0 from rfl]
        omega
      · rw [List.length_append, List.length_replicate]
        omega
    · split
      · -- a point inside the digits
        rename_i hp hl
        refine ⟨n, k, ?_, rfl⟩
        have ht : ∀ c ∈ ds.take ((ds.length : Int) + k).toNat, isNumeral c = true :=
          fun c hc => hds c (List.mem_of_mem_take hc)
        have hd : ∀ c ∈ ds.drop ((ds.length : Int) + k).toNat, isNumeral c = true :=
          fun c hc => hds c (List.mem_of_mem_drop hc)
        have hnil : ds.take ((ds.length : Int) + k).toNat ≠ [] := by
          intro h
          have := congrArg List.length h
          rw [List.length_take, List.length_nil] at this
          omega
        have := readUnsigned_point (ex := []) hnil ht hd noexp rfl
        rw [List.append_nil, List.take_append_drop, hn] at this
        rw [this]
        congr 2
        rw [List.length_drop]
        omega
      · -- trailing zeros
        rename_i hp hl
        have hz : ∀ c ∈ ds ++ List.replicate ((ds.length : Int) + k - (ds.length : Int)).toNat '0',
            isNumeral c = true := by
          intro c hc
          rcases List.mem_append.mp hc with hc | hc
          · exact hds c hc
          · exact numerals_zeros _ c hc
        have := readUnsigned_point (fp := ['0']) (ex := []) (by simp [hne]) hz (by decide) noexp rfl
        refine ⟨_, _, this, ?_⟩
        have e1 : ((ds.length : Int) + k - (ds.length : Int)).toNat = k.toNat := by omega
        have e2 : (-k).toNat = 0 := by omega
        rw [e1, e2, numeral_append, numeral_append, numeral_zeros, hn, List.length_replicate]
        simp [numeral]

theorem readNumber_of {s : Str} {p : Nat × Int} (h : readUnsigned s = some p) :
    readNumber s = some (false, p) := by
  unfold readNumber
  split
  · rename_i r
    unfold readUnsigned at h
    dsimp only at h
    rw [List.takeWhile_cons_of_neg (by decide), if_pos rfl] at h
    cases h
  · rw [h]
    rfl

theorem readNumber_neg {s : Str} {p : Nat × Int} (h : readUnsigned s = some p) :
    readNumber ('-' :: s) = some (true, p) := by
  show (readUnsigned s).map _ = _
  rw [h]
  rfl

/-- the text of an integer stands for the integer -/
theorem intDec_reads (n : Int) : ReadsAsInt (intDec n) n := by
  have h : readUnsigned (natDec n.natAbs) = some (n.natAbs, 0) := by
    have := readUnsigned_plain (ex := []) (natDec_ne_nil n.natAbs) (natDec_numerals n.natAbs) rfl
      (by intro r hr; cases hr) rfl
    rw [List.append_nil, numeral_natDec] at this
    exact this
  unfold ReadsAsInt intDec
  by_cases hn : n < 0
  · rw [if_pos hn, readNumber_neg h, decide_eq_true hn]
  · rw [if_neg hn, readNumber_of h, decide_eq_false hn]

/-- the text of a positive finite float reads back -/
theorem layout_roundsTo {F E top x N : Nat} (sci : Bool) (hE : 2 ^ E ≤ 10 ^ 400) (hx : 0 < x) (hN : 0 < N)
    (hF : 2 ^ (F + 1) < 10 ^ (N - 1)) :
    ∃ n k, readUnsigned (layout sci
        (stripZeros N (shortestF F E x (decExp F E x) (N - 1) 1).1
          (shortestF F E x (decExp F E x) (N - 1) 1).2).1
        (stripZeros N (shortestF F E x (decExp F E x) (N - 1) 1).1
          (shortestF F E x (decExp F E x) (N - 1) 1).2).2) = some (n, k) ∧
      RoundsTo (floatMag F) E top n k x := by
  have h1 := shortestF_readsBack hE hx (N - 1) 1 (by omega)
    (by rw [show 1 + (N - 1) - 1 = N - 1 by omega]; exact hF)
  have h2 := stripZeros_roundsTo N _ _ (roundsTo_of_readsBack (top := top) hx h1)
  obtain ⟨n, k, hr, he⟩ := layout_reads sci
    (stripZeros N (shortestF F E x (decExp F E x) (N - 1) 1).1
      (shortestF F E x (decExp F E x) (N - 1) 1).2).1
    (stripZeros N (shortestF F E x (decExp F E x) (N - 1) 1).1
      (shortestF F E x (decExp F E x) (N - 1) 1).2).2
  exact ⟨n, k, hr, roundsTo_congr he h2⟩

end PyULog
