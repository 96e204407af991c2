import Verif.Lemmas.Flatten
/-
Decimal numbers: `int(str(n)) = n`, and the characters of `str(n)`.
-/
namespace PyULog

/-- an ASCII digit -/
def isDigitC (c : Char) : Prop := 48 ≤ c.toNat ∧ c.toNat ≤ 57

theorem digitC_toNat {d : Nat} (h : d < 10) : (digitC d).toNat = 48 + d := by
  have : ∀ d : Fin 10, (digitC d.1).toNat = 48 + d.1 := by decide
  exact this ⟨d, h⟩

theorem digitVal_digitC {d : Nat} (h : d < 10) : digitVal (digitC d) = some d := by
  have : ∀ d : Fin 10, digitVal (digitC d.1) = some d.1 := by decide
  exact this ⟨d, h⟩

theorem digitC_ne {d : Nat} (h : d < 10) {c : Char} (hc : ¬ isDigitC c) : digitC d ≠ c := by
  intro he
  apply hc
  rw [← he]
  unfold isDigitC
  rw [digitC_toNat h]
  omega

theorem natDecF_chars (f n : Nat) : ∀ c ∈ natDecF f n, isDigitC c := by
  have key : ∀ d, d < 10 → isDigitC (digitC d) := by
    intro d hd
    unfold isDigitC
    rw [digitC_toNat hd]
    omega
  induction f generalizing n with
  | zero =>
    intro c hc
    simp only [natDecF, List.mem_singleton] at hc
    subst hc
    exact key _ (Nat.mod_lt _ (by omega))
  | succ f ih =>
    intro c hc
    unfold natDecF at hc
    split at hc
    · simp only [List.mem_singleton] at hc
      subst hc
      exact key _ (by omega)
    · rcases List.mem_append.mp hc with hc | hc
      · exact ih _ c hc
      · simp only [List.mem_singleton] at hc
        subst hc
        exact key _ (Nat.mod_lt _ (by omega))

theorem natDec_chars (n : Nat) : ∀ c ∈ natDec n, isDigitC c := natDecF_chars n n

theorem natDec_ne_nil (n : Nat) : natDec n ≠ [] := by
  unfold natDec
  cases n with
  | zero => simp [natDecF]
  | succ n =>
    unfold natDecF
    split <;> simp

theorem natDec_not_mem (n : Nat) {c : Char} (hc : ¬ isDigitC c) : c ∉ natDec n :=
  fun h => hc (natDec_chars n c h)

theorem parseDigits_natDecF (f n : Nat) (h : n ≤ f) (prev : Bool) (acc : Nat) (rest : Str) :
    parseDigits prev acc (natDecF f n ++ rest)
      = parseDigits true (acc * 10 ^ (natDecF f n).length + n) rest := by
  have step : ∀ (prev : Bool) (acc d : Nat) (rest : Str), d < 10 →
      parseDigits prev acc (digitC d :: rest) = parseDigits true (acc * 10 + d) rest := by
    intro prev acc d rest hd
    rw [parseDigits, if_neg (digitC_ne hd (by unfold isDigitC; decide)), digitVal_digitC hd]
  induction f generalizing n prev acc rest with
  | zero =>
    have : n = 0 := by omega
    subst this
    simp only [natDecF, List.cons_append, List.nil_append, List.length_singleton]
    rw [step _ _ _ _ (by omega)]
  | succ f ih =>
    unfold natDecF
    split
    · rename_i hn
      simp only [List.cons_append, List.nil_append, List.length_singleton]
      rw [step _ _ _ _ hn]
    · rw [List.append_assoc, ih (n / 10) (by omega)]
      simp only [List.cons_append, List.nil_append, List.length_append, List.length_singleton]
      rw [step _ _ _ _ (Nat.mod_lt _ (by omega)), Nat.pow_succ]
      congr 1
      have : acc * (10 ^ (natDecF f (n / 10)).length * 10) = acc * 10 ^ (natDecF f (n / 10)).length * 10 := by
        rw [Nat.mul_assoc]
      omega

theorem parseDigits_natDec (n : Nat) : parseDigits false 0 (natDec n) = some n := by
  have := parseDigits_natDecF n n (Nat.le_refl _) false 0 []
  rw [List.append_nil] at this
  unfold natDec
  rw [this]
  simp [parseDigits]

theorem dropWhile_none {p : α → Bool} {l : List α} (h : ∀ a ∈ l, p a = false) : l.dropWhile p = l := by
  cases l with
  | nil => rfl
  | cons a as => rw [List.dropWhile_cons_of_neg]; simp [h a (by simp)]

/-- `int(str(n)) = n` -/
theorem pyInt_natDec (n : Nat) : pyInt (natDec n) = .ok (n : Int) := by
  have hsp : ∀ c ∈ natDec n, isIntSpace c = false := by
    intro c hc
    have := natDec_chars n c hc
    unfold isDigitC at this
    unfold isIntSpace isSpaceC
    simp
    omega
  have hp := parseDigits_natDec n
  have hch := natDec_chars n
  unfold pyInt
  rw [dropWhile_none hsp, dropWhile_none (fun a ha => hsp a (by simpa using ha)), List.reverse_reverse]
  revert hp hch
  generalize natDec n = l
  intro hp hch
  dsimp only
  split
  · rename_i ds
    exact absurd (hch '-' (by simp)) (by unfold isDigitC; decide)
  · rename_i ds
    exact absurd (hch '+' (by simp)) (by unfold isDigitC; decide)
  · rw [hp]

theorem natDec_inj {a b : Nat} (h : natDec a = natDec b) : a = b := by
  have h1 := parseDigits_natDec a
  rw [h, parseDigits_natDec b] at h1
  injection h1 with h1
  exact h1.symm

end PyULog
