import Verif.Lemmas.NumberText
import Verif.Lemmas.LoadedFits
import Verif.Props.Csv
import Verif.Props.Names
/-
Property theorems: C84 (the numbers in the text outputs stand for the logged values).
-/
namespace PyULog
open Spec

/-! ### one number -/

theorem roundsTo_mag {mag mag' : Nat → Nat} {u top n x : Nat} {k : Int} (h : ∀ y, y ≤ top → mag y = mag' y)
    (hx : x ≤ top) (hr : RoundsTo mag u top n k x) : RoundsTo mag' u top n k x := by
  intro y hy hne
  have := hr y hy hne
  rw [h x hx, h y hy] at this
  exact this

theorem roundsTo_zero {mag : Nat → Nat} {u top : Nat} (h0 : mag 0 = 0) (h : ∀ y, y ≤ top → y ≠ 0 → 0 < mag y) :
    RoundsTo mag u top 0 (-1) 0 := by
  intro y hy hne
  left
  have := h y hy hne
  unfold gap
  rw [h0]
  have : 0 < mag y * 10 ^ (- (-1 : Int)).toNat := Nat.mul_pos this (Nat.pow_pos (by omega))
  omega

theorem floatMag_pos {F x : Nat} (h : x ≠ 0) : 0 < floatMag F x := by
  obtain ⟨z, rfl⟩ := Nat.exists_eq_succ_of_ne_zero h
  exact Nat.lt_of_le_of_lt (Nat.zero_le _) (floatMag_lt_succ F z)

theorem floatMag_zero (F : Nat) : floatMag F 0 = 0 := by
  unfold floatMag
  rw [Nat.zero_div, if_pos rfl, Nat.zero_mod]

theorem pow_1074 : 2 ^ 1074 ≤ 10 ^ 400 := by decide +kernel
theorem pow_149 : 2 ^ 149 ≤ 10 ^ 400 := by decide +kernel

theorem readSigned {s : Str} {p : Nat × Int} {b : Bool} (h : readUnsigned s = some p) :
    readNumber ((if b then ['-'] else []) ++ s) = some (b, p) := by
  cases b with
  | true => exact readNumber_neg h
  | false => exact readNumber_of h

theorem floatText_finite {W F E N bits top : Nat} (hE : 2 ^ E ≤ 10 ^ 400) (hN : 0 < N)
    (hF : 2 ^ (F + 1) < 10 ^ (N - 1)) (hx : bits % 2 ^ (W - 1) / 2 ^ F ≠ 2 ^ (W - 1 - F) - 1) :
    ∃ n k, readNumber (floatText W F E N bits) = some (decide (2 ^ (W - 1) ≤ bits), n, k) ∧
      RoundsTo (floatMag F) E top n k (bits % 2 ^ (W - 1)) := by
  have hsign : (if 2 ^ (W - 1) ≤ bits then (['-'] : Str) else [])
      = if decide (2 ^ (W - 1) ≤ bits) = true then ['-'] else [] := by
    by_cases h : 2 ^ (W - 1) ≤ bits <;> simp [h]
  unfold floatText
  dsimp only
  rw [if_neg hx, hsign]
  split
  · rename_i h0
    refine ⟨0, -1, readSigned (by decide), ?_⟩
    rw [h0]
    exact roundsTo_zero (floatMag_zero F) (fun y _ hy => floatMag_pos hy)
  · rename_i h0
    obtain ⟨n, k, h1, h2⟩ := layout_roundsTo (top := top) (scientific F E _) hE (Nat.pos_of_ne_zero h0) hN hF
    exact ⟨n, k, readSigned h1, h2⟩

/-- **C84**, 64-bit floats: a reader that returns the float closest to the printed decimal number gets
exactly the value that was printed, with its sign. -/
theorem C84_float64 {bits : Nat} (hb : bits < 2 ^ 64) : ReadsAs64 (f64Text bits) bits := by
  have hx : bits % 2 ^ 63 < 2 ^ 63 := Nat.mod_lt _ (by omega)
  have e1 : exp64 bits = bits % 2 ^ 63 / 2 ^ 52 := by unfold exp64; omega
  have e2 : frac64 bits = bits % 2 ^ 63 % 2 ^ 52 := by unfold frac64; omega
  have e3 : sign64 bits ≠ 0 ↔ 2 ^ 63 ≤ bits := by unfold sign64; omega
  unfold ReadsAs64
  split
  · rename_i he
    rw [e1] at he
    unfold f64Text floatText
    dsimp only
    rw [if_pos (by exact he), e2]
    by_cases hf : bits % 2 ^ 63 % 2 ^ 52 = 0
    · rw [if_pos (by exact hf), if_neg (not_not_intro hf)]
      by_cases hs : 2 ^ 63 ≤ bits
      · rw [if_pos (by exact hs), if_neg (e3.mpr hs)]
        rfl
      · rw [if_neg (by exact hs), if_pos (Decidable.not_not.mp (fun h => hs (e3.mp h)))]
        rfl
    · rw [if_neg (by exact hf), if_pos hf]
  · rename_i he
    rw [e1] at he
    obtain ⟨n, k, h1, h2⟩ := floatText_finite (W := 64) (F := 52) (N := 17) (bits := bits)
      (top := 2047 * 2 ^ 52) pow_1074 (by decide) (by decide) he
    refine ⟨n, k, ?_, roundsTo_mag ?_ ?_ h2⟩
    · rw [show f64Text bits = floatText 64 52 1074 17 bits from rfl, h1]
      congr 2
      exact decide_eq_decide.mpr e3.symm
    · intro y hy
      exact (mag64_floatMag (by omega)).symm
    · show bits % 2 ^ 63 ≤ _
      omega

/-- **C84**, 32-bit floats, which are printed with fewer digits. -/
theorem C84_float32 {bits : Nat} (hb : bits < 2 ^ 32) : ReadsAs32 (f32Text bits) bits := by
  have hx : bits % 2 ^ 31 < 2 ^ 31 := Nat.mod_lt _ (by omega)
  have e1 : exp32 bits = bits % 2 ^ 31 / 2 ^ 23 := by unfold exp32; omega
  have e2 : frac32 bits = bits % 2 ^ 31 % 2 ^ 23 := by unfold frac32; omega
  have e3 : sign32 bits ≠ 0 ↔ 2 ^ 31 ≤ bits := by unfold sign32; omega
  unfold ReadsAs32
  split
  · rename_i he
    rw [e1] at he
    unfold f32Text floatText
    dsimp only
    rw [if_pos (by exact he), e2]
    by_cases hf : bits % 2 ^ 31 % 2 ^ 23 = 0
    · rw [if_pos (by exact hf), if_neg (not_not_intro hf)]
      by_cases hs : 2 ^ 31 ≤ bits
      · rw [if_pos (by exact hs), if_neg (e3.mpr hs)]
        rfl
      · rw [if_neg (by exact hs), if_pos (Decidable.not_not.mp (fun h => hs (e3.mp h)))]
        rfl
    · rw [if_neg (by exact hf), if_pos hf]
  · rename_i he
    rw [e1] at he
    obtain ⟨n, k, h1, h2⟩ := floatText_finite (W := 32) (F := 23) (N := 9) (bits := bits)
      (top := 255 * 2 ^ 23) pow_149 (by decide) (by decide) he
    refine ⟨n, k, ?_, roundsTo_mag ?_ ?_ h2⟩
    · rw [show f32Text bits = floatText 32 23 149 9 bits from rfl, h1]
      congr 2
      exact decide_eq_decide.mpr e3.symm
    · intro y hy
      exact (mag32_floatMag (by omega)).symm
    · show bits % 2 ^ 31 ≤ _
      omega

/-- **C84**, integers -/
theorem C84_int (n : Int) : ReadsAsInt (intDec n) n := intDec_reads n

/-- the pattern fits into the format -/
def Spec.PatternOk : NpVal → Prop
  | .int _ => True
  | .f32 b => b < 2 ^ 32
  | .f64 b => b < 2 ^ 64

/-- **C84**, array elements -/
theorem C84_element {v : NpVal} (h : PatternOk v) : ReadsAs (npText v) v := by
  cases v with
  | int n => exact C84_int n
  | f32 b => exact C84_float32 h
  | f64 b => exact C84_float64 h

/-- examples: a tenth as 64-bit and as 32-bit float, the 32-bit tenth as 64-bit float, the smallest and the largest number,
the last number before the exponent notation and the first one in it -/
example : f64Text 0x3fb999999999999a = py! "0.1" ∧ f32Text 0x3dcccccd = py! "0.1" ∧
    f64Text 0x3fb99999a0000000 = py! "0.10000000149011612" ∧ f64Text 1 = py! "5e-324" ∧
    f64Text 0xffefffffffffffff = py! "-1.7976931348623157e+308" ∧ f64Text 0x4340000000000000 = py! "9007199254740992.0" ∧
    f64Text 0x4341c37937e08000 = py! "1e+16" ∧ f64Text 0x3f1a36e2eb1c432d = py! "0.0001" ∧
    f64Text 0x3ee4f8b588e368f1 = py! "1e-05" ∧ f64Text 0x8000000000000000 = py! "-0.0" := by decide +kernel

/-! ### the text determines the value -/

theorem roundsTo_unique {F u top n x y : Nat} {k : Int} (hx : x ≤ top) (hy : y ≤ top)
    (h1 : RoundsTo (floatMag F) u top n k x) (h2 : RoundsTo (floatMag F) u top n k y) : x = y := by
  have key : ∀ x y, x < y → y ≤ top → RoundsTo (floatMag F) u top n k x → RoundsTo (floatMag F) u top n k y → False := by
    intro x y hlt hy h1 h2
    have a1 := h1 y hy (by omega)
    have a2 := h2 x (by omega) (by omega)
    have hev : x % 2 = 0 ∧ y % 2 = 0 := by omega
    have a3 := h1 (x + 1) (by omega) (by omega)
    have hP : 0 < 10 ^ (-k).toNat := Nat.pow_pos (by omega)
    have b1 := Nat.mul_lt_mul_of_pos_right (floatMag_lt_succ F x) hP
    have b2 := Nat.mul_lt_mul_of_pos_right (floatMag_lt_succ F (x + 1)) hP
    have b3 := Nat.mul_le_mul_right (10 ^ (-k).toNat) (floatMag_mono F (by omega : x + 1 + 1 ≤ y))
    unfold gap at a1 a2 a3
    omega
  rcases Nat.lt_trichotomy x y with h | h | h
  · exact (key x y h hy h1 h2).elim
  · exact h
  · exact (key y x h hx h2 h1).elim

/-- not a number -/
def Spec.isNaN64 (b : Nat) : Prop := exp64 b = 2047 ∧ frac64 b ≠ 0
def Spec.isNaN32 (b : Nat) : Prop := exp32 b = 255 ∧ frac32 b ≠ 0

theorem noNumber {s : Str} (h : s = py! "nan" ∨ s = py! "inf" ∨ s = py! "-inf") : readNumber s = none := by
  rcases h with rfl | rfl | rfl <;> decide

theorem special_text (p : Nat) (q : Nat) :
    (if p ≠ 0 then py! "nan" else if q = 0 then py! "inf" else py! "-inf") = py! "nan" ∨
    (if p ≠ 0 then py! "nan" else if q = 0 then py! "inf" else py! "-inf") = py! "inf" ∨
    (if p ≠ 0 then py! "nan" else if q = 0 then py! "inf" else py! "-inf") = py! "-inf" := by
  split
  · exact .inl rfl
  · split
    · exact .inr (.inl rfl)
    · exact .inr (.inr rfl)

/-- **C84**: a text stands for at most one 64-bit float; all NaNs are printed alike. -/
theorem C84_unique64 {s : Str} {a b : Nat} (ha : a < 2 ^ 64) (hb : b < 2 ^ 64) (h1 : ReadsAs64 s a)
    (h2 : ReadsAs64 s b) : a = b ∨ isNaN64 a ∧ isNaN64 b := by
  unfold ReadsAs64 at h1 h2
  by_cases ea : exp64 a = 2047
  · rw [if_pos ea] at h1
    by_cases eb : exp64 b = 2047
    · rw [if_pos eb, h1] at h2
      by_cases fa : frac64 a = 0
      · by_cases fb : frac64 b = 0
        · left
          rw [if_neg (not_not_intro fa), if_neg (not_not_intro fb)] at h2
          have hs : sign64 a = sign64 b := by
            have ca : sign64 a = 0 ∨ sign64 a = 1 := by unfold sign64; omega
            have cb : sign64 b = 0 ∨ sign64 b = 1 := by unfold sign64; omega
            rcases ca with ca | ca <;> rcases cb with cb | cb <;> rw [ca, cb] at h2 <;>
              first | exact absurd h2 (by decide) | rw [ca, cb]
          unfold exp64 at ea eb
          unfold frac64 at fa fb
          unfold sign64 at hs
          omega
        · rw [if_neg (not_not_intro fa), if_pos fb] at h2
          split at h2
          · exact absurd h2 (by decide)
          · exact absurd h2 (by decide)
      · by_cases fb : frac64 b = 0
        · rw [if_pos fa, if_neg (not_not_intro fb)] at h2
          split at h2
          · exact absurd h2 (by decide)
          · exact absurd h2 (by decide)
        · exact .inr ⟨⟨ea, fa⟩, eb, fb⟩
    · rw [if_neg eb] at h2
      obtain ⟨n, k, h2, _⟩ := h2
      rw [noNumber (h1 ▸ special_text _ _)] at h2
      cases h2
  · rw [if_neg ea] at h1
    obtain ⟨n, k, h1, r1⟩ := h1
    by_cases eb : exp64 b = 2047
    · rw [if_pos eb] at h2
      rw [noNumber (h2 ▸ special_text _ _)] at h1
      cases h1
    · rw [if_neg eb] at h2
      obtain ⟨n', k', h2, r2⟩ := h2
      rw [h1] at h2
      have h3 := Option.some.inj h2
      have hs : decide (sign64 a ≠ 0) = decide (sign64 b ≠ 0) := congrArg (·.1) h3
      have hn : n = n' := congrArg (·.2.1) h3
      have hk : k = k' := congrArg (·.2.2) h3
      subst hn hk
      have la : a % 2 ^ 63 ≤ 2047 * 2 ^ 52 := by unfold exp64 at ea; omega
      have lb : b % 2 ^ 63 ≤ 2047 * 2 ^ 52 := by unfold exp64 at eb; omega
      have hm : ∀ y, y ≤ 2047 * 2 ^ 52 → mag64 y = floatMag 52 y := fun y hy => mag64_floatMag (by omega)
      have := roundsTo_unique la lb (roundsTo_mag hm la r1) (roundsTo_mag hm lb r2)
      have hs' := decide_eq_decide.mp hs
      unfold sign64 at hs'
      left
      omega

/-- **C84**: a text stands for at most one 32-bit float. -/
theorem C84_unique32 {s : Str} {a b : Nat} (ha : a < 2 ^ 32) (hb : b < 2 ^ 32) (h1 : ReadsAs32 s a)
    (h2 : ReadsAs32 s b) : a = b ∨ isNaN32 a ∧ isNaN32 b := by
  unfold ReadsAs32 at h1 h2
  by_cases ea : exp32 a = 255
  · rw [if_pos ea] at h1
    by_cases eb : exp32 b = 255
    · rw [if_pos eb, h1] at h2
      by_cases fa : frac32 a = 0
      · by_cases fb : frac32 b = 0
        · left
          rw [if_neg (not_not_intro fa), if_neg (not_not_intro fb)] at h2
          have hs : sign32 a = sign32 b := by
            have ca : sign32 a = 0 ∨ sign32 a = 1 := by unfold sign32; omega
            have cb : sign32 b = 0 ∨ sign32 b = 1 := by unfold sign32; omega
            rcases ca with ca | ca <;> rcases cb with cb | cb <;> rw [ca, cb] at h2 <;>
              first | exact absurd h2 (by decide) | rw [ca, cb]
          unfold exp32 at ea eb
          unfold frac32 at fa fb
          unfold sign32 at hs
          omega
        · rw [if_neg (not_not_intro fa), if_pos fb] at h2
          split at h2
          · exact absurd h2 (by decide)
          · exact absurd h2 (by decide)
      · by_cases fb : frac32 b = 0
        · rw [if_pos fa, if_neg (not_not_intro fb)] at h2
          split at h2
          · exact absurd h2 (by decide)
          · exact absurd h2 (by decide)
        · exact .inr ⟨⟨ea, fa⟩, eb, fb⟩
    · rw [if_neg eb] at h2
      obtain ⟨n, k, h2, _⟩ := h2
      rw [noNumber (h1 ▸ special_text _ _)] at h2
      cases h2
  · rw [if_neg ea] at h1
    obtain ⟨n, k, h1, r1⟩ := h1
    by_cases eb : exp32 b = 255
    · rw [if_pos eb] at h2
      rw [noNumber (h2 ▸ special_text _ _)] at h1
      cases h1
    · rw [if_neg eb] at h2
      obtain ⟨n', k', h2, r2⟩ := h2
      rw [h1] at h2
      have h3 := Option.some.inj h2
      have hs : decide (sign32 a ≠ 0) = decide (sign32 b ≠ 0) := congrArg (·.1) h3
      have hn : n = n' := congrArg (·.2.1) h3
      have hk : k = k' := congrArg (·.2.2) h3
      subst hn hk
      have la : a % 2 ^ 31 ≤ 255 * 2 ^ 23 := by unfold exp32 at ea; omega
      have lb : b % 2 ^ 31 ≤ 255 * 2 ^ 23 := by unfold exp32 at eb; omega
      have hm : ∀ y, y ≤ 255 * 2 ^ 23 → mag32 y = floatMag 23 y := fun y hy => mag32_floatMag (by omega)
      have := roundsTo_unique la lb (roundsTo_mag hm la r1) (roundsTo_mag hm lb r2)
      have hs' := decide_eq_decide.mp hs
      unfold sign32 at hs'
      left
      omega

/-! ### the csv files -/

/-- the characters of numbers -/
def Spec.numberChars : Str := py! "0123456789.-+einfa"

theorem mem_number {c : Char} (h : isNumeral c = true) : c ∈ numberChars := by
  have h2 : ∀ n : Fin 10, Char.ofNat (48 + n.1) ∈ numberChars := by decide
  obtain ⟨l, u⟩ := isNumeral_iff.mp h
  have := h2 ⟨c.toNat - 48, by omega⟩
  rw [show 48 + (c.toNat - 48) = c.toNat by omega, Char.ofNat_toNat] at this
  exact this

theorem natDec_number (n : Nat) : ∀ c ∈ natDec n, c ∈ numberChars :=
  fun c hc => mem_number (natDec_numerals n c hc)

theorem intDec_number (n : Int) : ∀ c ∈ intDec n, c ∈ numberChars := by
  intro c hc
  unfold intDec at hc
  split at hc
  · rcases List.mem_cons.mp hc with rfl | hc
    · decide
    · exact natDec_number _ c hc
  · exact natDec_number _ c hc

theorem zeros_number (m : Nat) : ∀ c ∈ List.replicate m '0', c ∈ numberChars := by
  intro c hc
  rw [(List.mem_replicate.mp hc).2]
  decide

theorem append_number {a b : Str} (ha : ∀ c ∈ a, c ∈ numberChars) (hb : ∀ c ∈ b, c ∈ numberChars) :
    ∀ c ∈ a ++ b, c ∈ numberChars := by
  intro c hc
  rcases List.mem_append.mp hc with h | h
  · exact ha c h
  · exact hb c h

theorem cons_number {x : Char} {b : Str} (hx : x ∈ numberChars) (hb : ∀ c ∈ b, c ∈ numberChars) :
    ∀ c ∈ x :: b, c ∈ numberChars := by
  intro c hc
  rcases List.mem_cons.mp hc with rfl | h
  · exact hx
  · exact hb c h

theorem layout_number (sci : Bool) (n : Nat) (k : Int) : ∀ c ∈ layout sci n k, c ∈ numberChars := by
  have hds := natDec_number n
  unfold layout
  dsimp only
  split
  · refine append_number (append_number (fun c hc => hds c (List.mem_of_mem_take hc)) ?_) ?_
    · split
      · exact cons_number (by decide) (fun c hc => hds c (List.mem_of_mem_drop hc))
      · intro c hc; cases hc
    · refine cons_number (by decide) (cons_number ?_ ?_)
      · split <;> decide
      · unfold atLeast2
        split
        · exact cons_number (by decide) (natDec_number _)
        · exact natDec_number _
  · split
    · exact cons_number (by decide) (cons_number (by decide) (append_number (zeros_number _) hds))
    · split
      · exact append_number (fun c hc => hds c (List.mem_of_mem_take hc))
          (cons_number (by decide) (fun c hc => hds c (List.mem_of_mem_drop hc)))
      · exact append_number (append_number hds (zeros_number _)) (by decide)

theorem floatText_number (W F E N bits : Nat) : ∀ c ∈ floatText W F E N bits, c ∈ numberChars := by
  have hs : ∀ c ∈ (if 2 ^ (W - 1) ≤ bits then (['-'] : Str) else []), c ∈ numberChars := by
    split
    · decide
    · intro c hc; cases hc
  unfold floatText
  dsimp only
  split
  · split
    · exact append_number hs (by decide)
    · decide
  · split
    · exact append_number hs (by decide)
    · exact append_number hs (layout_number _ _ _)

theorem npText_number (v : NpVal) : ∀ c ∈ npText v, c ∈ numberChars := by
  cases v with
  | int n => exact intDec_number n
  | f32 b => exact floatText_number _ _ _ _ _
  | f64 b => exact floatText_number _ _ _ _ _

/-- what a reader makes of a text file: lines ended by newlines, cells separated by `sep` -/
def Spec.table (sep : Char) (text : Str) : List (List Str) :=
  (pySplit '\n' text).dropLast.map (pySplit sep)

theorem pySplit_ne_nil (c : Char) (s : Str) : pySplit c s ≠ [] := by
  rcases pySplit_cases c s with h | ⟨a, t, _, h⟩ <;> rw [h] <;> simp

theorem not_mem_intersperse {c sep : Char} {l : List Str} (hs : c ≠ sep) (h : ∀ s ∈ l, c ∉ s) :
    c ∉ (l.intersperse [sep]).flatten := by
  induction l with
  | nil => simp
  | cons x xs ih =>
    cases xs with
    | nil => simpa using h x (by simp)
    | cons y ys =>
      have e : ((x :: y :: ys).intersperse [sep]).flatten = x ++ sep :: ((y :: ys).intersperse [sep]).flatten := by
        simp
      rw [e, List.mem_append, List.mem_cons]
      rintro (h1 | h1 | h1)
      · exact h x (by simp) h1
      · exact hs h1
      · exact ih (fun s hs => h s (by simp [hs])) h1

/-- rows without separators and newlines in their cells are read back -/
theorem table_rows {sep : Char} (hsep : sep ≠ '\n') (rows : List (List Str)) (hne : ∀ r ∈ rows, r ≠ [])
    (h : ∀ r ∈ rows, ∀ s ∈ r, sep ∉ s ∧ '\n' ∉ s) :
    table sep (rows.map (csvRow [sep])).flatten = rows := by
  unfold table
  induction rows with
  | nil => rfl
  | cons r rs ih =>
    have hr := h r (by simp)
    have hno := not_mem_intersperse (Ne.symm hsep) (fun s hs => (hr s hs).2)
    have e : ((r :: rs).map (csvRow [sep])).flatten
        = (r.intersperse [sep]).flatten ++ '\n' :: (rs.map (csvRow [sep])).flatten := by
      rw [List.map_cons, List.flatten_cons]
      unfold csvRow
      rw [List.append_assoc]
      rfl
    rw [e, pySplit_at hno, List.dropLast_cons_of_ne_nil (pySplit_ne_nil _ _), List.map_cons,
      pySplit_join (hne r (by simp)) (fun s hs => (hr s hs).1),
      ih (fun r hr => hne r (by simp [hr])) (fun r hr => h r (by simp [hr]))]

theorem csvFields_numbers (fs : List FieldData) (h : ∀ f ∈ fs, f.type ≠ .char) (keys : List Str)
    (sizes : Dict Str Int) :
    csvFields fs keys sizes
      = .ok (keys ++ (fs.map (·.name)).filter (fun s => !startsWith (py! "_padding") s), sizes) := by
  induction fs generalizing keys with
  | nil => simp [csvFields]
  | cons f fs ih =>
    have hfs := fun g hg => h g (List.mem_cons_of_mem f hg)
    have hf := h f (by simp)
    rw [csvFields, List.map_cons]
    by_cases hp : startsWith (py! "_padding") f.name = true
    · rw [if_pos hp, ih hfs, List.filter_cons_of_neg (by simp [hp])]
    · rw [if_neg hp, List.filter_cons_of_pos (by simpa using hp)]
      have step : csvFields fs (keys ++ [f.name]) sizes = .ok (keys ++ f.name ::
          (fs.map (·.name)).filter (fun s => !startsWith (py! "_padding") s), sizes) := by
        rw [ih hfs, List.append_assoc]
        rfl
      split
      · rw [if_neg hf, step]
      · exact step

theorem valueAt_pattern (t : BT) (b : Bytes) : PatternOk (valueAt t b 0) := by
  cases t
  case f32 =>
    have := leAt_lt b 0 4
    show leAt b 0 4 < 2 ^ 32
    omega
  case f64 =>
    have := leAt_lt b 0 8
    show leAt b 0 8 < 2 ^ 64
    omega
  all_goals exact trivial

theorem loaded_pattern {fuel : Nat} {cfg : Cfg} {bs : Bytes} {u : ULog} (h : load fuel cfg bs = .ok u) {d : Dataset}
    (hd : d ∈ u.dataList) {k : Str} {col : List NpVal} (hc : d.data.get? k = some col) :
    ∀ v ∈ col, PatternOk v := by
  intro v hv
  obtain ⟨i, f, _, _, hf⟩ := (loaded_data h hd).named k col hc
  obtain ⟨b, _, rfl⟩ := hf v hv
  exact valueAt_pattern _ _

/-- **C84**, csv: the file written for a dataset of a loaded log that has no texts, and whose field
names contain no separators, is a table. Its first line has the names of the fields that are no
padding; every further line belongs to a row of the dataset, in ascending order, and each cell stands
for the value of its field in this row. Without a time window all rows are there. -/
theorem C84_csv {fuel : Nat} {cfg : Cfg} {bs : Bytes} {u : ULog} (h : load fuel cfg bs = .ok u) {d : Dataset}
    (hd : d ∈ u.dataList) {sep : Char} (hsep : sep ≠ '\n') (hnum : sep ∉ numberChars)
    (hchar : ∀ f ∈ d.fields, f.type ≠ .char) (hname : ∀ f ∈ d.fields, sep ∉ f.name ∧ '\n' ∉ f.name)
    {timeS timeE : Option Int} {text : Str} (hf : csvFile npText [sep] timeS timeE d = .ok text) :
    ∃ (names : List Str) (rows : List Nat) (cells : Nat → Str → Str),
      names.Perm ((d.fields.map (·.name)).filter fun s => !startsWith (py! "_padding") s) ∧
      table sep text = names :: rows.map (fun i => names.map (cells i)) ∧
      rows.Pairwise (· < ·) ∧
      (timeS = none → timeE = none → rows = List.range (rowCount d)) ∧
      ∀ i ∈ rows, ∀ name ∈ names, ∃ v, cell d name i = some v ∧ ReadsAs (cells i name) v := by
  obtain ⟨-, -, ⟨f0, rest0, hf0⟩, ⟨n, hn0, hall, hrows⟩, hkeys⟩ := loaded_data h hd
  unfold csvFile at hf
  obtain ⟨column, hcol, hf⟩ := except_bind_ok.mp hf
  obtain ⟨⟨names, sizes⟩, hk, hf⟩ := except_bind_ok.mp hf
  obtain ⟨⟨s, e⟩, hw, hf⟩ := except_bind_ok.mp hf
  obtain ⟨lines, hl, hf⟩ := except_bind_ok.mp hf
  have hfin := Except.ok.inj hf
  -- the names
  unfold getFields at hk
  rw [csvFields_numbers d.fields hchar, ok_bind] at hk
  dsimp only at hk
  obtain ⟨names', hk1, hk⟩ := except_bind_ok.mp hk
  replace hk := Except.ok.inj hk
  injection hk with e1 e2
  subst e1
  subst e2
  unfold timestampFirst at hk1
  obtain ⟨rest, hrm, hk1⟩ := except_bind_ok.mp hk1
  replace hk1 := Except.ok.inj hk1
  unfold pyRemove at hrm
  split at hrm
  · rename_i hmem
    have hrm := Except.ok.inj hrm
    rw [List.nil_append] at hmem hrm
    have hperm : names'.Perm ((d.fields.map (·.name)).filter fun s => !startsWith (py! "_padding") s) := by
      rw [← hk1, ← hrm]
      exact (@List.perm_cons_erase Str instBEqOfDecidableEq inferInstance _ _ hmem).symm
    have hnames : ∀ k ∈ names', ∃ f ∈ d.fields, f.name = k := by
      intro k hk
      have := (List.mem_filter.mp (hperm.mem_iff.mp hk)).1
      obtain ⟨f, h1, h2⟩ := List.mem_map.mp this
      exact ⟨f, h1, h2⟩
    have hne : names' ≠ [] := by rw [← hk1]; simp
    -- the cells
    have hcell : ∀ i k c, csvCell npText d [] i k = .ok c → ∃ v, cell d k i = some v ∧ c = npText v := by
      intro i k c hc
      have hc : (dictGet d.data k).bind (fun col => (pyIndex col i).bind fun v => .ok (npText v)) = .ok c := hc
      obtain ⟨col, c1, hc⟩ := except_bind_ok.mp hc
      obtain ⟨v, c2, hc⟩ := except_bind_ok.mp hc
      have hc := Except.ok.inj hc
      refine ⟨v, ?_, hc.symm⟩
      unfold cell
      rw [dictGet_ok.mp c1]
      unfold pyIndex at c2
      split at c2
      · rename_i w hw'
        rw [← Except.ok.inj c2]
        exact hw'
      · cases c2
    have hline : ∀ i ∈ pyRange s e, csvLine npText [sep] d names' [] i
        = .ok (csvRow [sep] (names'.map fun k => npText ((cell d k i).getD (.int 0)))) ∧
        ∀ k ∈ names', ∃ v, cell d k i = some v := by
      intro i hi
      obtain ⟨line, hline⟩ := mapM_ok_mem hl hi
      have hline' := hline
      unfold csvLine at hline
      obtain ⟨cs, hcs, hline⟩ := except_bind_ok.mp hline
      have hex : ∀ k ∈ names', ∃ v, cell d k i = some v := by
        intro k hk
        obtain ⟨c, hc⟩ := mapM_ok_mem hcs hk
        obtain ⟨v, hv, _⟩ := hcell i k c hc
        exact ⟨v, hv⟩
      refine ⟨?_, hex⟩
      unfold csvLine
      rw [mapM_ok (g := fun k => npText ((cell d k i).getD (.int 0)))]
      · show Except.ok _ = _
        unfold csvRow
        rw [pyJoin_eq]
      · intro k hk
        obtain ⟨c, hc⟩ := mapM_ok_mem hcs hk
        obtain ⟨v, hv, hv'⟩ := hcell i k c hc
        rw [hc, hv', hv]
        rfl
    refine ⟨names', pyRange s e, fun i k => npText ((cell d k i).getD (.int 0)), hperm, ?_, ?_, ?_, ?_⟩
    · have hl' := mapM_ok (f := csvLine npText [sep] d names' [])
        (g := fun i => csvRow [sep] (names'.map fun k => npText ((cell d k i).getD (.int 0))))
        (l := pyRange s e) (fun i hi => (hline i hi).1)
      rw [hl'] at hl
      have hl := Except.ok.inj hl
      have ht : text = ((names' :: (pyRange s e).map (fun i => names'.map fun k =>
          npText ((cell d k i).getD (.int 0)))).map (csvRow [sep])).flatten := by
        rw [← hfin, ← hl, List.map_cons, List.flatten_cons, List.map_map]
        congr 1
        unfold csvRow
        rw [pyJoin_eq]
      rw [ht]
      refine table_rows hsep _ ?_ ?_
      · intro r hr
        rcases List.mem_cons.mp hr with rfl | hr
        · exact hne
        · obtain ⟨i, _, rfl⟩ := List.mem_map.mp hr
          intro hnil
          exact hne (List.map_eq_nil_iff.mp hnil)
      · intro r hr c hc
        rcases List.mem_cons.mp hr with rfl | hr
        · obtain ⟨f, hf', rfl⟩ := hnames c hc
          exact hname f hf'
        · obtain ⟨i, _, rfl⟩ := List.mem_map.mp hr
          obtain ⟨k, _, rfl⟩ := List.mem_map.mp hc
          exact ⟨fun hm => hnum (npText_number _ _ hm), fun hm => absurd (npText_number _ _ hm) (by decide)⟩
    · exact List.pairwise_lt_range'
    · rintro rfl rfl
      have hw : Except.ok (0, column.length) = Except.ok (s, e) := hw
      have hw := Except.ok.inj hw
      injection hw with w1 w2
      subst w1 w2
      have hc := dictGet_ok.mp hcol
      have h3 : column.length = n := hall _ (Dict.mem_of_get? _ _ _ hc)
      have hf0m : f0 ∈ d.fields := by rw [hf0]; simp
      have hne0 : f0.name ≠ [] := by
        intro hnil
        have hmem0 : f0.name ∈ names' := by
          refine hperm.mem_iff.mpr (List.mem_filter.mpr ⟨List.mem_map.mpr ⟨f0, hf0m, rfl⟩, ?_⟩)
          rw [hnil]; rfl
        obtain ⟨v, hv⟩ := (hline 0 (by
          unfold pyRange
          rw [List.mem_range'_1]; omega)).2 _ hmem0
        unfold cell at hv
        cases hg : d.data.get? f0.name with
        | none => rw [hg] at hv; cases hv
        | some c =>
          obtain ⟨k, g, _, hk, _⟩ := hkeys _ _ hg
          exact columnName_ne _ _ (hk.trans hnil)
      obtain ⟨c3, h4, h5, _⟩ := hrows f0 hf0m hne0
      have : rowCount d = n := by
        unfold rowCount
        rw [hf0]
        dsimp only
        rw [h4]
        exact h5
      rw [this, h3]
      unfold pyRange
      rw [Nat.sub_zero, List.range_eq_range']
    · intro i hi k hk
      obtain ⟨v, hv⟩ := (hline i hi).2 k hk
      refine ⟨v, hv, ?_⟩
      show ReadsAs (npText ((cell d k i).getD (.int 0))) v
      rw [hv]
      have hv' := hv
      unfold cell at hv'
      cases hg : d.data.get? k with
      | none => rw [hg] at hv'; cases hv'
      | some col =>
        rw [hg] at hv'
        exact C84_element (loaded_pattern h hd hg v (List.mem_of_getElem? hv'))
  · cases hrm

namespace Sample

/-- a file with two rows of a timestamp, a 32-bit and a 64-bit float -/
def measured : Bytes :=
  header ++ encMsgs [(tyF, asc (py! "t:uint64_t timestamp;float x;double y;"))]
    ++ encMsgs [(tyA, [0] ++ leEnc 2 0 ++ asc (py! "t")),
      (tyD, leEnc 2 0 ++ leEnc 8 9 ++ leEnc 4 0x3dcccccd ++ leEnc 8 0x3fb99999a0000000),
      (tyD, leEnc 2 0 ++ leEnc 8 11 ++ leEnc 4 0xff800000 ++ leEnc 8 0x44b52d02c7e14af6)]

/-- the first dataset of the log satisfies `p` -/
def firstHas (bs : Bytes) (p : Dataset → Bool) : Bool :=
  match load 20 {} bs with
  | .ok u => match u.dataList with
    | d :: _ => p d
    | [] => false
  | _ => false

end Sample

theorem firstHas_of {bs : Bytes} {p : Dataset → Bool} (h : Sample.firstHas bs p = true) :
    ∃ u d, load 20 {} bs = .ok u ∧ d ∈ u.dataList ∧ p d = true := by
  unfold Sample.firstHas at h
  split at h
  · rename_i u hu
    split at h
    · rename_i d ds hd
      exact ⟨u, d, hu, by rw [hd]; simp, h⟩
    · cases h
  · cases h

/-- an instance of `C84_csv` -/
example : ∃ u d, load 20 {} Sample.measured = .ok u ∧ d ∈ u.dataList ∧
    (∀ f ∈ d.fields, f.type ≠ .char) ∧ (∀ f ∈ d.fields, ',' ∉ f.name ∧ '\n' ∉ f.name) ∧
    csvFile npText (py! ",") none none d
      = .ok (py! "timestamp,x,y\n9,0.1,0.10000000149011612\n11,-inf,1e+23\n") := by
  obtain ⟨u, d, h1, h2, h3⟩ := firstHas_of (bs := Sample.measured) (p := fun d =>
    d.fields.all (fun f => decide (f.type ≠ .char)) && d.fields.all (fun f => decide (',' ∉ f.name ∧ '\n' ∉ f.name)) &&
    decide ((csvFile npText (py! ",") none none d).toOption
      = some (py! "timestamp,x,y\n9,0.1,0.10000000149011612\n11,-inf,1e+23\n"))) (by decide +kernel)
  simp only [Bool.and_eq_true, List.all_eq_true, decide_eq_true_eq] at h3
  exact ⟨u, d, h1, h2, h3.1.1, h3.1.2, ok_of_toOption h3.2⟩

/-! ### the parameters -/

/-- a number as a python value -/
def Spec.NumberOk : Value → Prop
  | .int _ => True
  | .float b => b < 2 ^ 64
  | _ => False

/-- the text stands for the python number -/
def Spec.ReadsAsValue (s : Str) : Value → Prop
  | .int n => ReadsAsInt s n
  | .float b => ReadsAs64 s b
  | _ => False

theorem pyText_reads {v : Value} (h : NumberOk v) : ReadsAsValue (pyText v) v := by
  cases v with
  | int n => exact C84_int n
  | float b => exact C84_float64 h
  | str s => exact h.elim
  | bytes b => exact h.elim
  | bool b => exact h.elim

theorem pyText_number {v : Value} (h : NumberOk v) : ∀ c ∈ pyText v, c ∈ numberChars := by
  cases v with
  | int n => exact intDec_number n
  | float b => exact floatText_number _ _ _ _ _
  | str s => exact h.elim
  | bytes b => exact h.elim
  | bool b => exact h.elim

/-- **C84**, parameters: what `ulog_params` prints for parameters that are numbers, with names without
separators, is a table with one line for each parameter in ascending order: the name, the initial value
and the values it was changed to, and each text stands for its value. -/
theorem C84_params (o : ParamOpts) (u : ULog) (hf : o.format = py! "csv") (hi : o.initial = false)
    (hd : o.default = none) (ht : o.timestamps = false) (hn : u.initialParams.keys.Nodup)
    {sep : Char} (hdel : o.delim = [sep]) (hsep : sep ≠ '\n') (hnum : sep ∉ numberChars)
    (hname : ∀ k ∈ u.initialParams.keys, sep ∉ k ∧ '\n' ∉ k)
    (hval : ∀ k ∈ u.initialParams.keys, ∀ v ∈ history u k ((u.initialParams.get? k).getD (.int 0)), NumberOk v) :
    ∃ keys text, keys.Perm u.initialParams.keys ∧ Ascending keys ∧ paramsText pyText o u = .ok text ∧
      table sep text = keys.map (fun k => k :: (history u k ((u.initialParams.get? k).getD (.int 0))).map pyText) ∧
      ∀ k ∈ keys, ∀ v ∈ history u k ((u.initialParams.get? k).getD (.int 0)), ReadsAsValue (pyText v) v := by
  obtain ⟨keys, h1, h2, h3⟩ := C32_csv pyText o u hf hi hd ht hn
  refine ⟨keys, _, h1, h2, h3, ?_, fun k hk v hv => pyText_reads (hval k (h1.mem_iff.mp hk) v hv)⟩
  rw [hdel]
  have e : (keys.map fun k => csvRow [sep] (k :: (history u k ((u.initialParams.get? k).getD (.int 0))).map pyText))
      = (keys.map fun k => k :: (history u k ((u.initialParams.get? k).getD (.int 0))).map pyText).map (csvRow [sep]) := by
    rw [List.map_map]
    rfl
  rw [e]
  refine table_rows hsep _ ?_ ?_
  · intro r hr
    obtain ⟨k, _, rfl⟩ := List.mem_map.mp hr
    simp
  · intro r hr c hc
    obtain ⟨k, hk, rfl⟩ := List.mem_map.mp hr
    rcases List.mem_cons.mp hc with rfl | hc
    · exact hname _ (h1.mem_iff.mp hk)
    · obtain ⟨v, hv, rfl⟩ := List.mem_map.mp hc
      have := pyText_number (hval k (h1.mem_iff.mp hk) v hv)
      exact ⟨fun hm => hnum (this _ hm), fun hm => absurd (this _ hm) (by decide)⟩

/-- an instance of `C84_params` -/
example : (paramsText pyText { format := py! "csv", delim := py! "," }
    { initialParams := [(py! "B", .int (-7)), (py! "A", .float 0x3fb99999a0000000)],
      changedParams := [(5, py! "A", .float 0x4000000000000000)] }).toOption
    = some (py! "A,0.10000000149011612,2.0\nB,-7\n") := by decide +kernel

/-! ### what does not read back -/

/-- Counterpart of **C84**: with names or texts that contain the separator the table has other cells
(`C30_unescaped`), and a NaN keeps neither its sign nor its fraction bits. -/
theorem C84_nan {a b : Nat} (ha : a < 2 ^ 64) (hb : b < 2 ^ 64) (h1 : isNaN64 a) (h2 : isNaN64 b) :
    f64Text a = f64Text b := by
  have r1 := C84_float64 ha
  have r2 := C84_float64 hb
  unfold ReadsAs64 at r1 r2
  rw [if_pos h1.1, if_pos h1.2] at r1
  rw [if_pos h2.1, if_pos h2.2] at r2
  rw [r1, r2]

example : isNaN64 0x7ff8000000000000 ∧ isNaN64 0xfff8000000000001 := by unfold isNaN64; decide

end PyULog
