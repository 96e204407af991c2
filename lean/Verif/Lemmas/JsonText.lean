import Verif.Model.JsonText
import Verif.Spec.JsonText
import Verif.Props.NumberText
import Verif.Props.Float
import Verif.Props.Equal
import Verif.Props.Ros2
/-
Helpers for the JSON column: `str.replace`, numbers as JSON, reading the object.
-/
namespace PyULog
open Spec

/-! ### replace -/

theorem pyReplaceF_fuel {o : Char} {os new : Str} : ∀ {f g : Nat} {s : Str}, s.length ≤ f → s.length ≤ g →
    pyReplaceF (o :: os) new f s = pyReplaceF (o :: os) new g s
  | 0, 0, _, _, _ => rfl
  | 0, g + 1, [], _, _ => rfl
  | 0, g + 1, _ :: _, h, _ => by simp at h
  | f + 1, 0, [], _, _ => rfl
  | f + 1, 0, _ :: _, _, h => by simp at h
  | f + 1, g + 1, [], _, _ => rfl
  | f + 1, g + 1, c :: cs, hf, hg => by
    have hf' : cs.length ≤ f := by simpa using hf
    have hg' : cs.length ≤ g := by simpa using hg
    unfold pyReplaceF
    split
    · congr 1
      refine pyReplaceF_fuel ?_ ?_ <;>
      · rw [List.length_drop]
        simp
        omega
    · rw [pyReplaceF_fuel hf' hg']

theorem pyReplace_nil (old new : Str) : pyReplace old new [] = [] := rfl

theorem pyReplace_miss {o : Char} {os new : Str} {c : Char} {s : Str} (h : (o :: os).isPrefixOf (c :: s) = false) :
    pyReplace (o :: os) new (c :: s) = c :: pyReplace (o :: os) new s := by
  show pyReplaceF (o :: os) new (s.length + 1) (c :: s) = _
  rw [pyReplaceF, if_neg (by rw [h]; decide)]
  rfl

theorem pyReplace_skip {o : Char} {os new : Str} {c : Char} {s : Str} (h : o ≠ c) :
    pyReplace (o :: os) new (c :: s) = c :: pyReplace (o :: os) new s := by
  refine pyReplace_miss ?_
  rw [List.isPrefixOf, beq_eq_false_iff_ne.mpr h, Bool.false_and]

theorem pyReplace_hit {o : Char} {os new s : Str} :
    pyReplace (o :: os) new (o :: (os ++ s)) = new ++ pyReplace (o :: os) new s := by
  show pyReplaceF (o :: os) new ((os ++ s).length + 1) (o :: (os ++ s)) = _
  rw [pyReplaceF, if_pos (by rw [List.isPrefixOf_iff_prefix]; exact ⟨s, rfl⟩)]
  congr 1
  have e : (o :: (os ++ s)).drop (o :: os).length = s := by simp
  rw [e]
  exact pyReplaceF_fuel (by simp) (Nat.le_refl _)

theorem pyReplace_clean {o : Char} {os new s t : Str} (h : o ∉ s) :
    pyReplace (o :: os) new (s ++ t) = s ++ pyReplace (o :: os) new t := by
  induction s with
  | nil => rfl
  | cons c s ih =>
    rw [List.cons_append, pyReplace_skip (fun e => h (by simp [e])), ih (fun e => h (by simp [e]))]
    rfl

/-! ### numbers as JSON -/

theorem natDec_digits (n : Nat) : Digits (natDec n) := ⟨natDec_ne_nil n, natDec_numerals n⟩

theorem natDec_jsonInt (n : Nat) : JsonInt (natDec n) := by
  rcases Nat.eq_zero_or_pos n with rfl | h
  · exact .inl (by decide)
  · refine .inr ⟨natDec_digits n, ?_⟩
    obtain ⟨c, cs, e, hc⟩ := natDec_first n h
    rw [e]
    intro e'
    have := Option.some.inj e'
    subst this
    exact absurd hc (by decide)

theorem intDec_jsonNumber (n : Int) : JsonNumber (intDec n) := by
  unfold intDec
  by_cases h : n < 0
  · rw [if_pos h]
    exact ⟨['-'], natDec n.natAbs, [], [], .inr rfl, natDec_jsonInt _, .inl rfl, .inl rfl, by simp⟩
  · rw [if_neg h]
    exact ⟨[], natDec n.natAbs, [], [], .inl rfl, natDec_jsonInt _, .inl rfl, .inl rfl, by simp⟩

/-- a run of digits that does not begin with zero -/
theorem jsonInt_of {s : Str} (h1 : Digits s) (h2 : s.head? ≠ some '0') : JsonInt s := .inr ⟨h1, h2⟩

theorem atLeast2_digits (n : Nat) : Digits (atLeast2 n) := by
  unfold atLeast2
  split
  · refine ⟨by simp, fun c hc => ?_⟩
    rcases List.mem_cons.mp hc with rfl | hc
    · decide
    · exact natDec_numerals n c hc
  · exact natDec_digits n

theorem layout_json (sci : Bool) {n : Nat} (hn : 0 < n) (k : Int) (sign : Str) (hs : sign = [] ∨ sign = ['-']) :
    JsonNumber (sign ++ layout sci n k) := by
  have hds := natDec_numerals n
  have hne := natDec_ne_nil n
  have h0 : (natDec n).head? ≠ some '0' := by
    obtain ⟨c, cs, e, hc⟩ := natDec_first n hn
    rw [e]
    intro e'
    have := Option.some.inj e'
    subst this
    exact absurd hc (by decide)
  unfold layout
  generalize natDec n = ds at hds hne h0
  obtain ⟨c, cs, rfl⟩ := List.exists_cons_of_ne_nil hne
  dsimp only
  split
  · refine ⟨sign, [c], if 1 < (c :: cs).length then '.' :: cs else [],
      'e' :: (if ((c :: cs).length : Int) + k - 1 < 0 then '-' else '+') ::
        atLeast2 (((c :: cs).length : Int) + k - 1).natAbs, hs, ?_, ?_, ?_, ?_⟩
    · exact jsonInt_of ⟨by simp, fun x hx => hds x (by simp at hx; simp [hx])⟩ h0
    · split
      · rename_i h1
        refine .inr ⟨cs, ⟨?_, fun x hx => hds x (by simp [hx])⟩, rfl⟩
        intro e
        rw [e] at h1
        simp at h1
      · exact .inl rfl
    · refine .inr ⟨_, _, ?_, atLeast2_digits _, rfl⟩
      split
      · exact .inr rfl
      · exact .inl rfl
    · simp
  · split
    · refine ⟨sign, py! "0", '.' :: (List.replicate (-(↑(c :: cs).length + k)).toNat '0' ++ c :: cs), [], hs,
        .inl rfl, .inr ⟨_, ⟨by simp, ?_⟩, rfl⟩, .inl rfl, by simp⟩
      intro x hx
      rcases List.mem_append.mp hx with hx | hx
      · exact numerals_zeros _ x hx
      · exact hds x hx
    · rename_i hp
      split
      · rename_i hlt
        obtain ⟨m, hm⟩ : ∃ m, (((c :: cs).length : Int) + k).toNat = m + 1 := ⟨_, by
          exact (Nat.succ_pred_eq_of_pos (by omega)).symm⟩
        have hml : m < cs.length := by
          have : ((c :: cs).length : Int) = cs.length + 1 := by simp
          omega
        rw [hm]
        refine ⟨sign, c :: cs.take m, '.' :: cs.drop m, [], hs, jsonInt_of ⟨by simp, ?_⟩ h0,
          .inr ⟨_, ⟨?_, ?_⟩, rfl⟩, .inl rfl, by simp⟩
        · intro x hx
          rcases List.mem_cons.mp hx with rfl | hx
          · exact hds _ (by simp)
          · exact hds x (by simp [List.mem_of_mem_take hx])
        · intro e
          have := congrArg List.length e
          rw [List.length_drop] at this
          simp at this
          omega
        · exact fun x hx => hds x (by simp [List.mem_of_mem_drop hx])
      · refine ⟨sign, c :: (cs ++ List.replicate (((c :: cs).length + k) - (c :: cs).length : Int).toNat '0'),
          ['.', '0'], [], hs, jsonInt_of ⟨by simp, ?_⟩ h0, .inr ⟨['0'], ⟨by simp, ?_⟩, rfl⟩, .inl rfl, by simp⟩
        · intro x hx
          rw [← List.cons_append] at hx
          rcases List.mem_append.mp hx with hx | hx
          · exact hds x hx
          · exact numerals_zeros _ x hx
        · intro x hx
          rw [List.mem_singleton.mp hx]
          decide

theorem roundsTo_pos {F u top n x : Nat} {k : Int} (hx : 0 < x) (h : RoundsTo (floatMag F) u top n k x) : 0 < n := by
  refine Nat.pos_of_ne_zero fun e => ?_
  subst e
  have h1 := h 0 (Nat.zero_le _) (by omega)
  have h2 : 0 < floatMag F x * 10 ^ (-k).toNat :=
    Nat.mul_pos (floatMag_pos (by omega)) (Nat.pow_pos (by omega))
  rw [floatMag_zero] at h1
  unfold gap at h1
  omega

/-- a finite float is printed as a JSON number -/
theorem floatText_json {W F E N bits : Nat} (hE : 2 ^ E ≤ 10 ^ 400) (hN : 0 < N)
    (hF : 2 ^ (F + 1) < 10 ^ (N - 1)) (hx : bits % 2 ^ (W - 1) / 2 ^ F ≠ 2 ^ (W - 1 - F) - 1) :
    JsonNumber (floatText W F E N bits) := by
  have hs : (if 2 ^ (W - 1) ≤ bits then (['-'] : Str) else []) = [] ∨
      (if 2 ^ (W - 1) ≤ bits then (['-'] : Str) else []) = ['-'] := by
    split
    · exact .inr rfl
    · exact .inl rfl
  unfold floatText
  dsimp only
  rw [if_neg hx]
  split
  · exact ⟨_, py! "0", ['.', '0'], [], hs, .inl rfl,
      .inr ⟨['0'], ⟨by simp, fun x hx => by rw [List.mem_singleton.mp hx]; decide⟩, rfl⟩, .inl rfl, rfl⟩
  · rename_i h0
    have h1 := shortestF_readsBack hE (Nat.pos_of_ne_zero h0) (N - 1) 1 (by omega)
      (by rw [show 1 + (N - 1) - 1 = N - 1 by omega]; exact hF)
    have h2 := stripZeros_roundsTo N _ _ (roundsTo_of_readsBack (top := 0) (Nat.pos_of_ne_zero h0) h1)
    exact layout_json _ (roundsTo_pos (Nat.pos_of_ne_zero h0) h2) _ _ hs

theorem f64_json {b : Nat} (h : exp64 b ≠ 2047) : JsonNumber (f64Text b) := by
  refine floatText_json pow_1074 (by decide) (by decide) ?_
  show b % 2 ^ 63 / 2 ^ 52 ≠ 2047
  unfold exp64 at h
  omega

theorem widen_special {b : Nat} (h : exp32 b = 255) : exp64 (widen b) = 2047 ∧
    (frac64 (widen b) = 0 ↔ frac32 b = 0) ∧ sign64 (widen b) = sign32 b := by
  unfold exp32 at h
  unfold widen exp64 frac64 sign64 frac32 sign32
  simp only [show b / 2 ^ 23 % 256 = 255 from h, if_true]
  have hm : b % 2 ^ 23 < 2 ^ 23 := Nat.mod_lt _ (by decide)
  generalize b % 2 ^ 23 = m at hm
  generalize b / 2 ^ 31 = s
  split
  · rename_i h0
    omega
  · rename_i h0
    have : m % 2 ^ 22 < 2 ^ 22 := Nat.mod_lt _ (by decide)
    generalize m % 2 ^ 22 = m' at this
    omega

/-! ### the characters -/

theorem numeral_char {c : Char} (h : isNumeral c = true) : c ∈ py! "0123456789.-+e" := by
  have h2 : ∀ n : Fin 10, Char.ofNat (48 + n.1) ∈ py! "0123456789.-+e" := by decide
  obtain ⟨l, u⟩ := isNumeral_iff.mp h
  have := h2 ⟨c.toNat - 48, by omega⟩
  rw [show 48 + (c.toNat - 48) = c.toNat by omega, Char.ofNat_toNat] at this
  exact this

theorem jsonNumber_chars {s : Str} (h : JsonNumber s) : ∀ c ∈ s, c ∈ py! "0123456789.-+e" := by
  obtain ⟨sg, i, f, e, hs, hi, hf, he, rfl⟩ := h
  intro c hc
  simp only [List.mem_append] at hc
  rcases hc with hc | hc | hc | hc
  · rcases hs with rfl | rfl
    · cases hc
    · rw [List.mem_singleton.mp hc]; decide
  · rcases hi with rfl | ⟨hi, _⟩
    · rw [List.mem_singleton.mp hc]; decide
    · exact numeral_char (hi.2 c hc)
  · rcases hf with rfl | ⟨d, hd, rfl⟩
    · cases hc
    · rcases List.mem_cons.mp hc with rfl | hc
      · decide
      · exact numeral_char (hd.2 c hc)
  · rcases he with rfl | ⟨x, d, hx, hd, rfl⟩
    · cases hc
    · rcases List.mem_cons.mp hc with rfl | hc
      · decide
      · rcases List.mem_cons.mp hc with rfl | hc
        · rcases hx with rfl | rfl <;> decide
        · exact numeral_char (hd.2 c hc)

/-- a JSON number begins with a sign or a digit, and `-null` is none -/
theorem not_jsonNumber {s : Str} (h : 'n' ∈ s) : ¬ JsonNumber s :=
  fun hj => absurd (jsonNumber_chars hj 'n' h) (by decide)

/-! ### the text of a value after the replacements -/

/-- the text of a value after the replacements of `nan` and `inf` -/
def valText (v : NpVal) : Str := pyReplace (py! "inf") (py! "null") (pyReplace (py! "nan") (py! "null") (listText v))

theorem f64Text_special {b : Nat} (hb : b < 2 ^ 64) (h : exp64 b = 2047) :
    f64Text b = if frac64 b ≠ 0 then py! "nan" else if sign64 b = 0 then py! "inf" else py! "-inf" := by
  have := C84_float64 hb
  unfold ReadsAs64 at this
  rw [if_pos h] at this
  exact this

theorem listText_cases {v : NpVal} (hv : PatternOk v) : JsonNumber (listText v) ∨ listText v = py! "nan" ∨
    listText v = py! "inf" ∨ listText v = py! "-inf" := by
  have key : ∀ b, b < 2 ^ 64 → JsonNumber (f64Text b) ∨ f64Text b = py! "nan" ∨
      f64Text b = py! "inf" ∨ f64Text b = py! "-inf" := by
    intro b hb
    by_cases h : exp64 b = 2047
    · right
      rw [f64Text_special hb h]
      exact special_text _ _
    · exact .inl (f64_json h)
  cases v with
  | int n => exact .inl (intDec_jsonNumber n)
  | f32 b => exact key _ (widen_lt hv)
  | f64 b => exact key b hv

theorem number_noN {s : Str} (h : JsonNumber s) : 'n' ∉ s :=
  fun hc => absurd (jsonNumber_chars h _ hc) (by decide)

theorem number_noI {s : Str} (h : JsonNumber s) : 'i' ∉ s :=
  fun hc => absurd (jsonNumber_chars h _ hc) (by decide)

theorem valText_number {v : NpVal} (h : JsonNumber (listText v)) : valText v = listText v := by
  unfold valText
  have h1 := pyReplace_clean (os := py! "an") (new := py! "null") (t := []) (number_noN h)
  have h2 := pyReplace_clean (os := py! "nf") (new := py! "null") (t := []) (number_noI h)
  rw [List.append_nil] at h1 h2
  rw [show (py! "nan") = 'n' :: py! "an" from rfl, show (py! "inf") = 'i' :: py! "nf" from rfl, h1, pyReplace_nil,
    List.append_nil, h2, pyReplace_nil, List.append_nil]

/-- first replacement -/
theorem replace_nan {v : NpVal} (hv : PatternOk v) (t : Str) :
    pyReplace (py! "nan") (py! "null") (listText v ++ t) =
      pyReplace (py! "nan") (py! "null") (listText v) ++ pyReplace (py! "nan") (py! "null") t := by
  rcases listText_cases hv with h | h | h | h
  · have h1 := pyReplace_clean (os := py! "an") (new := py! "null") (t := []) (number_noN h)
    rw [List.append_nil, pyReplace_nil, List.append_nil] at h1
    rw [show (py! "nan") = 'n' :: py! "an" from rfl, pyReplace_clean (number_noN h), h1]
  · rw [h]
    exact pyReplace_hit
  · rw [h]
    show pyReplace ('n' :: py! "an") _ ('i' :: 'n' :: 'f' :: t) = _
    rw [pyReplace_skip (by decide), pyReplace_miss (by rfl), pyReplace_skip (by decide)]
    rfl
  · rw [h]
    show pyReplace ('n' :: py! "an") _ ('-' :: 'i' :: 'n' :: 'f' :: t) = _
    rw [pyReplace_skip (by decide), pyReplace_skip (by decide), pyReplace_miss (by rfl), pyReplace_skip (by decide)]
    rfl

/-- second replacement -/
theorem replace_inf {v : NpVal} (hv : PatternOk v) (t : Str) :
    pyReplace (py! "inf") (py! "null") (pyReplace (py! "nan") (py! "null") (listText v) ++ t) =
      valText v ++ pyReplace (py! "inf") (py! "null") t := by
  unfold valText
  rcases listText_cases hv with h | h | h | h
  · have h1 := pyReplace_clean (os := py! "an") (new := py! "null") (t := []) (number_noN h)
    rw [List.append_nil, pyReplace_nil, List.append_nil] at h1
    have h2 := pyReplace_clean (os := py! "nf") (new := py! "null") (t := []) (number_noI h)
    rw [List.append_nil, pyReplace_nil, List.append_nil] at h2
    rw [show (py! "nan") = 'n' :: py! "an" from rfl, show (py! "inf") = 'i' :: py! "nf" from rfl, h1,
      pyReplace_clean (number_noI h), h2]
  · rw [h]
    exact pyReplace_clean (s := py! "null") (by decide)
  · rw [h]
    exact pyReplace_hit (os := py! "nf")
  · rw [h]
    show pyReplace ('i' :: py! "nf") _ ('-' :: 'i' :: (py! "nf" ++ t)) = _
    rw [pyReplace_skip (by decide), pyReplace_hit]
    rfl

/-- the characters of the replaced texts -/
theorem valText_chars {v : NpVal} (hv : PatternOk v) : ∀ c ∈ valText v, c ∈ py! "0123456789.-+enul" := by
  rcases listText_cases hv with h | h | h | h
  · rw [valText_number h]
    intro c hc
    exact (show ∀ c ∈ py! "0123456789.-+e", c ∈ py! "0123456789.-+enul" by decide) c (jsonNumber_chars h c hc)
  all_goals
    unfold valText
    rw [h]
    decide

/-! ### the whole text -/

/-- the text of a member after all replacements -/
def memberText (p : Int × NpVal) : Str := '"' :: (intDec p.1 ++ ('"' :: ':' :: ' ' :: valText p.2))

theorem replace_member {p : Int × NpVal} (hv : PatternOk p.2) (t : Str) :
    pyReplace (py! "inf") (py! "null") (pyReplace (py! "nan") (py! "null")
      (('\'' :: (intDec p.1 ++ ('\'' :: ':' :: ' ' :: listText p.2))) ++ t)) =
      ('\'' :: (intDec p.1 ++ ('\'' :: ':' :: ' ' :: valText p.2))) ++
        pyReplace (py! "inf") (py! "null") (pyReplace (py! "nan") (py! "null") t) := by
  have hk := intDec_jsonNumber p.1
  have e1 : ('\'' :: (intDec p.1 ++ ('\'' :: ':' :: ' ' :: listText p.2))) ++ t =
      ('\'' :: intDec p.1 ++ py! "': ") ++ (listText p.2 ++ t) := by simp
  have n1 : 'n' ∉ '\'' :: intDec p.1 ++ py! "': " := by
    intro hm
    rcases List.mem_append.mp hm with hm | hm
    · rcases List.mem_cons.mp hm with hm | hm
      · exact absurd hm (by decide)
      · exact number_noN hk hm
    · exact absurd hm (by decide)
  have n2 : 'i' ∉ '\'' :: intDec p.1 ++ py! "': " := by
    intro hm
    rcases List.mem_append.mp hm with hm | hm
    · rcases List.mem_cons.mp hm with hm | hm
      · exact absurd hm (by decide)
      · exact number_noI hk hm
    · exact absurd hm (by decide)
  rw [e1, show pyReplace (py! "nan") (py! "null") (('\'' :: intDec p.1 ++ py! "': ") ++ (listText p.2 ++ t)) =
      ('\'' :: intDec p.1 ++ py! "': ") ++ pyReplace (py! "nan") (py! "null") (listText p.2 ++ t) from
        pyReplace_clean (os := py! "an") n1, replace_nan hv,
    show pyReplace (py! "inf") (py! "null") (('\'' :: intDec p.1 ++ py! "': ") ++
      (pyReplace (py! "nan") (py! "null") (listText p.2) ++ pyReplace (py! "nan") (py! "null") t)) = _ from
        pyReplace_clean (os := py! "nf") n2, replace_inf hv]
  simp

theorem replace_body : ∀ (j : Dict Int NpVal), (∀ p ∈ j, PatternOk p.2) →
    pyReplace (py! "inf") (py! "null") (pyReplace (py! "nan") (py! "null")
      (pyJoin (py! ", ") (j.map fun p => '\'' :: (intDec p.1 ++ ('\'' :: ':' :: ' ' :: listText p.2))) ++ ['}'])) =
    pyJoin (py! ", ") (j.map fun p => '\'' :: (intDec p.1 ++ ('\'' :: ':' :: ' ' :: valText p.2))) ++ ['}']
  | [], _ => by decide
  | [p], h => by
    show pyReplace _ _ (pyReplace _ _ (('\'' :: (intDec p.1 ++ ('\'' :: ':' :: ' ' :: listText p.2))) ++ ['}'])) = _
    rw [replace_member (h p (by simp))]
    rfl
  | p :: q :: r, h => by
    have ih := replace_body (q :: r) (fun x hx => h x (List.mem_cons_of_mem _ hx))
    show pyReplace _ _ (pyReplace _ _ ((('\'' :: (intDec p.1 ++ ('\'' :: ':' :: ' ' :: listText p.2))) ++ py! ", " ++
      pyJoin (py! ", ") ((q :: r).map fun p => '\'' :: (intDec p.1 ++ ('\'' :: ':' :: ' ' :: listText p.2)))) ++ ['}'])) = _
    rw [List.append_assoc, List.append_assoc, replace_member (h p (by simp))]
    rw [show pyReplace (py! "nan") (py! "null") (py! ", " ++
      (pyJoin (py! ", ") ((q :: r).map fun p => '\'' :: (intDec p.1 ++ ('\'' :: ':' :: ' ' :: listText p.2))) ++ ['}'])) = _
        from pyReplace_clean (os := py! "an") (by decide),
      show ∀ s, pyReplace (py! "inf") (py! "null") (py! ", " ++ s) = _ from
        fun s => pyReplace_clean (os := py! "nf") (by decide), ih]
    simp [pyJoin]

theorem pyJoin_map (f : Char → Char) (sep : Str) : ∀ l : List Str,
    (pyJoin sep l).map f = pyJoin (sep.map f) (l.map (·.map f))
  | [] => rfl
  | [x] => rfl
  | x :: y :: r => by
    have ih := pyJoin_map f sep (y :: r)
    rw [pyJoin, List.map_append, List.map_append, ih]
    · rfl
    · simp

theorem pyJoin_filter (f : Char → Bool) (sep : Str) : ∀ l : List Str,
    (pyJoin sep l).filter f = pyJoin (sep.filter f) (l.map (·.filter f))
  | [] => rfl
  | [x] => rfl
  | x :: y :: r => by
    have ih := pyJoin_filter f sep (y :: r)
    rw [pyJoin, List.filter_append, List.filter_append, ih]
    · rfl
    · simp

theorem map_quote {s : Str} (h : '\'' ∉ s) : s.map (fun c => if c = '\'' then '"' else c) = s := by
  have : s.map (fun c => if c = '\'' then '"' else c) = s.map id :=
    List.map_congr_left fun c hc => if_neg (fun e : c = '\'' => h (e ▸ hc))
  rw [this, List.map_id]

theorem val_no {v : NpVal} (hv : PatternOk v) {c : Char} (h : c ∉ py! "0123456789.-+enul") : c ∉ valText v :=
  fun hc => h (valText_chars hv c hc)

theorem key_no (n : Int) {c : Char} (h : c ∉ py! "0123456789.-+e") : c ∉ intDec n :=
  fun hc => h (jsonNumber_chars (intDec_jsonNumber n) c hc)

/-- the text of the column -/
theorem jsonText_eq {j : Dict Int NpVal} (h : ∀ p ∈ j, PatternOk p.2) :
    jsonText j = '{' :: (pyJoin (py! ", ") (j.map memberText) ++ ['}']) := by
  unfold jsonText dictText
  rw [List.cons_append, show (∀ s, pyReplace (py! "nan") (py! "null") ('{' :: s) = _) from
      fun s => pyReplace_skip (os := py! "an") (by decide),
    show (∀ s, pyReplace (py! "inf") (py! "null") ('{' :: s) = _) from
      fun s => pyReplace_skip (os := py! "nf") (by decide)]
  have := replace_body j h
  rw [show (∀ s, pyReplace (py! "nan") (py! "null") s = pyReplace ['n', 'a', 'n'] (py! "null") s) from fun _ => rfl,
    show (∀ s, pyReplace (py! "inf") (py! "null") s = pyReplace ['i', 'n', 'f'] (py! "null") s) from fun _ => rfl] at this
  rw [this, List.map_cons, List.map_append, pyJoin_map, List.map_map]
  congr 2
  refine congrArg (pyJoin _) (List.map_congr_left fun p hp => ?_)
  show List.map (fun c => if c = '\'' then '"' else c) ('\'' :: (intDec p.1 ++ ('\'' :: ':' :: ' ' :: valText p.2))) = _
  rw [List.map_cons, List.map_append, map_quote (key_no p.1 (by decide)), List.map_cons, List.map_cons, List.map_cons,
    map_quote (val_no (h p hp) (by decide))]
  rfl

/-! ### reading it -/

/-- the text of a member without blanks -/
def bareMember (p : Int × NpVal) : Str := '"' :: (intDec p.1 ++ ('"' :: ':' :: valText p.2))

theorem filter_no {s : Str} (h : ' ' ∉ s) : s.filter (fun c => c ≠ ' ') = s :=
  List.filter_eq_self.mpr fun _ hc => decide_eq_true (fun e => h (e ▸ hc))

theorem member_filter {p : Int × NpVal} (h : PatternOk p.2) :
    (memberText p).filter (fun c => c ≠ ' ') = bareMember p := by
  unfold memberText bareMember
  rw [List.filter_cons_of_pos (by decide), List.filter_append, filter_no (key_no p.1 (by decide)),
    List.filter_cons_of_pos (by decide), List.filter_cons_of_pos (by decide), List.filter_cons_of_neg (by decide),
    filter_no (val_no h (by decide))]

theorem readMember_bare {p : Int × NpVal} (h : PatternOk p.2) :
    readMember (bareMember p) = some (intDec p.1, valText p.2) := by
  have e : bareMember p = ('"' :: (intDec p.1 ++ ['"'])) ++ ':' :: valText p.2 := by simp [bareMember]
  have hk : ':' ∉ '"' :: (intDec p.1 ++ ['"']) := by
    intro hm
    rcases List.mem_cons.mp hm with hm | hm
    · exact absurd hm (by decide)
    · rcases List.mem_append.mp hm with hm | hm
      · exact key_no p.1 (by decide) hm
      · exact absurd hm (by decide)
  unfold readMember
  rw [e, pySplit_at hk, pySplit_clean (val_no h (by decide))]
  show (if (intDec p.1 ++ ['"']).getLast? = some '"' then some (intDec p.1 ++ ['"']).dropLast else none).map
    (fun k => (k, valText p.2)) = _
  rw [if_pos (by simp), List.dropLast_concat]
  rfl

theorem bare_no {p : Int × NpVal} (h : PatternOk p.2) : ',' ∉ bareMember p := by
  intro hm
  rcases List.mem_cons.mp hm with hm | hm
  · exact absurd hm (by decide)
  rcases List.mem_append.mp hm with hm | hm
  · exact key_no p.1 (by decide) hm
  rcases List.mem_cons.mp hm with hm | hm
  · exact absurd hm (by decide)
  rcases List.mem_cons.mp hm with hm | hm
  · exact absurd hm (by decide)
  exact val_no h (by decide) hm

/-- the members read from the text -/
theorem readObject_text {j : Dict Int NpVal} (h : ∀ p ∈ j, PatternOk p.2) :
    readObject (jsonText j) = some (j.map fun p => (intDec p.1, valText p.2)) := by
  unfold readObject
  have e1 : (jsonText j).filter (fun c => c ≠ ' ') = '{' :: (pyJoin (py! ",") (j.map bareMember) ++ ['}']) := by
    rw [jsonText_eq h, List.filter_cons_of_pos (by decide), List.filter_append, pyJoin_filter, List.map_map]
    congr 2
    exact congrArg (pyJoin _) (List.map_congr_left fun p hp => member_filter (h p hp))
  rw [e1]
  show (if (pyJoin (py! ",") (j.map bareMember) ++ ['}']).getLast? = some '}' then
      if (pyJoin (py! ",") (j.map bareMember) ++ ['}']).dropLast = [] then some []
      else (pySplit ',' (pyJoin (py! ",") (j.map bareMember) ++ ['}']).dropLast).mapM readMember
    else none) = _
  rw [if_pos (by simp), List.dropLast_concat]
  cases j with
  | nil => rfl
  | cons p r =>
    have e2 : pySplit ',' (pyJoin (py! ",") ((p :: r).map bareMember)) = (p :: r).map bareMember := by
      rw [pyJoin_eq]
      exact pySplit_join (by simp) fun s hs => by
        obtain ⟨q, hq, rfl⟩ := List.mem_map.mp hs
        exact bare_no (h q hq)
    rw [if_neg, e2, List.mapM_map]
    · generalize p :: r = l at h
      induction l with
      | nil => rfl
      | cons q l ih =>
        rw [List.mapM_cons, Function.comp, readMember_bare (h q (by simp)), ih (fun x hx => h x (List.mem_cons_of_mem _ hx))]
        rfl
    · intro e
      rw [e] at e2
      cases r with
      | nil => simp [pySplit, bareMember] at e2
      | cons q r => simp [pySplit] at e2

end PyULog
