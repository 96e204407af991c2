import Verif.Lemmas.WriteDecode
import Verif.Props.IntFloat
import Verif.Spec.CanWrite
/-
Which numbers `struct.pack` can write.
-/
namespace PyULog
open Spec

/-! ### numbers -/

theorem narrow_ok_iff (b : Nat) : (∃ r, narrow b = .ok r) ↔ FitsFloat b := by
  unfold FitsFloat
  by_cases hf : finite64 b
  · have ho := C50_overflow b hf
    obtain ⟨j, R, hn, -⟩ := narrow_spec b hf
    constructor
    · rintro ⟨r, hr⟩ -
      rw [hr] at ho
      apply Nat.lt_of_not_le
      intro h
      cases ho.mpr h
    · intro h
      split at hn
      · exact ⟨_, hn⟩
      · have h1 := ho.mp hn
        have h2 := h hf
        exact absurd h1 (Nat.not_le.mpr h2)
  · refine ⟨fun _ h => absurd h hf, fun _ => ?_⟩
    have he : b / 2 ^ 52 % 2048 = 2047 := Decidable.not_not.mp hf
    unfold narrow
    dsimp only
    rw [if_pos he]
    split
    · exact ⟨_, rfl⟩
    · exact ⟨_, rfl⟩

theorem fitsFloat_shift (a k : Nat) : FitsFloat (k * 2 ^ 63 + a) ↔ FitsFloat a := by
  have e1 : exp64 (k * 2 ^ 63 + a) = exp64 a := by unfold exp64; omega
  have e2 : frac64 (k * 2 ^ 63 + a) = frac64 a := by unfold frac64; omega
  unfold FitsFloat finite64 mag64
  rw [e1, e2]

theorem widen_split (x : Nat) : widen x = x / 2 ^ 31 * 2 ^ 63 + widen (x % 2 ^ 31) := by
  unfold widen
  dsimp only
  have e1 : x % 2 ^ 31 / 2 ^ 23 % 256 = x / 2 ^ 23 % 256 := by omega
  have e2 : x % 2 ^ 31 % 2 ^ 23 = x % 2 ^ 23 := by omega
  have e3 : x % 2 ^ 31 / 2 ^ 31 = 0 := by omega
  rw [e1, e2, e3, Nat.zero_mul]
  split
  · split
    · rw [Nat.zero_add]
    · rw [Nat.zero_add, Nat.add_assoc]
  · generalize (if x / 2 ^ 23 % 256 = 0 then x % 2 ^ 23 else x % 2 ^ 23 + 2 ^ 23) = M
    split
    · exact (Nat.add_zero _).symm
    · rw [Nat.zero_add, Nat.add_assoc]

/-- every 32-bit float can be written as a 32-bit float -/
theorem widen_fits (x : Nat) : FitsFloat (widen x) := by
  rw [widen_split, fitsFloat_shift]
  have hb : x % 2 ^ 31 < 2 ^ 32 := by omega
  by_cases h : sNaN32 (x % 2 ^ 31)
  · exact (narrow_ok_iff _).mp ⟨_, C50_signalling_nan _ h⟩
  · exact (narrow_ok_iff _).mp ⟨_, C50_float_roundtrip _ hb h⟩

theorem floatArg_ok_iff (n : Int) (x : Nat) : floatArg n = .ok x ↔ intToF64 n = some x := by
  unfold floatArg
  cases intToF64 n with
  | none => constructor <;> intro h <;> cases h
  | some y =>
    constructor
    · intro h; injection h with h; rw [h]
    · intro h; injection h with h; rw [h]

theorem intFitsDouble_iff (n : Int) : (∃ x, floatArg n = .ok x) ↔ IntFitsDouble n := by
  unfold IntFitsDouble
  have h := C50_int_overflow n
  constructor
  · rintro ⟨x, hx⟩
    rw [floatArg_ok_iff] at hx
    rw [hx] at h
    apply Nat.lt_of_not_le
    intro hh
    cases h.mpr hh
  · intro hh
    cases hx : intToF64 n with
    | none => exact absurd (h.mp hx) (Nat.not_le.mpr hh)
    | some x => exact ⟨x, (floatArg_ok_iff _ _).mpr hx⟩

theorem intFitsFloat_iff (n : Int) : (∃ x, floatArg n = .ok x ∧ FitsFloat x) ↔ IntFitsFloat n := by
  by_cases h0 : n = 0
  · subst h0
    have hz : FitsFloat 0 := fun _ => by
      have : mag64 0 = 0 := by decide
      rw [this]
      exact Nat.mul_pos (by decide) (Nat.two_pow_pos _)
    have hz2 : IntFitsFloat 0 := by unfold IntFitsFloat; decide
    exact ⟨fun _ => hz2, fun _ => ⟨0, rfl, hz⟩⟩
  obtain ⟨l, R, hn, h1, h2, h3, h4, h5⟩ := intToF64_spec h0
  have hQ := Nat.two_pow_pos (l + 1022)
  obtain ⟨hR, hR2⟩ := int_significand hQ h1 h2 h4 h5
  -- in units of 2^-1074
  have hX : IntFitsFloat n ↔ n.natAbs * 2 ^ 1074 < (2 ^ 54 - 2 ^ 29 - 1) * 2 ^ 1148 := by
    unfold IntFitsFloat
    have e : (2 ^ 54 - 2 ^ 29 - 1) * 2 ^ 1148 = ((2 ^ 25 - 1) * 2 ^ 103 - 2 ^ 74) * 2 ^ 1074 := by
      rw [show ((2 ^ 25 - 1) * 2 ^ 103 - 2 ^ 74 : Nat) = (2 ^ 54 - 2 ^ 29 - 1) * 2 ^ 74 by decide, Nat.mul_assoc,
        ← Nat.pow_add]
    rw [e]
    exact ⟨fun h => Nat.mul_lt_mul_of_pos_right h (Nat.two_pow_pos _),
      fun h => Nat.lt_of_mul_lt_mul_right h⟩
  have e1177 : (2 ^ 25 - 1) * 2 ^ 1177 = (2 ^ 54 - 2 ^ 29) * 2 ^ 1148 := by
    rw [show (1177 : Nat) = 29 + 1148 from rfl, Nat.pow_add, ← Nat.mul_assoc]
  have hmain : R * 2 ^ (l + 1022) < (2 ^ 54 - 2 ^ 29) * 2 ^ 1148 ↔
      n.natAbs * 2 ^ 1074 < (2 ^ 54 - 2 ^ 29 - 1) * 2 ^ 1148 := by
    generalize n.natAbs * 2 ^ 1074 = X at *
    have hp := Nat.two_pow_pos 1148
    rcases Nat.lt_trichotomy l 127 with hlt | heq | hgt
    · have : (2 : Nat) ^ (l + 1022) ≤ 2 ^ 1148 := Nat.pow_le_pow_right (by decide) (by omega)
      have hRQ : R * 2 ^ (l + 1022) ≤ 2 ^ 53 * 2 ^ (l + 1022) := Nat.mul_le_mul_right _ hR
      generalize (2 : Nat) ^ 1148 = P at *
      generalize (2 : Nat) ^ (l + 1022) = Q at *
      generalize R * Q = a at *
      constructor <;> intro <;> omega
    · subst heq
      have e : (2 : Nat) ^ (127 + 1022) = 2 * 2 ^ 1148 := by
        rw [show 127 + 1022 = 1 + 1148 from rfl, Nat.pow_add]
      rw [e] at h1 h2 h3 ⊢
      generalize (2 : Nat) ^ 1148 = P at *
      rcases Nat.lt_trichotomy R (2 ^ 53 - 2 ^ 28) with hl | hl | hl
      · have : R * (2 * P) ≤ (2 ^ 53 - 2 ^ 28 - 1) * (2 * P) := Nat.mul_le_mul_right _ (by omega)
        constructor
        · intro _
          rcases Nat.lt_or_ge R (2 ^ 53 - 2 ^ 28 - 1) with h | h
          · have : R * (2 * P) ≤ (2 ^ 53 - 2 ^ 28 - 2) * (2 * P) := Nat.mul_le_mul_right _ (by omega)
            omega
          · have hR' : R = 2 ^ 53 - 2 ^ 28 - 1 := by omega
            subst hR'
            apply Nat.lt_of_not_le
            intro hh
            have := h3 (by right; omega)
            omega
        · intro _; omega
      · subst hl
        constructor <;> intro <;> omega
      · have : (2 ^ 53 - 2 ^ 28 + 1) * (2 * P) ≤ R * (2 * P) := Nat.mul_le_mul_right _ (by omega)
        constructor <;> intro <;> omega
    · have e : (2 : Nat) ^ 2 * 2 ^ 1148 ≤ 2 ^ (l + 1022) := by
        rw [← Nat.pow_add]; exact Nat.pow_le_pow_right (by decide) (by omega)
      have hRQ : 2 ^ 52 * 2 ^ (l + 1022) ≤ R * 2 ^ (l + 1022) := Nat.mul_le_mul_right _ hR2
      generalize (2 : Nat) ^ 1148 = P at *
      generalize (2 : Nat) ^ (l + 1022) = Q at *
      generalize R * Q = a at *
      constructor <;> intro <;> omega
  rw [hX, ← hmain]
  constructor
  · rintro ⟨x, hx, hf⟩
    rw [floatArg_ok_iff, hn] at hx
    split at hx
    · rename_i hlt
      have hx := Option.some.inj hx
      obtain ⟨m1, m2, m3⟩ := mag64_eq (s := if n < 0 then 2 ^ 63 else 0) (l := l) (by split <;> simp) hR hR2 hlt
      rw [hx] at m1 m3
      exact Nat.lt_of_lt_of_eq (Nat.lt_of_le_of_lt (Nat.le_of_eq m3.symm) (hf m1)) e1177
    · cases hx
  · intro h
    have hl : l ≤ 127 := by
      apply Nat.le_of_not_lt
      intro hgt
      have e : (2 : Nat) ^ 2 * 2 ^ 1148 ≤ 2 ^ (l + 1022) := by
        rw [← Nat.pow_add]; exact Nat.pow_le_pow_right (by decide) (by omega)
      have hRQ : 2 ^ 52 * 2 ^ (l + 1022) ≤ R * 2 ^ (l + 1022) := Nat.mul_le_mul_right _ hR2
      have hp := Nat.two_pow_pos 1148
      generalize (2 : Nat) ^ 1148 = P at *
      generalize (2 : Nat) ^ (l + 1022) = Q at *
      generalize R * Q = a at *
      omega
    have hlt : (l + 1022) * 2 ^ 52 + R < 2047 * 2 ^ 52 := by omega
    rw [if_pos hlt] at hn
    refine ⟨_, (floatArg_ok_iff _ _).mpr hn, fun _ => ?_⟩
    obtain ⟨m1, m2, m3⟩ := mag64_eq (s := if n < 0 then 2 ^ 63 else 0) (l := l) (by split <;> simp) hR hR2 hlt
    rw [m3, e1177]
    exact h

theorem within_iff {t : BT} (ht : t.isInt = true) (n : Int) : Within t n ↔ intFits t n := by
  unfold Within intFits
  cases t <;> first | cases ht | skip
  all_goals
    simp only [intBounds, BT.signed, BT.size, Bool.false_eq_true, if_true, if_false]
    constructor
    · rintro ⟨p, hp, h1, h2⟩
      injection hp with hp
      subst hp
      simp only at h1 h2
      omega
    · intro h
      refine ⟨_, rfl, ?_⟩
      simp only
      omega

theorem packInt_iff {t : BT} (ht : t.isInt = true) (n : Int) : (∃ b, packInt t n = .ok b) ↔ Within t n := by
  rw [within_iff ht]
  constructor
  · rintro ⟨b, hb⟩; exact packInt_fits hb
  · intro h
    obtain ⟨b, hb, _⟩ := packInt_ok h
    exact ⟨b, hb⟩

theorem packInt_length {t : BT} {n : Int} {b : Bytes} (h : packInt t n = .ok b) : b.length = width t := by
  obtain ⟨b', h1, h2, _⟩ := packInt_ok (packInt_fits h)
  rw [h] at h1
  injection h1 with h1
  rw [h1, h2, width_eq]

theorem map_ok_iff {α β : Type} {x : Except PyErr α} {f : α → β} : (∃ b, x.map f = .ok b) ↔ ∃ a, x = .ok a := by
  cases x with
  | error e => constructor <;> rintro ⟨_, h⟩ <;> cases h
  | ok a => exact ⟨fun _ => ⟨a, rfl⟩, fun _ => ⟨f a, rfl⟩⟩

theorem map_length {x : Except PyErr Nat} {n : Nat} {b : Bytes} (h : x.map (leEnc n) = .ok b) : b.length = n := by
  cases x with
  | error e => cases h
  | ok a => injection h with h; rw [← h, leEnc_length]

theorem intFloat_iff (n : Int) :
    (∃ b, (do (narrow (← floatArg n)).map (leEnc 4) : Except PyErr Bytes) = .ok b) ↔ IntFitsFloat n := by
  rw [← intFitsFloat_iff]
  constructor
  · rintro ⟨b, hb⟩
    obtain ⟨x, h1, h2⟩ := except_bind_ok.mp hb
    exact ⟨x, h1, (narrow_ok_iff _).mp (map_ok_iff.mp ⟨b, h2⟩)⟩
  · rintro ⟨x, h1, h2⟩
    obtain ⟨b, hb⟩ := map_ok_iff (f := leEnc 4).mpr ((narrow_ok_iff _).mpr h2)
    exact ⟨b, except_bind_ok.mpr ⟨x, h1, hb⟩⟩

theorem intFloat_length {n : Int} {b : Bytes}
    (h : (do (narrow (← floatArg n)).map (leEnc 4) : Except PyErr Bytes) = .ok b) : b.length = 4 := by
  obtain ⟨x, _, h2⟩ := except_bind_ok.mp h
  exact map_length h2

theorem bit_fits (b : Bool) : IntFitsFloat (if b then 1 else 0) ∧ IntFitsDouble (if b then 1 else 0) := by
  have hp := Nat.two_pow_pos 970
  constructor
  · unfold IntFitsFloat; cases b <;> decide
  · unfold IntFitsDouble
    have h1 : ((if b = true then 1 else 0 : Int)).natAbs ≤ 1 := by cases b <;> decide
    generalize ((if b = true then 1 else 0 : Int)).natAbs = k at *
    generalize 2 ^ 970 = P at *
    omega

theorem bit_within {t : BT} (ht : t.isInt = true) (b : Bool) : Within t (if b then 1 else 0) := by
  cases b <;> cases t <;> first | exact ⟨_, rfl, by decide, by decide⟩ | cases ht

theorem packScalar_iff (t : BT) (v : Value) : (∃ b, packScalar t v = .ok b) ↔ Holds t v := by
  cases t with
  | i8 | u8 | i16 | u16 | i32 | u32 | i64 | u64 =>
    cases v with
    | int n => exact packInt_iff rfl n
    | bool b => exact ⟨fun _ => trivial, fun _ => (packInt_iff rfl _).mpr (bit_within rfl b)⟩
    | _ => exact ⟨fun ⟨_, h⟩ => (by cases h), fun h => False.elim h⟩
  | f32 =>
    cases v with
    | float x => exact map_ok_iff.trans (narrow_ok_iff x)
    | int n => exact intFloat_iff n
    | bool b => exact ⟨fun _ => trivial, fun _ => (intFloat_iff _).mpr (bit_fits b).1⟩
    | _ => exact ⟨fun ⟨_, h⟩ => (by cases h), fun h => False.elim h⟩
  | f64 =>
    cases v with
    | float x => exact ⟨fun _ => trivial, fun _ => ⟨_, rfl⟩⟩
    | int n => exact map_ok_iff.trans (intFitsDouble_iff n)
    | bool b => exact ⟨fun _ => trivial, fun _ => map_ok_iff.mpr ((intFitsDouble_iff _).mpr (bit_fits b).2)⟩
    | _ => exact ⟨fun ⟨_, h⟩ => (by cases h), fun h => False.elim h⟩
  | bool =>
    cases v with
    | _ => exact ⟨fun _ => trivial, fun _ => ⟨_, rfl⟩⟩
  | char =>
    cases v with
    | bytes b =>
      match b with
      | [] => exact ⟨fun ⟨_, h⟩ => (by cases h), fun h => (by cases h)⟩
      | [x] => exact ⟨fun _ => rfl, fun _ => ⟨_, rfl⟩⟩
      | x :: y :: z => exact ⟨fun ⟨_, h⟩ => (by cases h), fun h => (by cases h)⟩
    | _ => exact ⟨fun ⟨_, h⟩ => (by cases h), fun h => False.elim h⟩

theorem packScalar_length {t : BT} {v : Value} {b : Bytes} (h : packScalar t v = .ok b) : b.length = width t := by
  cases t with
  | i8 | u8 | i16 | u16 | i32 | u32 | i64 | u64 =>
    cases v with
    | int n => exact packInt_length h
    | bool b => exact packInt_length h
    | _ => cases h
  | f32 =>
    cases v with
    | float x => exact map_length h
    | int n => exact intFloat_length h
    | bool b => exact intFloat_length h
    | _ => cases h
  | f64 =>
    cases v with
    | float x => injection h with h; rw [← h]; exact leEnc_length ..
    | int n => exact map_length h
    | bool b => exact map_length h
    | _ => cases h
  | bool =>
    cases v with
    | _ => injection h with h; rw [← h]; rfl
  | char =>
    cases v with
    | bytes b' =>
      match b' with
      | [] => cases h
      | [x] => injection h with h; rw [← h]; rfl
      | x :: y :: z => cases h
    | _ => cases h

theorem packNp_iff (t : BT) (v : NpVal) : (∃ b, packNp t v = .ok b) ↔ HoldsNp t v := by
  cases t with
  | i8 | u8 | i16 | u16 | i32 | u32 | i64 | u64 =>
    cases v with
    | int n => exact packInt_iff rfl n
    | _ => exact ⟨fun ⟨_, h⟩ => (by cases h), fun h => False.elim h⟩
  | f32 =>
    cases v with
    | f32 x => exact ⟨fun _ => trivial, fun _ => map_ok_iff.mpr ((narrow_ok_iff _).mpr (widen_fits x))⟩
    | f64 x => exact map_ok_iff.trans (narrow_ok_iff x)
    | int n => exact intFloat_iff n
  | f64 =>
    cases v with
    | int n => exact map_ok_iff.trans (intFitsDouble_iff n)
    | _ => exact ⟨fun _ => trivial, fun _ => ⟨_, rfl⟩⟩
  | bool =>
    cases v with
    | _ => exact ⟨fun _ => trivial, fun _ => ⟨_, rfl⟩⟩
  | char =>
    cases v with
    | int n =>
      show (∃ b, (if n < 0 then Except.error PyErr.valueError
        else if n < 128 then Except.ok [UInt8.ofNat n.toNat] else Except.error PyErr.structError) = Except.ok b) ↔ _
      show _ ↔ 0 ≤ n ∧ n < 128
      split
      · exact ⟨fun ⟨_, h⟩ => (by cases h), fun h => by omega⟩
      · split
        · exact ⟨fun _ => by omega, fun _ => ⟨_, rfl⟩⟩
        · exact ⟨fun ⟨_, h⟩ => (by cases h), fun h => by omega⟩
    | _ => exact ⟨fun ⟨_, h⟩ => (by cases h), fun h => False.elim h⟩

theorem packNp_length {t : BT} {v : NpVal} {b : Bytes} (h : packNp t v = .ok b) : b.length = width t := by
  cases t with
  | i8 | u8 | i16 | u16 | i32 | u32 | i64 | u64 =>
    cases v with
    | int n => exact packInt_length h
    | _ => cases h
  | f32 =>
    cases v with
    | f32 x => exact map_length h
    | f64 x => exact map_length h
    | int n => exact intFloat_length h
  | f64 =>
    cases v with
    | int n => exact map_length h
    | _ => have h := Except.ok.inj h; rw [← h]; exact leEnc_length ..
  | bool =>
    cases v with
    | _ => injection h with h; rw [← h]; rfl
  | char =>
    cases v with
    | int n =>
      have h : (if n < 0 then Except.error PyErr.valueError
        else if n < 128 then Except.ok [UInt8.ofNat n.toNat] else Except.error PyErr.structError) = Except.ok b := h
      split at h
      · cases h
      · split at h
        · injection h with h; rw [← h]; rfl
        · cases h
    | _ => cases h

end PyULog
