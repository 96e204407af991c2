import Verif.Lemmas.Writer
import Verif.Lemmas.Datasets
import Verif.Spec.Writer
import Verif.Props.Text
import Verif.Props.Float
/-
What the parsers read back from the payloads made by the writer.
-/
namespace PyULog
open Spec

/-! ### integers -/

theorem two_pow_size (t : BT) : (256 : Nat) ^ t.size = 2 ^ (8 * t.size) := by rw [Nat.pow_mul]

theorem BT.size_pos (t : BT) : 0 < t.size := by cases t <;> decide

/-- an integer type -/
def BT.isInt : BT → Bool
  | .f32 | .f64 | .bool | .char => false
  | _ => true

/-- the integers that fit a type -/
def intFits (t : BT) (n : Int) : Prop :=
  if t.signed then -(2 : Int) ^ (8 * t.size - 1) ≤ n ∧ n < (2 : Int) ^ (8 * t.size - 1)
  else 0 ≤ n ∧ n < (2 : Int) ^ (8 * t.size)

theorem packInt_ok {t : BT} {n : Int} (h : intFits t n) :
    ∃ b, packInt t n = .ok b ∧ b.length = t.size ∧
      (if t.signed then toSigned t.size (leNat b) else (leNat b : Int)) = n := by
  unfold intFits at h
  unfold packInt
  by_cases hs : t.signed = true
  · rw [if_pos hs] at h ⊢
    rw [if_pos h]
    refine ⟨_, rfl, leEnc_length .., ?_⟩
    rw [if_pos hs, leNat_leEnc _ _ (ofSigned_lt _ t.size_pos _ h.1 h.2),
      toSigned_ofSigned _ t.size_pos _ h.1 h.2]
  · rw [if_neg hs] at h ⊢
    rw [if_pos h]
    refine ⟨_, rfl, leEnc_length .., ?_⟩
    rw [if_neg hs]
    have h2 : n.toNat < 256 ^ t.size := by
      rw [two_pow_size]
      have : ((2 ^ (8 * t.size) : Nat) : Int) = (2 : Int) ^ (8 * t.size) := by simp
      omega
    rw [leNat_leEnc _ _ h2]
    omega

theorem packInt_fits {t : BT} {n : Int} {b : Bytes} (h : packInt t n = .ok b) : intFits t n := by
  unfold packInt at h
  unfold intFits
  split at h
  · rename_i hs
    rw [if_pos hs]
    split at h
    · assumption
    · cases h
  · rename_i hs
    rw [if_neg hs]
    split at h
    · assumption
    · cases h

theorem intFits_leNat {t : BT} {b : Bytes} (hb : b.length = t.size) :
    intFits t (if t.signed then toSigned t.size (leNat b) else (leNat b : Int)) := by
  unfold intFits
  have hlt := leNat_lt b
  rw [hb] at hlt
  by_cases hs : t.signed = true
  · rw [if_pos hs, if_pos hs]
    exact toSigned_bounds _ t.size_pos _ hlt
  · rw [if_neg hs, if_neg hs]
    rw [two_pow_size] at hlt
    have : ((2 ^ (8 * t.size) : Nat) : Int) = (2 : Int) ^ (8 * t.size) := by simp
    omega

/-! ### info values -/

theorem widen_quiet {b : Nat} (h : sNaN32 b) : widen (b + 2 ^ 22) = widen b := by
  obtain ⟨he, h0, h1⟩ := h
  unfold exp32 at he
  unfold frac32 at h0 h1
  have e1 : (b + 2 ^ 22) / 2 ^ 31 = b / 2 ^ 31 := by omega
  have e2 : (b + 2 ^ 22) / 2 ^ 23 % 256 = 255 := by omega
  have e2' : b / 2 ^ 23 % 256 = 255 := he
  have e3 : (b + 2 ^ 22) % 2 ^ 23 = b % 2 ^ 23 + 2 ^ 22 := by omega
  have e4 : (b % 2 ^ 23 + 2 ^ 22) % 2 ^ 22 = b % 2 ^ 23 % 2 ^ 22 := by omega
  unfold widen
  rw [e1, e2, e2', e3]
  simp only [if_true]
  rw [if_neg h0, if_neg (by omega), e4]

theorem sNaN_dec (b : Nat) : sNaN32 b ∨ ¬ sNaN32 b := Classical.em _

/-- narrowing a widened value gives a pattern of the same value -/
theorem narrow_widen (b : Nat) (hb : b < 2 ^ 32) :
    ∃ c, narrow (widen b) = .ok c ∧ c < 2 ^ 32 ∧ widen c = widen b := by
  rcases sNaN_dec b with h | h
  · refine ⟨_, C50_signalling_nan b h, ?_, widen_quiet h⟩
    obtain ⟨he, h0, h1⟩ := h
    unfold exp32 at he
    unfold frac32 at h0 h1
    omega
  · exact ⟨b, C50_float_roundtrip b hb h, hb, rfl⟩

/-- a value that can be read is written so that reading it gives the value again -/
theorem scalar_roundtrip {t : BT} {b : Bytes} {v : Value} (h : unpackScalar t b = .ok v) :
    ∃ b', packScalar t v = .ok b' ∧ b'.length = t.size ∧ unpackScalar t b' = .ok v := by
  unfold unpackScalar at h
  split at h
  · cases h
  · rename_i hlen
    have hlen : b.length = t.size := by omega
    have hint : ∀ (n : Int), intFits t n → t.isInt = true → v = .int n →
        ∃ b', packScalar t v = .ok b' ∧ b'.length = t.size ∧ unpackScalar t b' = .ok v := by
      intro n hn hi hv
      obtain ⟨b', h1, h2, h3⟩ := packInt_ok hn
      refine ⟨b', ?_, h2, ?_⟩
      · rw [hv]
        cases t <;> first | exact h1 | cases hi
      · unfold unpackScalar
        rw [if_neg (by omega), hv, ← h3]
        cases t <;> first | rfl | cases hi
    have hf := intFits_leNat hlen
    cases t with
    | f32 =>
      injection h with h
      have hb : leNat b < 2 ^ 32 := by
        have := leNat_lt b
        rw [hlen] at this
        exact this
      obtain ⟨c, h1, h2, h3⟩ := narrow_widen _ hb
      refine ⟨leEnc 4 c, ?_, rfl, ?_⟩
      · rw [← h]; show (narrow (widen (leNat b))).map (leEnc 4) = _
        rw [h1]; rfl
      · show Except.ok (Value.float (widen (leNat (leEnc 4 c)))) = _
        rw [leNat_leEnc 4 c h2, h3, h]
    | f64 =>
      injection h with h
      refine ⟨b, ?_, hlen, ?_⟩
      · rw [← h]
        show Except.ok (leEnc 8 (leNat b)) = _
        have e : b.length = 8 := hlen
        rw [← e, leEnc_leNat]
      · unfold unpackScalar
        rw [if_neg (by omega), ← h]
    | bool =>
      injection h with h
      refine ⟨_, by rw [← h]; rfl, ?_, ?_⟩
      · rfl
      · rw [← h]
        by_cases h0 : leNat b ≠ 0
        · simp [h0]; rfl
        · simp [h0]; rfl
    | char =>
      injection h with h
      have e : b.length = 1 := hlen
      match b, e with
      | [x], _ => exact ⟨[x], by rw [← h]; rfl, rfl, by rw [← h]; rfl⟩
    | i8 | u8 | i16 | u16 | i32 | u32 | i64 | u64 =>
      injection h with h
      exact hint _ hf rfl h.symm

/-- the type of an info message and its value fit together: the value could have been read, and the
writer supports the type -/
def InfoOk (ty : Str) (v : Value) : Prop :=
  if startsWith (py! "char[") ty then ∃ s, v = .str s
  else if startsWith (py! "uint8_t[") ty then ∃ b, v = .bytes b
  else ∃ t b, BT.ofName ty = some t ∧ unpackScalar t b = .ok v

theorem ofName_uint8arr {ty : Str} (h : startsWith (py! "uint8_t[") ty = true) :
    BT.ofName ty = none := by
  have h' : py! "uint8_t[" <+: ty := by simpa [startsWith] using h
  obtain ⟨r, rfl⟩ := h'
  simp [BT.ofName, BT.all, BT.name]

theorem infoValue_roundtrip (ign : Bool) {ty : Str} {v : Value} (h : InfoOk ty v) :
    ∃ b, infoValueBytes ty v = .ok b ∧ parseInfoValue ign ty b = .ok v := by
  unfold InfoOk at h
  unfold infoValueBytes parseInfoValue
  by_cases h1 : startsWith (py! "char[") ty = true
  · rw [if_pos h1] at h ⊢
    obtain ⟨s, rfl⟩ := h
    refine ⟨_, rfl, ?_⟩
    rw [if_pos h1, C19_roundtrip]; rfl
  · rw [if_neg h1] at h ⊢
    by_cases h2 : startsWith (py! "uint8_t[") ty = true
    · rw [if_pos h2] at h ⊢
      obtain ⟨b, rfl⟩ := h
      refine ⟨b, rfl, ?_⟩
      rw [if_neg h1, ofName_uint8arr h2]
    · rw [if_neg h2] at h ⊢
      obtain ⟨t, b, h3, h4⟩ := h
      rw [h3]
      obtain ⟨b', h5, _, h6⟩ := scalar_roundtrip h4
      refine ⟨b', h5, ?_⟩
      rw [if_neg h1]
      exact h6

/-! ### keys -/

theorem pySplit_of_not_mem {c : Char} {s : Str} (h : c ∉ s) : pySplit c s = [s] := by
  induction s with
  | nil => rfl
  | cons x xs ih =>
    rw [List.mem_cons, not_or] at h
    simp only [pySplit]
    rw [if_neg (fun e => h.1 e.symm), ih h.2]

theorem pySplit_append {c : Char} {a b : Str} (h : c ∉ a) :
    pySplit c (a ++ c :: b) = a :: pySplit c b := by
  induction a with
  | nil => simp [pySplit]
  | cons x xs ih =>
    rw [List.mem_cons, not_or] at h
    simp only [List.cons_append, pySplit]
    rw [if_neg (fun e => h.1 e.symm), ih h.2]

/-- text of the key of an info message -/
def typeKey (ty k : Str) : Str := ty ++ py! " " ++ k

theorem pySplit_typeKey {ty k : Str} (h1 : ' ' ∉ ty) (h2 : ' ' ∉ k) :
    pySplit ' ' (typeKey ty k) = [ty, k] := by
  have : typeKey ty k = ty ++ ' ' :: k := by simp [typeKey]
  rw [this, pySplit_append h1, pySplit_of_not_mem h2]

/-- reading an info payload -/
theorem parseInfo_payload (ign : Bool) {ty k : Str} {v : Value} {vb : Bytes}
    (h1 : ' ' ∉ ty) (h2 : ' ' ∉ k) (hlen : (encStr (typeKey ty k)).length < 256)
    (hv : parseInfoValue ign ty vb = .ok v) :
    parseInfo ign (leEnc 1 (encStr (typeKey ty k)).length ++ encStr (typeKey ty k) ++ vb)
      = .ok { cont := 0, type := ty, key := k, value := v } := by
  generalize hn : (encStr (typeKey ty k)).length = n at *
  unfold parseInfo
  have e1 : slice 0 1 (leEnc 1 n ++ encStr (typeKey ty k) ++ vb) = leEnc 1 n := by
    rw [slice_zero, List.append_assoc, List.take_left' (by simp)]
  have e2 : slice 1 (1 + n) (leEnc 1 n ++ encStr (typeKey ty k) ++ vb) = encStr (typeKey ty k) :=
    by rw [List.append_assoc]; exact slice_mid _ _ _ (leEnc_length ..) (by rw [hn])
  have e3 : (leEnc 1 n ++ encStr (typeKey ty k) ++ vb).drop (1 + n) = vb :=
    List.drop_left' (by rw [List.length_append, leEnc_length, hn])
  rw [e1, unpackU_leEnc (by simpa using hlen)]
  simp only [ok_bind, e2, e3, C19_roundtrip, pySplit_typeKey h1 h2]
  show (parseInfoValue ign ty vb >>= fun value => _) = _
  rw [hv]
  rfl

/-- flag byte before a multi-part info payload -/
def contBytes : Option Bool → Bytes
  | none => []
  | some b => leEnc 1 (if b then 1 else 0)

theorem infoData_ok_iff {key ty : Str} {v : Value} {c : Option Bool} {d : Bytes} :
    infoData key v ty c = .ok d ↔ (encStr key).length < 256 ∧
      ∃ vb, infoValueBytes ty v = .ok vb ∧
        d = contBytes c ++ (leEnc 1 (encStr key).length ++ encStr key ++ vb) := by
  unfold infoData
  constructor
  · intro h
    obtain ⟨n, h1, h⟩ := except_bind_ok.mp h
    obtain ⟨vb, h2, h⟩ := except_bind_ok.mp h
    obtain ⟨h1, e1⟩ := packU_eq_ok h1
    injection h with h
    refine ⟨by simpa using h1, vb, h2, ?_⟩
    rw [← h, e1]
    cases c <;> simp [contBytes]
  · rintro ⟨h1, vb, h2, h3⟩
    have e1 := packU_ok (show (encStr key).length < 256 ^ 1 by simpa using h1)
    simp only [e1, h2, ok_bind]
    rw [h3]
    cases c <;> simp [contBytes] <;> rfl

/-! ### parameters -/

/-- type name written for a parameter value -/
def paramType : Value → Str
  | .float _ => py! "float"
  | _ => py! "int32_t"

theorem paramData_eq {k : Str} {v : Value} (h : ParamOk v) :
    paramData k v = infoData (typeKey (paramType v) k) v (paramType v) none := by
  rcases h with ⟨n, rfl, _⟩ | ⟨b, rfl⟩ | ⟨x, _, rfl⟩ <;> rfl

theorem paramValue_roundtrip (ign : Bool) {v : Value} (h : ParamOk v) :
    ∃ b, infoValueBytes (paramType v) v = .ok b ∧ b.length = 4 ∧
      parseInfoValue ign (paramType v) b = .ok (asParam v) := by
  have hint : ∀ n : Int, -2 ^ 31 ≤ n → n < 2 ^ 31 → ∃ b, packInt .i32 n = .ok b ∧ b.length = 4 ∧
      unpackScalar .i32 b = .ok (.int n) := by
    intro n h1 h2
    obtain ⟨b, h3, h4, h5⟩ := packInt_ok (t := .i32) (n := n) ⟨h1, h2⟩
    refine ⟨b, h3, h4, ?_⟩
    unfold unpackScalar
    rw [if_neg (by omega), ← h5]
    rfl
  rcases h with ⟨n, rfl, h1, h2⟩ | ⟨b, rfl⟩ | ⟨x, hx, rfl⟩
  · obtain ⟨b, h3, h4, h5⟩ := hint n h1 h2
    exact ⟨b, h3, h4, h5⟩
  · obtain ⟨b', h3, h4, h5⟩ := hint (if b then 1 else 0) (by split <;> decide) (by split <;> decide)
    exact ⟨b', h3, h4, h5⟩
  · obtain ⟨c, h1, h2, h3⟩ := narrow_widen x hx
    refine ⟨leEnc 4 c, ?_, rfl, ?_⟩
    · show (narrow (widen x)).map (leEnc 4) = _
      rw [h1]; rfl
    · show Except.ok (Value.float (widen (leNat (leEnc 4 c)))) = _
      rw [leNat_leEnc 4 c h2, h3]
      rfl

theorem no_space_paramType (v : Value) : ' ' ∉ paramType v := by
  cases v <;> (simp only [paramType]; decide)

/-- payload of a parameter message, and what is read from it -/
theorem paramData_ok (ign : Bool) {k : Str} {v : Value} {d : Bytes} (hk : ' ' ∉ k) (h : ParamOk v)
    (hd : paramData k v = .ok d) :
    parseInfo ign d = .ok { cont := 0, type := paramType v, key := k, value := asParam v } := by
  rw [paramData_eq h, infoData_ok_iff] at hd
  obtain ⟨h1, vb, h2, h3⟩ := hd
  obtain ⟨b, h4, _, h5⟩ := paramValue_roundtrip ign h
  rw [h4] at h2
  injection h2 with h2
  subst h2
  rw [h3]
  exact parseInfo_payload ign (no_space_paramType v) hk h1 h5

/-! ### text messages and dropouts -/

theorem parseLogging_payload (ign : Bool) (m : LogMsg) (h1 : m.level < 256) (h2 : m.ts < 256 ^ 8) :
    parseLogging ign (leEnc 1 m.level ++ leEnc 8 m.ts ++ encStr m.msg) = .ok m := by
  unfold parseLogging
  have e1 : slice 0 1 (leEnc 1 m.level ++ leEnc 8 m.ts ++ encStr m.msg) = leEnc 1 m.level := by
    rw [slice_zero, List.append_assoc, List.take_left' (leEnc_length ..)]
  have e2 : slice 1 9 (leEnc 1 m.level ++ leEnc 8 m.ts ++ encStr m.msg) = leEnc 8 m.ts := by
    rw [List.append_assoc]; exact slice_mid _ _ _ (leEnc_length ..) (by rw [leEnc_length])
  have e3 : (leEnc 1 m.level ++ leEnc 8 m.ts ++ encStr m.msg).drop 9 = encStr m.msg :=
    List.drop_left' (by rw [List.length_append, leEnc_length, leEnc_length])
  rw [e1, e2, e3, unpackU_leEnc (by simpa using h1), unpackU_leEnc h2, C19_roundtrip]
  rfl

theorem parseLoggingTagged_payload (ign : Bool) (m : TagMsg) (h1 : m.level < 256)
    (h2 : m.tag < 256 ^ 2) (h3 : m.ts < 256 ^ 8) :
    parseLoggingTagged ign (leEnc 1 m.level ++ leEnc 2 m.tag ++ leEnc 8 m.ts ++ encStr m.msg)
      = .ok m := by
  unfold parseLoggingTagged
  have e1 : slice 0 1 (leEnc 1 m.level ++ leEnc 2 m.tag ++ leEnc 8 m.ts ++ encStr m.msg)
      = leEnc 1 m.level := by
    rw [slice_zero, List.append_assoc, List.append_assoc, List.take_left' (leEnc_length ..)]
  have e2 : slice 1 3 (leEnc 1 m.level ++ leEnc 2 m.tag ++ leEnc 8 m.ts ++ encStr m.msg)
      = leEnc 2 m.tag := by
    rw [List.append_assoc, List.append_assoc]
    exact slice_mid _ _ _ (leEnc_length ..) (by rw [leEnc_length])
  have e4 : slice 3 11 (leEnc 1 m.level ++ leEnc 2 m.tag ++ leEnc 8 m.ts ++ encStr m.msg)
      = leEnc 8 m.ts := by
    rw [List.append_assoc (leEnc 1 m.level ++ leEnc 2 m.tag)]
    exact slice_mid _ _ _ (by rw [List.length_append, leEnc_length, leEnc_length])
      (by rw [leEnc_length])
  have e3 : (leEnc 1 m.level ++ leEnc 2 m.tag ++ leEnc 8 m.ts ++ encStr m.msg).drop 11
      = encStr m.msg :=
    List.drop_left' (by simp only [List.length_append, leEnc_length])
  rw [e1, e2, e3, e4, unpackU_leEnc (by simpa using h1), unpackU_leEnc h2, unpackU_leEnc h3,
    C19_roundtrip]
  rfl

/-! ### samples -/

theorem typed_iff {t : BT} {v : NpVal} :
    Typed t v ↔ ∃ b : Bytes, b.length = t.size ∧ v = npDecode t b := by
  unfold Typed
  rw [width_eq]
  constructor
  · rintro ⟨b, h1, h2⟩
    refine ⟨b, h1, ?_⟩
    rw [h2, ← npDecode_spec t b 0 (by rw [width_eq]; omega), slice_zero,
      List.take_of_length_le (by omega)]
  · rintro ⟨b, h1, h2⟩
    refine ⟨b, h1, ?_⟩
    rw [h2, ← npDecode_spec t b 0 (by rw [width_eq]; omega), slice_zero,
      List.take_of_length_le (by omega)]

theorem packNp_ok {t : BT} {v : NpVal} {b : Bytes} (hv : Typed t v) (h : packNp t v = .ok b) :
    b.length = t.size ∧ npDecode t b = stored t v := by
  obtain ⟨b0, hb0, rfl⟩ := typed_iff.mp hv
  have hint : ∀ n : Int, t.isInt = true → npDecode t b0 = .int n → b.length = t.size ∧
      npDecode t b = stored t (.int n) := by
    intro n hi hv
    rw [hv] at h
    have h : packInt t n = .ok b := by cases t <;> first | exact h | cases hi
    obtain ⟨b', h1, h2, h3⟩ := packInt_ok (packInt_fits h)
    rw [h] at h1
    injection h1 with h1
    subst h1
    refine ⟨h2, ?_⟩
    rw [← h3]
    cases t <;> first | rfl | cases hi
  cases t with
  | i8 | u8 | i16 | u16 | i32 | u32 | i64 | u64 => exact hint _ rfl rfl
  | f32 =>
    have hb : leNat b0 < 2 ^ 32 := by
      have := leNat_lt b0
      rw [hb0] at this
      exact this
    replace h : (narrow (widen (leNat b0))).map (leEnc 4) = .ok b := h
    rcases sNaN_dec (leNat b0) with hs | hs
    · rw [C50_signalling_nan _ hs] at h
      injection h with h
      subst h
      have hs' := hs
      unfold sNaN32 exp32 frac32 at hs'
      refine ⟨rfl, ?_⟩
      show NpVal.f32 (leNat (leEnc 4 (leNat b0 + 2 ^ 22))) = NpVal.f32 (if _ then _ else _)
      rw [if_pos hs', leNat_leEnc _ _ (show _ < 2 ^ 32 by omega)]
    · rw [C50_float_roundtrip _ hb hs] at h
      injection h with h
      subst h
      have hs' := hs
      unfold sNaN32 exp32 frac32 at hs'
      refine ⟨rfl, ?_⟩
      show NpVal.f32 (leNat (leEnc 4 (leNat b0))) = NpVal.f32 (if _ then _ else _)
      rw [if_neg hs', leNat_leEnc _ _ (show _ < 2 ^ 32 from hb)]
  | f64 =>
    replace h : Except.ok (leEnc 8 (leNat b0)) = Except.ok b := h
    injection h with h
    subst h
    refine ⟨rfl, ?_⟩
    show NpVal.f64 (leNat (leEnc 8 (leNat b0))) = NpVal.f64 (leNat b0)
    have := leNat_lt b0
    rw [hb0] at this
    rw [leNat_leEnc 8 _ this]
  | bool =>
    replace h : Except.ok [if toSigned 1 (leNat b0) ≠ 0 then (1 : UInt8) else 0] = Except.ok b := h
    injection h with h
    subst h
    refine ⟨rfl, ?_⟩
    show NpVal.int (toSigned 1 (leNat _)) = NpVal.int (if toSigned 1 (leNat b0) = 0 then 0 else 1)
    by_cases h0 : toSigned 1 (leNat b0) = 0
    · rw [if_neg (not_not_intro h0), if_pos h0]; rfl
    · rw [if_pos h0, if_neg h0]; rfl
  | char =>
    replace h : (if toSigned 1 (leNat b0) < 0 then Except.error PyErr.valueError
      else if toSigned 1 (leNat b0) < 128 then
        Except.ok [UInt8.ofNat (toSigned 1 (leNat b0)).toNat]
      else Except.error PyErr.structError) = Except.ok b := h
    split at h
    · cases h
    · split at h
      · rename_i h1 h2
        injection h with h
        subst h
        refine ⟨rfl, ?_⟩
        show NpVal.int (toSigned 1 (leNat _)) = NpVal.int (toSigned 1 (leNat b0))
        generalize toSigned 1 (leNat b0) = z at *
        congr 1
        simp only [leNat]
        have : (UInt8.ofNat z.toNat).toNat = z.toNat := by
          simp; omega
        rw [this]
        unfold toSigned
        rw [if_pos (by omega)]
        omega
      · cases h

/-- packing of one field of a sample -/
def packField (d : Dataset) (i : Nat) (f : FieldData) : Except PyErr Bytes :=
  match d.data.get? f.name with
  | none => .error .keyError
  | some col => do
    let v ← pyIndex col i
    packNp f.type v

theorem packField_ok {d : Dataset} {i : Nat} {f : FieldData} {b : Bytes}
    (ht : ∀ col, d.data.get? f.name = some col → ∀ v ∈ col, Typed f.type v)
    (h : packField d i f = .ok b) :
    ∃ v, cell d f.name i = some v ∧ b.length = f.type.size ∧ npDecode f.type b = stored f.type v := by
  unfold packField at h
  split at h
  · cases h
  · rename_i col hc
    obtain ⟨v, h1, h2⟩ := except_bind_ok.mp h
    unfold pyIndex at h1
    split at h1
    · rename_i x hx
      injection h1 with h1
      subst h1
      obtain ⟨p, q⟩ := packNp_ok (ht col hc _ (List.mem_of_getElem? hx)) h2
      exact ⟨_, by simp [cell, hc, hx], p, q⟩
    · cases h1

theorem rowSize_cons (f : FieldData) (fs : List FieldData) :
    rowSize (f :: fs) = f.type.size + rowSize fs := by
  simp [rowSize, width_eq]

theorem rowSize_take_succ (fs : List FieldData) (k : Nat) (h : k < fs.length) :
    rowSize (fs.take k) + fs[k].type.size ≤ rowSize fs := by
  induction fs generalizing k with
  | nil => simp at h
  | cons f fs ih =>
    cases k with
    | zero => simp [rowSize]; rw [width_eq]; omega
    | succ k =>
      rw [List.take_succ_cons, rowSize_cons, rowSize_cons, List.getElem_cons_succ]
      have := ih k (by simpa using h)
      omega

theorem valueAt_append_left {t : BT} {a b : Bytes} {off : Nat} (h : off + t.size ≤ a.length) :
    valueAt t (a ++ b) off = valueAt t a off := by
  rw [← npDecode_spec t a off (by rw [width_eq]; exact h),
    ← npDecode_spec t (a ++ b) off (by rw [width_eq, List.length_append]; omega),
    slice_append_left _ _ h]

theorem valueAt_append_right {t : BT} {a b : Bytes} {off : Nat} (h : off + t.size ≤ b.length) :
    valueAt t (a ++ b) (a.length + off) = valueAt t b off := by
  rw [← npDecode_spec t b off (by rw [width_eq]; exact h),
    ← npDecode_spec t (a ++ b) _ (by rw [width_eq, List.length_append]; omega),
    slice_append_right _ _ (by omega)]
  congr 2 <;> omega

theorem valueAt_zero {t : BT} {b : Bytes} (h : b.length = t.size) : valueAt t b 0 = npDecode t b := by
  rw [← npDecode_spec t b 0 (by rw [width_eq]; omega), slice_zero, List.take_of_length_le (by omega)]

theorem packFields_ok {d : Dataset} {i : Nat} {fs : List FieldData} {row : Bytes}
    (ht : ∀ f ∈ fs, ∀ col, d.data.get? f.name = some col → ∀ v ∈ col, Typed f.type v)
    (h : concatM (fs.map (packField d i)) = .ok row) :
    row.length = rowSize fs ∧ ∀ k (h : k < fs.length), ∃ v, cell d fs[k].name i = some v ∧
      valueAt fs[k].type row (rowSize (fs.take k)) = stored fs[k].type v := by
  induction fs generalizing row with
  | nil =>
    injection h with h
    subst h
    exact ⟨rfl, fun k hk => absurd hk (by simp)⟩
  | cons f fs ih =>
    rw [List.map_cons, concatM_cons_ok] at h
    obtain ⟨a, r, h1, h2, rfl⟩ := h
    obtain ⟨v, c1, c2, c3⟩ := packField_ok (ht f (List.mem_cons_self ..)) h1
    obtain ⟨l1, l2⟩ := ih (fun f hf => ht f (List.mem_cons_of_mem _ hf)) h2
    refine ⟨by rw [List.length_append, c2, l1, rowSize_cons], ?_⟩
    intro k hk
    cases k with
    | zero =>
      refine ⟨v, c1, ?_⟩
      show valueAt f.type (a ++ r) 0 = _
      rw [valueAt_append_left (by omega), valueAt_zero c2, c3]
      rfl
    | succ k =>
      have hk' : k < fs.length := by simpa using hk
      obtain ⟨v, d1, d2⟩ := l2 k hk'
      refine ⟨v, d1, ?_⟩
      rw [List.take_succ_cons, rowSize_cons, ← c2]
      show valueAt fs[k].type (a ++ r) (a.length + rowSize (fs.take k)) = _
      rw [valueAt_append_right, d2]
      · rfl
      · rw [l1]; exact rowSize_take_succ fs k hk'

/-- what a sample item is -/
theorem sampleItem_ok {d : Dataset} {i : Nat} {x : Item} (ht : ColumnsTyped d)
    (h : sampleItem d i = .ok x) :
    ∃ m : Nat × Bytes, x.2 = encMsg m ∧ Fits m ∧ IsRow d i (x.1, m) := by
  unfold sampleItem at h
  split at h
  · cases h
  · rename_i col hcol
    obtain ⟨ts, h1, ha⟩ := except_bind_ok.mp h
    obtain ⟨id, h2', hb⟩ := except_bind_ok.mp ha
    obtain ⟨row, h3, hc⟩ := except_bind_ok.mp hb
    obtain ⟨b, h4, hd⟩ := except_bind_ok.mp hc
    clear h ha hb hc
    obtain ⟨h2, rfl⟩ := packU_eq_ok h2'
    obtain ⟨f1, f2, f3⟩ := (frame_ok_iff _ _ _).mp h4
    obtain ⟨r1, r2⟩ := packFields_ok (fs := d.fields) ht h3
    cases ts with
    | int t =>
      injection hd with hd
      subst hd
      refine ⟨_, f3, ⟨f1, f2⟩, rfl, ?_, ?_, ?_, ?_⟩
      · simp only [List.length_append, leEnc_length, r1]
      · show leAt (leEnc 2 d.msgId ++ row) 0 2 = _
        rw [leAt_slice _ _ _ (by simp), slice_zero, List.take_left' (by simp), leNat_leEnc _ _ h2]
      · unfold pyIndex at h1
        split at h1
        · rename_i y hy
          injection h1 with h1
          subst h1
          simp [cell, hcol, hy]
        · cases h1
      · show ∀ k (h : k < d.fields.length), ∃ v, cell d d.fields[k].name i = some v ∧
          valueAt d.fields[k].type ((leEnc 2 d.msgId ++ row).drop 2) (rowSize (d.fields.take k)) = _
        rw [List.drop_left' (by simp)]
        exact r2
    | f32 x => cases hd
    | f64 x => cases hd

end PyULog
