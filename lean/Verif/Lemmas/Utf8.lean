import Verif.Model.Text
/-
UTF-8: the decoder step inverts the encoder.
-/
namespace PyULog

theorem charNat {n : Nat} (h : n.isValidChar) : (Char.ofNat n).toNat = n := by
  unfold Char.ofNat
  rw [dif_pos h]
  rfl

theorem charValid (c : Char) : c.toNat < 0xD800 ∨ (0xDFFF < c.toNat ∧ c.toNat < 0x110000) := c.valid

theorem u8Nat {n : Nat} (h : n < 256) : (UInt8.ofNat n).toNat = n := by
  rw [UInt8.toNat_ofNat']; omega

theorem u8Of {b : UInt8} {n : Nat} (h : b.toNat = n) : UInt8.ofNat n = b := by
  subst h; exact UInt8.ofNat_toNat

/-- the model's encoder is Lean's -/
theorem encChar_eq (c : Char) : encChar c = String.utf8EncodeChar c := by
  unfold encChar String.utf8EncodeChar
  have hv := charValid c
  have e : c.val.toNat = c.toNat := rfl
  simp only [e]
  generalize c.toNat = n at *
  by_cases h1 : n < 0x80
  · rw [if_pos h1, if_pos (by omega)]
  · rw [if_neg h1, if_neg (show ¬ n ≤ 0x7f by omega)]
    by_cases h2 : n < 0x800
    · rw [if_pos h2, if_pos (by omega)]
      rw [show 0xC0 + n / 64 = n / 64 % 0x20 + 0xc0 by omega,
        show 0x80 + n % 64 = n % 0x40 + 0x80 by omega]
    · rw [if_neg h2, if_neg (show ¬ n ≤ 0x7ff by omega)]
      by_cases h3 : n < 0x10000
      · rw [if_pos h3, if_pos (by omega)]
        rw [show 0xE0 + n / 4096 = n / 4096 % 0x10 + 0xe0 by omega,
          show 0x80 + n / 64 % 64 = n / 64 % 0x40 + 0x80 by omega,
          show 0x80 + n % 64 = n % 0x40 + 0x80 by omega]
      · rw [if_neg h3, if_neg (show ¬ n ≤ 0xffff by omega)]
        rw [show 0xF0 + n / 262144 = n / 262144 % 0x08 + 0xf0 by omega,
          show 0x80 + n / 4096 % 64 = n / 4096 % 0x40 + 0x80 by omega,
          show 0x80 + n / 64 % 64 = n / 64 % 0x40 + 0x80 by omega,
          show 0x80 + n % 64 = n % 0x40 + 0x80 by omega]

theorem isCont_iff (b : UInt8) : isCont b = true ↔ 0x80 ≤ b.toNat ∧ b.toNat < 0xC0 := by
  simp [isCont]

theorem ok3_iff (b0 b1 : UInt8) : ok3 b0 b1 = true ↔
    (0x80 ≤ b1.toNat ∧ b1.toNat < 0xC0) ∧ (b0.toNat = 0xE0 → 0xA0 ≤ b1.toNat) ∧
      (b0.toNat = 0xED → b1.toNat < 0xA0) := by
  simp [ok3, isCont]
  omega

theorem ok4_iff (b0 b1 : UInt8) : ok4 b0 b1 = true ↔
    (0x80 ≤ b1.toNat ∧ b1.toNat < 0xC0) ∧ (b0.toNat = 0xF0 → 0x90 ≤ b1.toNat) ∧
      (b0.toNat = 0xF4 → b1.toNat < 0x90) := by
  simp [ok4, isCont]
  omega

/-- decoding the encoding of a character gives it back, whatever follows -/
theorem dec1_encChar (c : Char) (r : Bytes) :
    ∃ b t, encChar c = b :: t ∧ dec1 b (t ++ r) = .char c r := by
  unfold encChar
  have hv := charValid c
  have hc := Char.ofNat_toNat c
  simp only
  generalize hn : c.toNat = n at *
  by_cases h1 : n < 0x80
  · rw [if_pos h1]
    refine ⟨_, _, rfl, ?_⟩
    unfold dec1
    simp only [u8Nat (show n < 256 by omega), if_pos h1, hc, List.nil_append]
  · rw [if_neg h1]
    by_cases h2 : n < 0x800
    · rw [if_pos h2]
      refine ⟨_, _, rfl, ?_⟩
      have e0 := u8Nat (show 0xC0 + n / 64 < 256 by omega)
      have e1 := u8Nat (show 0x80 + n % 64 < 256 by omega)
      have c1 : isCont (UInt8.ofNat (0x80 + n % 64)) = true := by rw [isCont_iff, e1]; omega
      unfold dec1
      simp only [e0, e1, List.cons_append, List.nil_append, c1, if_true]
      rw [if_neg (by omega), if_neg (by omega), if_pos (by omega)]
      rw [show (0xC0 + n / 64 - 0xC0) * 64 + (0x80 + n % 64 - 0x80) = n by omega, hc]
    · rw [if_neg h2]
      by_cases h3 : n < 0x10000
      · rw [if_pos h3]
        refine ⟨_, _, rfl, ?_⟩
        have e0 := u8Nat (show 0xE0 + n / 4096 < 256 by omega)
        have e1 := u8Nat (show 0x80 + n / 64 % 64 < 256 by omega)
        have e2 := u8Nat (show 0x80 + n % 64 < 256 by omega)
        have c1 : ok3 (UInt8.ofNat (0xE0 + n / 4096)) (UInt8.ofNat (0x80 + n / 64 % 64)) = true := by
          rw [ok3_iff, e0, e1]; omega
        have c2 : isCont (UInt8.ofNat (0x80 + n % 64)) = true := by rw [isCont_iff, e2]; omega
        unfold dec1
        simp only [e0, e1, e2, List.cons_append, List.nil_append, c1, c2, if_true, Bool.not_true,
          Bool.false_eq_true, if_false]
        rw [if_neg (by omega), if_neg (by omega), if_neg (by omega), if_pos (by omega)]
        rw [show (0xE0 + n / 4096 - 0xE0) * 4096 + (0x80 + n / 64 % 64 - 0x80) * 64
          + (0x80 + n % 64 - 0x80) = n by omega, hc]
      · rw [if_neg h3]
        refine ⟨_, _, rfl, ?_⟩
        have e0 := u8Nat (show 0xF0 + n / 262144 < 256 by omega)
        have e1 := u8Nat (show 0x80 + n / 4096 % 64 < 256 by omega)
        have e2 := u8Nat (show 0x80 + n / 64 % 64 < 256 by omega)
        have e3 := u8Nat (show 0x80 + n % 64 < 256 by omega)
        have c1 : ok4 (UInt8.ofNat (0xF0 + n / 262144)) (UInt8.ofNat (0x80 + n / 4096 % 64)) = true := by
          rw [ok4_iff, e0, e1]; omega
        have c2 : isCont (UInt8.ofNat (0x80 + n / 64 % 64)) = true := by rw [isCont_iff, e2]; omega
        have c3 : isCont (UInt8.ofNat (0x80 + n % 64)) = true := by rw [isCont_iff, e3]; omega
        unfold dec1
        simp only [e0, e1, e2, e3, List.cons_append, List.nil_append, c1, c2, c3, if_true,
          Bool.not_true, Bool.false_eq_true, if_false]
        rw [if_neg (by omega), if_neg (by omega), if_neg (by omega), if_neg (by omega),
          if_pos (by omega)]
        rw [show (0xF0 + n / 262144 - 0xF0) * 262144 + (0x80 + n / 4096 % 64 - 0x80) * 4096
          + (0x80 + n / 64 % 64 - 0x80) * 64 + (0x80 + n % 64 - 0x80) = n by omega, hc]

/-- a decoded character was encoded there -/
theorem dec1_char {b : UInt8} {t r : Bytes} {c : Char} (h : dec1 b t = .char c r) :
    b :: t = encChar c ++ r := by
  unfold dec1 at h
  simp only at h
  have hb : b.toNat < 256 := b.toNat_lt
  split at h
  · rename_i h0
    obtain ⟨h1, h2⟩ := U8.char.inj h
    rw [← h1, ← h2]
    unfold encChar
    rw [charNat (Or.inl (by omega))]
    simp only
    rw [if_pos h0, u8Of rfl]; rfl
  · split at h
    · cases h
    · split at h
      · split at h
        · cases h
        · rename_i b1 t1
          split at h
          · rename_i hc
            rw [isCont_iff] at hc
            obtain ⟨h1, h2⟩ := U8.char.inj h
            rw [← h1, ← h2]
            unfold encChar
            have hn := charNat (n := (b.toNat - 0xC0) * 64 + (b1.toNat - 0x80)) (Or.inl (by omega))
            simp only [hn]
            rw [if_neg (by omega), if_pos (by omega)]
            rw [u8Of (b := b) (by omega), u8Of (b := b1) (by omega)]; rfl
          · cases h
      · split at h
        · split at h
          · cases h
          · rename_i b1 t1
            split at h
            · cases h
            · rename_i hc
              have hc : ok3 b b1 = true := by simpa using hc
              rw [ok3_iff] at hc
              split at h
              · cases h
              · rename_i b2 t2
                split at h
                · rename_i hc2
                  rw [isCont_iff] at hc2
                  obtain ⟨h1, h2⟩ := U8.char.inj h
                  rw [← h1, ← h2]
                  unfold encChar
                  have hn := charNat (n := (b.toNat - 0xE0) * 4096 + (b1.toNat - 0x80) * 64
                    + (b2.toNat - 0x80)) (by unfold Nat.isValidChar; omega)
                  simp only [hn]
                  rw [if_neg (by omega), if_neg (by omega), if_pos (by omega)]
                  rw [u8Of (b := b) (by omega), u8Of (b := b1) (by omega),
                    u8Of (b := b2) (by omega)]; rfl
                · cases h
        · split at h
          · split at h
            · cases h
            · rename_i b1 t1
              split at h
              · cases h
              · rename_i hc
                have hc : ok4 b b1 = true := by simpa using hc
                rw [ok4_iff] at hc
                split at h
                · cases h
                · rename_i b2 t2
                  split at h
                  · cases h
                  · rename_i hc2
                    have hc2 : isCont b2 = true := by simpa using hc2
                    rw [isCont_iff] at hc2
                    split at h
                    · cases h
                    · rename_i b3 t3
                      split at h
                      · rename_i hc3
                        rw [isCont_iff] at hc3
                        obtain ⟨h1, h2⟩ := U8.char.inj h
                        rw [← h1, ← h2]
                        unfold encChar
                        have hn := charNat (n := (b.toNat - 0xF0) * 262144
                          + (b1.toNat - 0x80) * 4096 + (b2.toNat - 0x80) * 64 + (b3.toNat - 0x80))
                          (by unfold Nat.isValidChar; omega)
                        simp only [hn]
                        rw [if_neg (by omega), if_neg (by omega), if_neg (by omega)]
                        rw [u8Of (b := b) (by omega), u8Of (b := b1) (by omega),
                          u8Of (b := b2) (by omega), u8Of (b := b3) (by omega)]; rfl
                      · cases h
          · cases h

/-- what is rejected: the first byte, and continuation bytes -/
theorem dec1_bad {b : UInt8} {t r : Bytes} (h : dec1 b t = .bad r) :
    ∃ p, t = p ++ r ∧ ∀ x ∈ p, isCont x = true := by
  unfold dec1 at h
  simp only at h
  split at h
  · cases h
  · split at h
    · cases h; exact ⟨[], rfl, by simp⟩
    · split at h
      · split at h
        · cases h; exact ⟨[], rfl, by simp⟩
        · split at h
          · cases h
          · cases h; exact ⟨[], rfl, by simp⟩
      · split at h
        · split at h
          · cases h; exact ⟨[], rfl, by simp⟩
          · rename_i b1 t1
            split at h
            · cases h; exact ⟨[], rfl, by simp⟩
            · rename_i hc
              have hc1 : isCont b1 = true := by
                have hc : ok3 b b1 = true := by simpa using hc
                rw [ok3_iff] at hc
                exact (isCont_iff _).mpr hc.1
              split at h
              · cases h; exact ⟨[b1], rfl, by simp [hc1]⟩
              · split at h
                · cases h
                · cases h; exact ⟨[b1], rfl, by simp [hc1]⟩
        · split at h
          · split at h
            · cases h; exact ⟨[], rfl, by simp⟩
            · rename_i b1 t1
              split at h
              · cases h; exact ⟨[], rfl, by simp⟩
              · rename_i hc
                have hc1 : isCont b1 = true := by
                  have hc : ok4 b b1 = true := by simpa using hc
                  rw [ok4_iff] at hc
                  exact (isCont_iff _).mpr hc.1
                split at h
                · cases h; exact ⟨[b1], rfl, by simp [hc1]⟩
                · rename_i b2 t2
                  split at h
                  · cases h; exact ⟨[b1], rfl, by simp [hc1]⟩
                  · rename_i hc2
                    have hc2 : isCont b2 = true := by simpa using hc2
                    split at h
                    · cases h; exact ⟨[b1, b2], rfl, by simp [hc1, hc2]⟩
                    · split at h
                      · cases h
                      · cases h; exact ⟨[b1, b2], rfl, by simp [hc1, hc2]⟩
          · cases h; exact ⟨[], rfl, by simp⟩

theorem dec1_cont {b : UInt8} {t : Bytes} (h : isCont b = true) : dec1 b t = .bad t := by
  rw [isCont_iff] at h
  unfold dec1
  simp only
  rw [if_neg (by omega), if_pos (by omega)]

theorem encChar_pos (c : Char) : 0 < (encChar c).length := by
  obtain ⟨b, t, h, _⟩ := dec1_encChar c []
  rw [h]; simp

theorem decIgnoreF_mono {f g : Nat} {b : Bytes} (hf : b.length ≤ f) (hg : b.length ≤ g) :
    decIgnoreF f b = decIgnoreF g b := by
  induction f generalizing g b with
  | zero =>
    have : b = [] := List.length_eq_zero_iff.mp (by omega)
    subst this
    cases g <;> rfl
  | succ f ih =>
    cases b with
    | nil => cases g <;> rfl
    | cons x t =>
      cases g with
      | zero => simp at hg
      | succ g =>
        simp only [decIgnoreF]
        simp only [List.length_cons] at hf hg
        cases hd : dec1 x t with
        | char c r =>
          have := congrArg List.length (dec1_char hd)
          simp only [List.length_cons, List.length_append] at this
          have := encChar_pos c
          simp only
          exact congrArg _ (ih (by omega) (by omega))
        | bad r =>
          obtain ⟨p, hp, _⟩ := dec1_bad hd
          have := congrArg List.length hp
          simp only [List.length_append] at this
          exact ih (by omega) (by omega)

end PyULog
