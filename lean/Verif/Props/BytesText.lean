import Verif.Spec.BytesText
import Verif.Model.NumberText
/-
Property theorems: C84 (printed bytes).
-/
namespace PyULog
open Spec

/-- which of the three ways of writing a byte is used, and that it is the right one -/
def byteForm (q : Char) (b : UInt8) : Bool :=
  match byteRepr q b with
  | ['\\', 'x', a, c] =>
    match hexVal a, hexVal c with
    | some h, some l => decide (16 * h + l = b.toNat)
    | _, _ => false
  | ['\\', c] => decide (c ≠ 'x') && decide (unescape c = some b.toNat)
  | [c] => decide (c ≠ '\\') && decide (c ≠ q) && decide (32 ≤ c.toNat) && decide (c.toNat < 127) && decide (c.toNat = b.toNat)
  | _ => false

theorem byteForm_table : ∀ n : Fin 256, byteForm '\'' (UInt8.ofNat n.1) = true ∧ byteForm '"' (UInt8.ofNat n.1) = true := by
  decide +kernel

theorem byteForm_all {q : Char} (hq : q = '\'' ∨ q = '"') (b : UInt8) : byteForm q b = true := by
  have := byteForm_table ⟨b.toNat, b.toNat_lt⟩
  rw [UInt8.ofNat_toNat] at this
  rcases hq with rfl | rfl
  · exact this.1
  · exact this.2

theorem readItems_byte {q : Char} (hq : q = '\'' ∨ q = '"') (b : UInt8) (r : Str) {bs : List Nat} (h : readItems q r = some bs) :
    readItems q (byteRepr q b ++ r) = some (b.toNat :: bs) := by
  have hf := byteForm_all hq b
  unfold byteForm at hf
  split at hf
  · rename_i a c e
    rw [e]
    split at hf
    · rename_i x y hx hy
      rw [decide_eq_true_eq] at hf
      show readItems q ('\\' :: 'x' :: a :: c :: r) = _
      rw [readItems, hx, hy, h, ← hf]
    · cases hf
  · rename_i c e
    rw [Bool.and_eq_true, decide_eq_true_eq, decide_eq_true_eq] at hf
    rw [e]
    show readItems q ('\\' :: c :: r) = _
    rw [readItems]
    · rw [hf.2, h]
    · intro a b r' h1 _
      exact hf.1 h1
  · rename_i c e
    simp only [Bool.and_eq_true, decide_eq_true_eq] at hf
    obtain ⟨⟨⟨⟨h1, h2⟩, h3⟩, h4⟩, h5⟩ := hf
    rw [e]
    show readItems q (c :: r) = _
    rw [readItems]
    · rw [if_neg h1, if_neg h2, if_pos ⟨h3, h4⟩, h, h5]
      rfl
    · intro a b r' h6 _
      exact h1 h6
    · intro a r' h6
      exact absurd h6 h1
  · cases hf

/-- **C84**, bytes: a reader of the printed bytes literal gets exactly the bytes, whatever they are. -/
theorem C84_bytes (b : Bytes) : readBytes (bytesText b) = some (b.map (·.toNat)) := by
  have key : ∀ q, q = '\'' ∨ q = '"' → readItems q (b.flatMap (byteRepr q) ++ [q]) = some (b.map (·.toNat)) := by
    intro q hq
    induction b with
    | nil => rcases hq with rfl | rfl <;> decide
    | cons x b ih =>
      rw [List.flatMap_cons, List.append_assoc]
      exact readItems_byte hq x _ ih
  unfold bytesText
  dsimp only
  split
  · exact key _ (.inr rfl)
  · exact key _ (.inl rfl)

/-- quotes: double ones around single ones, else single ones, which are escaped if both are in the bytes -/
example : bytesText [0x61, 0x27, 0x00] = py! "b\"a'\\x00\"" ∧ bytesText [0x27, 0x22, 0x5c, 0xff] = py! "b'\\'\"\\\\\\xff'" ∧
    bytesText [9, 10, 13, 32] = py! "b'\\t\\n\\r '" := by decide +kernel

/-- C84, the quotes of bytes: single ones, unless there are single and no double ones among the bytes. -/
theorem C84_bytes_quotes (b : Bytes) :
    ((39 ∈ b ∧ 34 ∉ b) → ∃ t, bytesText b = py! "b\"" ++ t ++ py! "\"") ∧
    (¬ (39 ∈ b ∧ 34 ∉ b) → ∃ t, bytesText b = py! "b'" ++ t ++ py! "'") := by
  have hm : ∀ c : UInt8, (b.any fun x => decide (x.toNat = c.toNat)) = decide (c ∈ b) := by
    intro c
    rw [Bool.eq_iff_iff, List.any_eq_true, decide_eq_true_iff]
    constructor
    · rintro ⟨x, hx, he⟩
      rwa [← UInt8.toNat_inj.mp (of_decide_eq_true he)]
    · exact fun h => ⟨c, h, decide_eq_true rfl⟩
  have h1 := hm 39
  have h2 := hm 34
  have e1 : (39 : UInt8).toNat = 39 := rfl
  have e2 : (34 : UInt8).toNat = 34 := rfl
  rw [e1] at h1
  rw [e2] at h2
  unfold bytesText
  rw [h1, h2]
  constructor
  · rintro ⟨ha, hb⟩
    simp only [ha, hb, decide_true, decide_false, Bool.not_false, Bool.and_self, if_true]
    exact ⟨b.flatMap (byteRepr '"'), rfl⟩
  · intro h
    have : (decide ((39 : UInt8) ∈ b) && !decide ((34 : UInt8) ∈ b)) = false := by
      by_cases ha : (39 : UInt8) ∈ b <;> by_cases hb : (34 : UInt8) ∈ b <;> simp_all
    simp only [this, Bool.false_eq_true, if_false]
    exact ⟨b.flatMap (byteRepr '\''), rfl⟩

/-- **C84**: the printed bytes contain no line end and no character outside of ASCII. -/
theorem C84_bytes_printable (b : Bytes) : ∀ c ∈ bytesText b, 32 ≤ c.toNat ∧ c.toNat < 127 := by
  have tbl : ∀ n : Fin 256, (∀ c ∈ byteRepr '\'' (UInt8.ofNat n.1), 32 ≤ c.toNat ∧ c.toNat < 127) ∧
      ∀ c ∈ byteRepr '"' (UInt8.ofNat n.1), 32 ≤ c.toNat ∧ c.toNat < 127 := by decide +kernel
  have key : ∀ q, q = '\'' ∨ q = '"' → ∀ c ∈ 'b' :: q :: (b.flatMap (byteRepr q) ++ [q]), 32 ≤ c.toNat ∧ c.toNat < 127 := by
    intro q hq c hc
    have hqq : 32 ≤ q.toNat ∧ q.toNat < 127 := by rcases hq with rfl | rfl <;> decide
    rcases List.mem_cons.mp hc with rfl | hc
    · decide
    rcases List.mem_cons.mp hc with rfl | hc
    · exact hqq
    rcases List.mem_append.mp hc with hc | hc
    · obtain ⟨x, _, hx⟩ := List.mem_flatMap.mp hc
      have := tbl ⟨x.toNat, x.toNat_lt⟩
      rw [UInt8.ofNat_toNat] at this
      rcases hq with rfl | rfl
      · exact this.1 c hx
      · exact this.2 c hx
    · rw [List.mem_singleton.mp hc]
      exact hqq
  unfold bytesText
  dsimp only
  split
  · exact key _ (.inr rfl)
  · exact key _ (.inl rfl)

end PyULog
