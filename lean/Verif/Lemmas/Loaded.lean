import Verif.Lemmas.Number
import Verif.Props.Datasets
/-
Shape of the datasets of a loaded log.
-/
namespace PyULog
open Spec

/-- the bit patterns of the columns have their width -/
def Spec.ColumnsInRange (d : Dataset) : Prop := ∀ c ∈ d.data, ∀ v ∈ c.2, InRange v

/-- the columns are in field order, as the constructor of `Data` builds them -/
def Spec.FieldOrder (d : Dataset) : Prop := d.data.map (·.1) = columnNames d.fields

theorem leAt_lt (b : Bytes) (off n : Nat) : leAt b off n < 256 ^ n := by
  unfold leAt
  induction n with
  | zero => simp
  | succ n ih =>
    rw [List.range_succ, List.map_append, List.sum_append]
    simp only [List.map_cons, List.map_nil, List.sum_cons, List.sum_nil, Nat.add_zero]
    have h1 : byteAt b (off + n) < 256 := UInt8.toNat_lt _
    have h2 : byteAt b (off + n) * 256 ^ n ≤ 255 * 256 ^ n := Nat.mul_le_mul_right _ (by omega)
    have h3 : 256 ^ (n + 1) = 255 * 256 ^ n + 256 ^ n := by rw [Nat.pow_succ]; omega
    omega

theorem valueAt_inRange (t : BT) (b : Bytes) (off : Nat) : InRange (valueAt t b off) := by
  cases t <;> simp only [valueAt, InRange]
  · have := leAt_lt b off 4
    omega
  · have := leAt_lt b off 8
    omega

/-- the datasets of a loaded log: columns in field order with distinct names, all of the same
length, which is not 0; the entries are decoded values -/
theorem loaded_dataset {fuel : Nat} {cfg : Cfg} {bs : Bytes} {u : ULog}
    (h : load fuel cfg bs = .ok u) {d : Dataset} (hd : d ∈ u.dataList) :
    FieldOrder d ∧ ColumnsInRange d ∧ (columnNames d.fields).Nodup ∧
      ∃ n, 0 < n ∧ ∀ c ∈ d.data, c.2.length = n := by
  obtain ⟨t, ht, tp, post, hl, hpos, hne, he⟩ := (C06_datasets h d).mp hd
  have hf : d.fields = tp.fields := by rw [he]; rfl
  have hdat : d.data = columnsOf tp.fields (post.filterMap (sampleOf d.msgId (rowSize tp.fields))) := by
    rw (occs := .pos [1]) [he]; rfl
  refine ⟨?_, ?_, ?_, (post.filterMap (sampleOf d.msgId (rowSize tp.fields))).length,
    List.length_pos_iff.mpr hne, ?_⟩
  · unfold FieldOrder
    rw [hdat, hf]
    unfold columnsOf
    rw [List.map_map]
    rfl
  · intro c hc v hv
    rw [hdat] at hc
    obtain ⟨p, _, rfl⟩ := List.mem_map.mp hc
    obtain ⟨b, _, rfl⟩ := List.mem_map.mp hv
    exact valueAt_inRange _ _ _
  · have hs : ∃ x, subscribed cfg x = some tp := by
      clear he hdat hpos hne hf ht
      induction t with
      | nil => cases hl
      | cons x xs ih =>
        unfold lastSub at hl
        split at hl
        · rename_i r hr
          injection hl with hl
          subst hl
          exact ih hr
        · split at hl
          · rename_i tp' hs
            split at hl
            · injection hl with hl
              injection hl with hl _
              subst hl
              exact ⟨x, hs⟩
            · cases hl
          · cases hl
    obtain ⟨x, hx⟩ := hs
    rw [hf]
    unfold subscribed at hx
    split at hx
    · split at hx
      · cases hx
      · split at hx
        · split at hx
          · cases hx
          · split at hx
            · rename_i hh
              injection hx with hx
              subst hx
              exact hh
            · cases hx
        · cases hx
    · cases hx
  · intro c hc
    rw [hdat] at hc
    obtain ⟨p, _, rfl⟩ := List.mem_map.mp hc
    simp

end PyULog
