import Verif.Spec.Format
import Verif.Lemmas.Defs
/-
Links between the independent specifications and the model.
-/
namespace PyULog
open Spec

theorem leNat_eq_sum (b : Bytes) :
    leNat b = ((List.range b.length).map fun i => (b.getD i 0).toNat * 256 ^ i).sum := by
  induction b with
  | nil => rfl
  | cons x xs ih =>
    simp only [leNat, List.length_cons, List.range_succ_eq_map, List.map_cons, List.sum_cons,
      List.map_map, ih]
    congr 1
    · simp
    · have : ∀ l : List Nat, 256 * (l.map fun i => (xs.getD i 0).toNat * 256 ^ i).sum =
        (l.map ((fun i => ((x :: xs).getD i 0).toNat * 256 ^ i) ∘ Nat.succ)).sum := by
        intro l
        induction l with
        | nil => rfl
        | cons a l ihl =>
          simp only [List.map_cons, List.sum_cons, Nat.mul_add, ihl, Function.comp]
          congr 1
          rw [List.getD_cons_succ, Nat.succ_eq_add_one, Nat.pow_succ]
          rw [Nat.mul_comm 256, Nat.mul_assoc]
      exact this _

theorem leAt_eq (bs : Bytes) (off n : Nat) (h : off + n ≤ bs.length) :
    leAt bs off n = leNat ((bs.drop off).take n) := by
  rw [leNat_eq_sum]
  have hl : ((bs.drop off).take n).length = n := by simp; omega
  rw [hl, leAt]
  congr 1
  apply List.map_congr_left
  intro i hi
  have hi : i < n := by simpa using hi
  congr 1
  simp [byteAt, List.getD_eq_getElem?_getD, hi]

theorem byteAt_eq (bs : Bytes) (i : Nat) (h : i < bs.length) :
    byteAt bs i = leNat ((bs.drop i).take 1) := by
  have := leAt_eq bs i 1 (by omega)
  simpa [leAt] using this

theorem occursAt_iff (bs : Bytes) (i : Nat) : OccursAt syncMagic bs i ↔ SyncAt bs i := by
  unfold OccursAt SyncAt
  have : syncMagic = SYNC_BYTES := rfl
  rw [this, List.prefix_iff_eq_take, eq_comm]

theorem encMsg_eq (ty : Nat) (d : Bytes) (hd : d.length < 65536) :
    encMsg (ty, d) = leEnc 2 d.length ++ [UInt8.ofNat ty] ++ d := by
  simp only [encMsg, leEnc]
  have : d.length / 256 % 256 = d.length / 256 := by omega
  rw [this]
  rfl

/-- reading a frame that starts at offset `pre.length` -/
theorem readAt_frame_hdr (pre d rest : Bytes) (ty : Nat) (hd : d.length < 65536) :
    readAt (pre ++ encMsg (ty, d) ++ rest) pre.length 3
      = leEnc 2 d.length ++ [UInt8.ofNat ty] := by
  rw [encMsg_eq _ _ hd]
  simp only [readAt, List.append_assoc, List.drop_left]
  rw [← List.append_assoc, List.take_left' (by simp)]

theorem readAt_frame_payload (pre d rest : Bytes) (ty : Nat) (hd : d.length < 65536) :
    readAt (pre ++ encMsg (ty, d) ++ rest) (pre.length + 3) d.length = d := by
  rw [encMsg_eq _ _ hd]
  have h3 : pre.length + 3 = (pre ++ (leEnc 2 d.length ++ [UInt8.ofNat ty])).length := by simp
  have h4 : pre ++ (leEnc 2 d.length ++ [UInt8.ofNat ty] ++ d) ++ rest
      = (pre ++ (leEnc 2 d.length ++ [UInt8.ofNat ty])) ++ (d ++ rest) := by
    simp [List.append_assoc]
  rw [h3, h4]
  simp only [readAt]
  rw [List.drop_left, List.take_left]

theorem leNat_frame_size (n ty : Nat) (hn : n < 65536) :
    leNat ((leEnc 2 n ++ [UInt8.ofNat ty]).take 2) = n := by
  rw [List.take_left' (by simp), leNat_leEnc _ _ (by omega)]

theorem leNat_frame_type (n ty : Nat) (ht : ty < 256) :
    leNat ((leEnc 2 n ++ [UInt8.ofNat ty]).drop 2) = ty := by
  rw [List.drop_left' (by simp)]
  simp [leNat]
  omega

theorem isDataType_iff (ty : Nat) : isDataType ty ↔ knownData ty = true := by
  simp only [isDataType, List.mem_cons, knownData, Bool.or_eq_true, decide_eq_true_eq,
    List.not_mem_nil, or_false, or_assoc]
  rfl

end PyULog
