import Verif.Model.Basic
/-
Helper lemmas: little-endian integers, slices, dictionaries, sets, stable sort.
-/
namespace PyULog

/-! ### little-endian integers -/

@[simp] theorem leEnc_length (n v : Nat) : (leEnc n v).length = n := by
  induction n generalizing v with
  | zero => rfl
  | succ n ih => simp [leEnc, ih]

theorem leNat_lt (b : Bytes) : leNat b < 256 ^ b.length := by
  induction b with
  | nil => simp [leNat]
  | cons x xs ih =>
    have hx := x.toNat_lt
    simp only [leNat, List.length_cons, Nat.pow_succ]
    omega

theorem leNat_leEnc (n v : Nat) (h : v < 256 ^ n) : leNat (leEnc n v) = v := by
  induction n generalizing v with
  | zero => simp [leEnc, leNat] at *; omega
  | succ n ih =>
    simp only [leEnc, leNat]
    rw [ih (v / 256) (by rw [Nat.pow_succ] at h; omega)]
    have : (UInt8.ofNat (v % 256)).toNat = v % 256 := by
      simp [UInt8.toNat_ofNat']
    rw [this]; omega

theorem leEnc_leNat (b : Bytes) : leEnc b.length (leNat b) = b := by
  induction b with
  | nil => rfl
  | cons x xs ih =>
    have hx := x.toNat_lt
    simp only [List.length_cons, leEnc, leNat]
    have h1 : (x.toNat + 256 * leNat xs) % 256 = x.toNat := by omega
    have h2 : (x.toNat + 256 * leNat xs) / 256 = leNat xs := by omega
    rw [h1, h2, ih]
    simp

theorem leNat_append (a b : Bytes) : leNat (a ++ b) = leNat a + 256 ^ a.length * leNat b := by
  induction a with
  | nil => simp [leNat]
  | cons x xs ih =>
    simp only [List.cons_append, leNat, ih, List.length_cons, Nat.pow_succ]
    rw [Nat.mul_add, Nat.mul_comm (256 ^ xs.length) 256, Nat.mul_assoc, Nat.add_assoc]

theorem toSigned_ofSigned (n : Nat) (hn : 0 < n) (v : Int)
    (h1 : -(2 : Int) ^ (8 * n - 1) ≤ v) (h2 : v < (2 : Int) ^ (8 * n - 1)) :
    toSigned n (ofSigned n v) = v := by
  have e : (2 : Int) ^ (8 * n) = 2 * 2 ^ (8 * n - 1) := by
    have : 8 * n = (8 * n - 1) + 1 := by omega
    rw [this, Int.pow_succ]; simp; omega
  have en : ((2 ^ (8 * n - 1) : Nat) : Int) = (2 : Int) ^ (8 * n - 1) := by simp
  unfold toSigned ofSigned
  generalize hP : (2 : Int) ^ (8 * n - 1) = P at *
  rw [e]
  split <;> split <;> omega

theorem ofSigned_toSigned (n : Nat) (hn : 0 < n) (v : Nat) (h : v < 256 ^ n) :
    ofSigned n (toSigned n v) = v := by
  have e : (2 : Int) ^ (8 * n) = 2 * 2 ^ (8 * n - 1) := by
    have : 8 * n = (8 * n - 1) + 1 := by omega
    rw [this, Int.pow_succ]; simp; omega
  have h256 : (256 : Nat) ^ n = 2 ^ (8 * n) := by rw [Nat.pow_mul]
  have en : ((2 ^ (8 * n - 1) : Nat) : Int) = (2 : Int) ^ (8 * n - 1) := by simp
  have en2 : ((2 ^ (8 * n) : Nat) : Int) = (2 : Int) ^ (8 * n) := by simp
  rw [h256] at h
  unfold toSigned ofSigned
  rw [e]
  rw [e] at en2
  generalize (2 : Int) ^ (8 * n - 1) = P at *
  split <;> split <;> omega

theorem ofSigned_lt (n : Nat) (hn : 0 < n) (v : Int)
    (h1 : -(2 : Int) ^ (8 * n - 1) ≤ v) (h2 : v < (2 : Int) ^ (8 * n - 1)) :
    ofSigned n v < 256 ^ n := by
  have e : (2 : Int) ^ (8 * n) = 2 * 2 ^ (8 * n - 1) := by
    have : 8 * n = (8 * n - 1) + 1 := by omega
    rw [this, Int.pow_succ]; simp; omega
  have h256 : (256 : Nat) ^ n = 2 ^ (8 * n) := by rw [Nat.pow_mul]
  have en2 : ((2 ^ (8 * n) : Nat) : Int) = (2 : Int) ^ (8 * n) := by simp
  rw [h256]
  unfold ofSigned
  rw [e]
  rw [e] at en2
  generalize (2 : Int) ^ (8 * n - 1) = P at *
  split <;> omega

theorem toSigned_bounds (n : Nat) (hn : 0 < n) (v : Nat) (h : v < 256 ^ n) :
    -(2 : Int) ^ (8 * n - 1) ≤ toSigned n v ∧ toSigned n v < (2 : Int) ^ (8 * n - 1) := by
  have e : (2 : Int) ^ (8 * n) = 2 * 2 ^ (8 * n - 1) := by
    have : 8 * n = (8 * n - 1) + 1 := by omega
    rw [this, Int.pow_succ]; simp; omega
  have h256 : (256 : Nat) ^ n = 2 ^ (8 * n) := by rw [Nat.pow_mul]
  have en : ((2 ^ (8 * n - 1) : Nat) : Int) = (2 : Int) ^ (8 * n - 1) := by simp
  have en2 : ((2 ^ (8 * n) : Nat) : Int) = (2 : Int) ^ (8 * n) := by simp
  rw [h256] at h
  unfold toSigned
  rw [e] at en2
  rw [e]
  generalize (2 : Int) ^ (8 * n - 1) = P at *
  split <;> omega

theorem packU_ok {n v : Nat} (h : v < 256 ^ n) : packU n v = .ok (leEnc n v) := by
  simp [packU, h]

theorem packU_eq_ok {n v : Nat} {b : Bytes} (h : packU n v = .ok b) :
    v < 256 ^ n ∧ b = leEnc n v := by
  unfold packU at h
  split at h
  · exact ⟨‹_›, by injection h with h; exact h.symm⟩
  · cases h

theorem unpackU_ok {n : Nat} {b : Bytes} (h : b.length = n) : unpackU n b = .ok (leNat b) := by
  simp [unpackU, h]

@[simp] theorem unpackU_leEnc {n v : Nat} (h : v < 256 ^ n) : unpackU n (leEnc n v) = .ok v := by
  simp [unpackU, leNat_leEnc n v h]

theorem unpackU_eq_ok {n v : Nat} {b : Bytes} (h : unpackU n b = .ok v) :
    b.length = n ∧ v = leNat b := by
  unfold unpackU at h
  split at h
  · exact ⟨‹_›, by injection h with h; exact h.symm⟩
  · cases h

theorem unpackU_eq_error {n : Nat} {b : Bytes} {e : PyErr} (h : unpackU n b = .error e) :
    b.length ≠ n ∧ e = .structError := by
  unfold unpackU at h
  split at h
  · cases h
  · exact ⟨‹_›, by injection h with h; exact h.symm⟩

/-! ### slices -/

@[simp] theorem slice_length (a b : Nat) (l : List α) :
    (slice a b l).length = min b l.length - a := by
  simp [slice]

theorem slice_append_left {a b : Nat} (l m : List α) (h : b ≤ l.length) :
    slice a b (l ++ m) = slice a b l := by
  simp [slice, List.take_append_of_le_length h]

theorem slice_append_right {a b : Nat} (l m : List α) (h : l.length ≤ a) :
    slice a b (l ++ m) = slice (a - l.length) (b - l.length) m := by
  simp only [slice, List.take_append, List.drop_append]
  have h1 : List.drop a (List.take b l) = [] := by
    apply List.drop_eq_nil_of_le; simp; omega
  rw [h1, List.nil_append, List.length_take]
  by_cases hb : b ≤ l.length
  · have : b - l.length = 0 := by omega
    simp [this]
  · rw [Nat.min_eq_right (by omega)]

/-- `data[k:k+n]` when `data = pre ++ x ++ post`, `len(pre) = k`, `len(x) = n` -/
theorem slice_mid {a b : Nat} (pre x post : List α) (h1 : pre.length = a)
    (h2 : a + x.length = b) : slice a b (pre ++ (x ++ post)) = x := by
  subst h1; subst h2
  simp [slice, List.take_append]

theorem slice_zero (b : Nat) (l : List α) : slice 0 b l = l.take b := by simp [slice]

/-! ### dictionaries -/

namespace Dict
variable {κ α : Type} [DecidableEq κ]

@[simp] theorem get?_nil (k : κ) : get? ([] : Dict κ α) k = none := rfl

theorem get?_cons (k k' : κ) (v : α) (d : Dict κ α) :
    get? ((k', v) :: d) k = if k' = k then some v else get? d k := rfl

theorem get?_set (d : Dict κ α) (k k' : κ) (v : α) :
    get? (set d k v) k' = if k = k' then some v else get? d k' := by
  induction d with
  | nil => simp [set, get?]
  | cons p d ih =>
    obtain ⟨a, b⟩ := p
    simp only [set]
    split
    · subst_vars; simp only [get?]; split <;> simp_all
    · simp only [get?, ih]
      split
      · subst_vars; split
        · subst_vars; contradiction
        · rfl
      · rfl

@[simp] theorem get?_set_self (d : Dict κ α) (k : κ) (v : α) : get? (set d k v) k = some v := by
  simp [get?_set]

theorem get?_set_ne (d : Dict κ α) {k k' : κ} (v : α) (h : k ≠ k') :
    get? (set d k v) k' = get? d k' := by
  simp [get?_set, h]

theorem mem_keys_iff (d : Dict κ α) (k : κ) : k ∈ keys d ↔ (get? d k).isSome := by
  induction d with
  | nil => simp [keys]
  | cons p d ih =>
    obtain ⟨a, b⟩ := p
    simp only [keys, List.map_cons, List.mem_cons, get?] at *
    split
    · simp_all
    · rw [← ih]; constructor
      · rintro (h | h)
        · exact absurd h.symm ‹_›
        · exact h
      · exact Or.inr

theorem get?_eq_none_iff (d : Dict κ α) (k : κ) : get? d k = none ↔ k ∉ keys d := by
  rw [mem_keys_iff]; cases get? d k <;> simp

theorem keys_set (d : Dict κ α) (k : κ) (v : α) :
    keys (set d k v) = if k ∈ keys d then keys d else keys d ++ [k] := by
  induction d with
  | nil => simp [set, keys]
  | cons p d ih =>
    obtain ⟨a, b⟩ := p
    simp only [set]
    split
    · subst_vars; simp [keys]
    · rename_i hne
      simp only [keys, List.map_cons, List.mem_cons] at *
      rw [ih]
      have : ¬ k = a := fun h => hne h.symm
      simp only [this, false_or]
      split <;> simp_all

theorem set_of_not_mem (d : Dict κ α) (k : κ) (v : α) (h : k ∉ keys d) :
    set d k v = d ++ [(k, v)] := by
  induction d with
  | nil => rfl
  | cons p d ih =>
    obtain ⟨a, b⟩ := p
    simp only [keys, List.map_cons, List.mem_cons, not_or] at h
    simp only [set]
    rw [if_neg (fun e => h.1 e.symm), ih h.2]
    rfl

theorem keys_nodup_set (d : Dict κ α) (k : κ) (v : α) (h : (keys d).Nodup) :
    (keys (set d k v)).Nodup := by
  rw [keys_set]
  split
  · exact h
  · rw [List.nodup_append]
    refine ⟨h, by simp, ?_⟩
    intro a ha b hb
    simp at hb; subst hb
    intro e; subst e; contradiction

theorem get?_of_mem (d : Dict κ α) (k : κ) (v : α) (h : (keys d).Nodup) (hm : (k, v) ∈ d) :
    get? d k = some v := by
  induction d with
  | nil => cases hm
  | cons p d ih =>
    obtain ⟨a, b⟩ := p
    simp only [keys, List.map_cons, List.nodup_cons] at h
    simp only [get?]
    rcases List.mem_cons.mp hm with h1 | h1
    · injection h1 with h1 h2; subst h1; subst h2; simp
    · rw [if_neg]
      · exact ih h.2 h1
      · intro e; subst e
        exact h.1 (List.mem_map.mpr ⟨_, h1, rfl⟩)

theorem mem_of_get? (d : Dict κ α) (k : κ) (v : α) (h : get? d k = some v) : (k, v) ∈ d := by
  induction d with
  | nil => cases h
  | cons p d ih =>
    obtain ⟨a, b⟩ := p
    simp only [get?] at h
    split at h
    · injection h with h; subst_vars; exact List.mem_cons_self ..
    · exact List.mem_cons_of_mem _ (ih h)

theorem has_eq (d : Dict κ α) (k : κ) : has d k = decide (k ∈ keys d) := by
  have := mem_keys_iff d k
  unfold has
  cases h : (get? d k) <;> simp_all

theorem get?_append (d e : Dict κ α) (k : κ) :
    get? (d ++ e) k = (get? d k).or (get? e k) := by
  induction d with
  | nil => simp
  | cons p d ih =>
    obtain ⟨a, b⟩ := p
    simp only [List.cons_append, get?]
    split <;> simp [ih]

end Dict

theorem mem_setAdd [DecidableEq α] (s : List α) (x y : α) : y ∈ setAdd s x ↔ y ∈ s ∨ y = x := by
  unfold setAdd
  split
  · constructor
    · exact Or.inl
    · rintro (h | h)
      · exact h
      · subst h; assumption
  · simp

theorem nodup_setAdd [DecidableEq α] (s : List α) (x : α) (h : s.Nodup) : (setAdd s x).Nodup := by
  unfold setAdd
  split
  · exact h
  · rw [List.nodup_append]
    refine ⟨h, by simp, ?_⟩
    intro a ha b hb
    simp at hb; subst hb
    intro e; subst e; contradiction

end PyULog
