import Verif.Model.Read
import Verif.Lemmas.Basic
/-
Correctness of `bytes.find` and of the chunked sync search.
-/
namespace PyULog

theorem findSub_some [DecidableEq α] (pat l : List α) (i : Nat) (h : findSub pat l = some i) :
    pat <+: l.drop i ∧ ∀ j < i, ¬ pat <+: l.drop j := by
  induction l generalizing i with
  | nil =>
    simp only [findSub] at h
    split at h
    · injection h with h; subst h; subst_vars; simp
    · cases h
  | cons x xs ih =>
    simp only [findSub] at h
    split at h
    · injection h with h; subst h
      rename_i hp
      exact ⟨List.isPrefixOf_iff_prefix.mp hp, by simp⟩
    · rename_i hp
      cases hf : findSub pat xs with
      | none => rw [hf] at h; cases h
      | some k =>
        rw [hf] at h; injection h with h; subst h
        obtain ⟨h1, h2⟩ := ih k hf
        refine ⟨by simpa using h1, ?_⟩
        intro j hj
        cases j with
        | zero => simpa [List.isPrefixOf_iff_prefix] using hp
        | succ j => simpa using h2 j (by have : j + 1 < k + 1 := hj; omega)

theorem findSub_none [DecidableEq α] (pat l : List α) (h : findSub pat l = none) :
    ∀ j, ¬ pat <+: l.drop j := by
  induction l with
  | nil =>
    simp only [findSub] at h
    split at h
    · cases h
    · intro j; simpa using ‹_›
  | cons x xs ih =>
    simp only [findSub] at h
    split at h
    · cases h
    · rename_i hp
      cases hf : findSub pat xs with
      | some k => rw [hf] at h; cases h
      | none =>
        intro j
        cases j with
        | zero => simpa [List.isPrefixOf_iff_prefix] using hp
        | succ j => simpa using ih hf j

theorem findSub_isSome [DecidableEq α] (pat l : List α) :
    (findSub pat l).isSome ↔ ∃ j, pat <+: l.drop j := by
  cases h : findSub pat l with
  | none => simp [findSub_none pat l h]
  | some i => simpa using ⟨i, (findSub_some pat l i h).1⟩

/-- the sync sequence at offset `i` of the file -/
def SyncAt (bs : Bytes) (i : Nat) : Prop := SYNC_BYTES <+: bs.drop i

theorem SyncAt.len {bs : Bytes} {i : Nat} (h : SyncAt bs i) : i + 8 ≤ bs.length := by
  have := h.length_le
  simp [SYNC_BYTES] at this; omega

theorem prefix_chunk_iff (pat bs : Bytes) (hp : pat ≠ []) (p n k : Nat) :
    pat <+: (readAt bs p n).drop k ↔
      pat <+: bs.drop (p + k) ∧ k + pat.length ≤ (readAt bs p n).length := by
  have hpl : 0 < pat.length := List.length_pos_iff.mpr hp
  have e : (readAt bs p n).drop k = (bs.drop (p + k)).take (n - k) := by
    simp [readAt, List.drop_take, List.drop_drop]
  rw [e]
  have hl : (readAt bs p n).length = min n (bs.length - p) := by simp [readAt]
  rw [hl]
  constructor
  · intro h
    refine ⟨h.trans (List.take_prefix _ _), ?_⟩
    have := h.length_le
    simp at this; omega
  · rintro ⟨h1, h2⟩
    rw [List.prefix_take_iff]
    exact ⟨h1, by omega⟩

theorem sync_ne : SYNC_BYTES ≠ [] := by simp [SYNC_BYTES]
theorem sync_len : SYNC_BYTES.length = 8 := by simp [SYNC_BYTES]

theorem findSyncFwd_spec (bs : Bytes) (fuel p : Nat) (hf : bs.length < p + fuel) :
    match findSyncFwd bs fuel p with
    | some q => ∃ i, q = i + 8 ∧ p ≤ i ∧ SyncAt bs i ∧ ∀ j, p ≤ j → j < i → ¬ SyncAt bs j
    | none => ∀ j, p ≤ j → ¬ SyncAt bs j := by
  induction fuel generalizing p with
  | zero =>
    intro j hj h
    have := h.len; omega
  | succ fuel ih =>
    simp only [findSyncFwd, sync_len]
    have hcl : (readAt bs p SEARCH_CHUNK).length = min 512 (bs.length - p) := by
      simp [readAt, SEARCH_CHUNK]
    by_cases hc : (readAt bs p SEARCH_CHUNK).length < 8
    · rw [if_pos hc]
      intro j hj h
      have := h.len; omega
    · rw [if_neg hc]
      cases hfs : findSub SYNC_BYTES (readAt bs p SEARCH_CHUNK) with
      | some i =>
        obtain ⟨h1, h2⟩ := findSub_some _ _ _ hfs
        rw [prefix_chunk_iff _ _ sync_ne] at h1
        refine ⟨p + i, rfl, by omega, h1.1, ?_⟩
        intro j hj hji hs
        apply h2 (j - p) (by omega)
        rw [prefix_chunk_iff _ _ sync_ne]
        rw [show p + (j - p) = j by omega]
        refine ⟨hs, ?_⟩
        have := h1.2
        omega
      | none =>
        have hn := findSub_none _ _ hfs
        have hskip : ∀ j, p ≤ j → j < p + (readAt bs p SEARCH_CHUNK).length - 7 → ¬ SyncAt bs j := by
          intro j hj hlt hs
          apply hn (j - p)
          rw [prefix_chunk_iff _ _ sync_ne]
          rw [show p + (j - p) = j by omega]
          refine ⟨hs, ?_⟩
          rw [sync_len]; omega
        have hrec := ih (p + (readAt bs p SEARCH_CHUNK).length - 7) (by omega)
        simp only [show (8 - 1) = 7 from rfl]
        split
        · rename_i q heq
          rw [heq] at hrec
          obtain ⟨i, h1, h2, h3, h4⟩ := hrec
          refine ⟨i, h1, by omega, h3, ?_⟩
          intro j hj hji
          by_cases hlt : j < p + (readAt bs p SEARCH_CHUNK).length - 7
          · exact hskip j hj hlt
          · exact h4 j (by omega) hji
        · rename_i heq
          rw [heq] at hrec
          intro j hj
          by_cases hlt : j < p + (readAt bs p SEARCH_CHUNK).length - 7
          · exact hskip j hj hlt
          · exact hrec j (by omega)

theorem findSyncBack_spec (bs : Bytes) (pos n : Nat) (hn : n ≤ pos) (hl : pos ≤ bs.length) :
    match findSyncBack bs pos n with
    | some q => ∃ i, q = i + 8 ∧ pos - n ≤ i ∧ q ≤ pos ∧ SyncAt bs i ∧
        ∀ j, pos - n ≤ j → j < i → ¬ SyncAt bs j
    | none => ∀ j, pos - n ≤ j → j + 8 ≤ pos → ¬ SyncAt bs j := by
  simp only [findSyncBack, sync_len]
  have hcl : (readAt bs (pos - n) n).length = n := by
    simp [readAt]; omega
  rw [hcl]
  by_cases hc : n < 8
  · rw [if_pos hc]
    intro j hj h; omega
  · rw [if_neg hc]
    cases hfs : findSub SYNC_BYTES (readAt bs (pos - n) n) with
    | some i =>
      obtain ⟨h1, h2⟩ := findSub_some _ _ _ hfs
      rw [prefix_chunk_iff _ _ sync_ne] at h1
      have := h1.2
      rw [hcl, sync_len] at this
      refine ⟨pos - n + i, rfl, by omega, by simp; omega, h1.1, ?_⟩
      intro j hj hji hs
      apply h2 (j - (pos - n)) (by omega)
      rw [prefix_chunk_iff _ _ sync_ne]
      rw [show (pos - n) + (j - (pos - n)) = j by omega]
      refine ⟨hs, ?_⟩
      rw [hcl, sync_len]; omega
    | none =>
      have hno := findSub_none _ _ hfs
      intro j hj hjp hs
      apply hno (j - (pos - n))
      rw [prefix_chunk_iff _ _ sync_ne]
      rw [show (pos - n) + (j - (pos - n)) = j by omega]
      refine ⟨hs, ?_⟩
      rw [hcl, sync_len]; omega

end PyULog
