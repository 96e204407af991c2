import Verif.Props.Header
import Verif.Spec.Trace
/-
C03: exactly which files keep the reader in the definition section for ever.
-/
namespace PyULog

open Spec

/-- the exception of an outcome -/
def Out.exc : Out → Option PyErr
  | .ok _ => none
  | .err e _ => some e

theorem bind_exc (r : Except PyErr α) (u v : ULog) (f g : α → ULog) :
    (Out.bind r u f).exc = (Out.bind r v g).exc := by
  cases r <;> rfl

theorem applyFlagBits_exc (u v : ULog) (f : List Nat × List Nat × List Nat) :
    (applyFlagBits u f).exc = (applyFlagBits v f).exc := by
  unfold applyFlagBits
  simp only
  split
  · rfl
  · split <;> rfl

/-- whether a message of the definitions is accepted does not depend on what was read before -/
theorem handleDef_exc (cfg : Cfg) (u v : ULog) (ty : Nat) (d : Bytes) :
    (handleDef cfg u ty d).map Out.exc = (handleDef cfg v ty d).map Out.exc := by
  by_cases hk : knownDef ty = true
  · rcases knownDef_cases hk with h | h | h | h | h | h <;> subst h
    · rw [handleDef_I, handleDef_I]; exact congrArg some (bind_exc _ _ _ _ _)
    · rw [handleDef_M, handleDef_M]; exact congrArg some (bind_exc _ _ _ _ _)
    · rw [handleDef_F, handleDef_F]; exact congrArg some (bind_exc _ _ _ _ _)
    · rw [handleDef_P, handleDef_P]; exact congrArg some (bind_exc _ _ _ _ _)
    · rw [handleDef_Q, handleDef_Q]; exact congrArg some (bind_exc _ _ _ _ _)
    · rw [handleDef_B, handleDef_B]
      cases parseFlagBits d with
      | ok f => exact congrArg some (applyFlagBits_exc _ _ _)
      | error e => rfl
  · rw [handleDef_none _ _ _ _ (by simpa using hk), handleDef_none _ _ _ _ (by simpa using hk)]

/-- where the loop goes on -/
def Step.next : Step → Option Nat
  | .cont s => some s.pos
  | _ => none

theorem defStep_next (cfg : Cfg) (bs : Bytes) {s t : RS} (h : s.pos = t.pos) :
    (defStep cfg bs s).next = (defStep cfg bs t).next := by
  obtain ⟨p, c, u⟩ := s
  obtain ⟨q, c', v⟩ := t
  cases (show p = q from h)
  unfold defStep
  simp only
  split
  · rfl
  · split
    · rfl
    · generalize hd : readAt bs (p + 3) (leNat ((readAt bs p 3).take 2)) = d
      generalize leNat ((readAt bs p 3).drop 2) = ty
      have he := handleDef_exc cfg u v ty d
      generalize handleDef cfg u ty d = a at he ⊢
      generalize handleDef cfg v ty d = b at he ⊢
      match a, b, he with
      | none, none, _ =>
        simp only
        split
        · split <;> rfl
        · split
          · split <;> rfl
          · rfl
      | some (.ok _), some (.ok _), _ => rfl
      | some (.err e _), some (.err e' _), he =>
        have : e = e' := by simpa [Out.exc] using he
        subst this
        cases e <;> rfl
      | some (.ok _), some (.err _ _), he => simp [Out.exc] at he
      | some (.err _ _), some (.ok _), he => simp [Out.exc] at he
      | none, some _, he => simp at he
      | some _, none, he => simp at he

/-- the position after the message at position `p`; `none` when the section ends there -/
def nextPos (cfg : Cfg) (bs : Bytes) (p : Nat) : Option Nat := (defStep cfg bs ⟨p, p, {}⟩).next

/-- the position after `n` messages, starting at `p` -/
def posAfter (cfg : Cfg) (bs : Bytes) : Nat → Nat → Option Nat
  | 0, p => some p
  | n + 1, p => (nextPos cfg bs p).bind (posAfter cfg bs n)

theorem defLoop_oof_iff (cfg : Cfg) (bs : Bytes) (n : Nat) (s : RS) :
    defLoop cfg bs n s = .outOfFuel ↔ (posAfter cfg bs n s.pos).isSome = true := by
  induction n generalizing s with
  | zero => simp [defLoop, posAfter]
  | succ n ih =>
    have h : nextPos cfg bs s.pos = (defStep cfg bs s).next := defStep_next cfg bs rfl
    simp only [defLoop, posAfter, h]
    split
    · rename_i s' e
      rw [e]; exact ih s'
    · rename_i e; rw [e]; simp [Step.next]
    · rename_i e; rw [e]; simp [Step.next]

theorem posAfter_add (cfg : Cfg) (bs : Bytes) (m n p : Nat) :
    posAfter cfg bs (m + n) p = (posAfter cfg bs m p).bind (posAfter cfg bs n) := by
  induction m generalizing p with
  | zero => simp [posAfter]
  | succ m ih =>
    rw [show m + 1 + n = (m + n) + 1 by omega]
    simp only [posAfter]
    cases nextPos cfg bs p with
    | none => rfl
    | some q => exact ih q

/-- a position that is reached again is reached for ever -/
theorem posAfter_cycle {cfg : Cfg} {bs : Bytes} {p k : Nat} (hk : 0 < k)
    (h : posAfter cfg bs k p = some p) (n : Nat) : (posAfter cfg bs n p).isSome = true := by
  induction n using Nat.strongRecOn with
  | ind n ih =>
    rcases Nat.lt_or_ge n k with hl | hl
    · rw [show k = n + (k - n) by omega, posAfter_add] at h
      cases hh : posAfter cfg bs n p with
      | none => rw [hh] at h; cases h
      | some q => rfl
    · rw [show n = k + (n - k) by omega, posAfter_add, h]
      exact ih (n - k) (by omega)

theorem nextPos_fits {cfg : Cfg} {bs : Bytes} {p q : Nat} (h : nextPos cfg bs p = some q) :
    p + 3 ≤ bs.length := by
  unfold nextPos defStep at h
  simp only at h
  split at h
  · cases h
  · split at h
    · cases h
    · rename_i h3
      have h3 : (readAt bs p 3).length = 3 := by simpa using h3
      simp [readAt] at h3; omega

theorem nodup_bounded : ∀ (k : Nat) (l : List Nat), l.Nodup → (∀ x ∈ l, x < k) → l.length ≤ k
  | 0, l, _, h => by
    cases l with
    | nil => simp
    | cons x xs => exact absurd (h x (by simp)) (by omega)
  | k + 1, l, hn, h => by
    have h1 := nodup_bounded k (l.erase k) (hn.erase k) (fun x hx => by
      have := h x (List.mem_of_mem_erase hx)
      have : x ≠ k := fun e => by subst e; exact ((hn.mem_erase_iff).mp hx).1 rfl
      omega)
    have h2 : l.length ≤ (l.erase k).length + 1 := by
      rw [List.length_erase]; split <;> omega
    omega

/-- the position after each of the first `n` messages -/
def trace (cfg : Cfg) (bs : Bytes) (p n : Nat) : List Nat :=
  (List.range n).map fun i => (posAfter cfg bs i p).getD 0

theorem posAfter_some {cfg : Cfg} {bs : Bytes} {p n i : Nat} (h : (posAfter cfg bs n p).isSome = true)
    (hi : i ≤ n) : ∃ q, posAfter cfg bs i p = some q := by
  rw [show n = i + (n - i) by omega, posAfter_add] at h
  cases hh : posAfter cfg bs i p with
  | none => rw [hh] at h; cases h
  | some q => exact ⟨q, rfl⟩

theorem posAfter_fits {cfg : Cfg} {bs : Bytes} {p n i q : Nat} (h : (posAfter cfg bs n p).isSome = true)
    (hi : i < n) (hq : posAfter cfg bs i p = some q) : q + 3 ≤ bs.length := by
  obtain ⟨r, hr⟩ := posAfter_some (i := i + 1) h (by omega)
  rw [posAfter_add, hq] at hr
  simp only [Option.bind_some, posAfter] at hr
  cases hn : nextPos cfg bs q with
  | none => rw [hn] at hr; cases hr
  | some _ => exact nextPos_fits hn

/-- more messages than there are positions: one is read twice -/
theorem posAfter_repeat {cfg : Cfg} {bs : Bytes} {p : Nat} (h : (posAfter cfg bs (bs.length + 1) p).isSome = true) :
    ∃ i j q, i < j ∧ j ≤ bs.length ∧ posAfter cfg bs i p = some q ∧ posAfter cfg bs j p = some q := by
  refine Classical.byContradiction fun hc => ?_
  have hn : (trace cfg bs p (bs.length + 1)).Nodup := by
    unfold trace
    rw [List.Nodup, List.pairwise_map]
    refine List.Pairwise.imp_of_mem (R := (· < ·)) ?_ (List.pairwise_lt_range)
    intro i j hi hj hij e
    rw [List.mem_range] at hi hj
    obtain ⟨q, hq⟩ := posAfter_some (i := i) h (by omega)
    obtain ⟨r, hr⟩ := posAfter_some (i := j) h (by omega)
    rw [hq, hr] at e
    exact hc ⟨i, j, q, hij, by omega, hq, by rw [hr]; exact congrArg some e.symm⟩
  have := nodup_bounded bs.length _ hn (by
    intro x hx
    simp only [trace, List.mem_map, List.mem_range] at hx
    obtain ⟨i, hi, e⟩ := hx
    obtain ⟨q, hq⟩ := posAfter_some (i := i) h (by omega)
    have := posAfter_fits h hi hq
    rw [hq] at e
    simp at e
    omega)
  simp [trace] at this
  omega

theorem posAfter_forever {cfg : Cfg} {bs : Bytes} {p i j q : Nat} (hij : i < j)
    (hi : posAfter cfg bs i p = some q) (hj : posAfter cfg bs j p = some q) (n : Nat) :
    (posAfter cfg bs n p).isSome = true := by
  have hc : posAfter cfg bs (j - i) q = some q := by
    rw [show j = i + (j - i) by omega, posAfter_add, hi] at hj
    exact hj
  rcases Nat.lt_or_ge n i with hl | hl
  · obtain ⟨r, hr⟩ := posAfter_some (i := n) (n := i) (by rw [hi]; rfl) (by omega)
    rw [hr]; rfl
  · rw [show n = i + (n - i) by omega, posAfter_add, hi]
    exact posAfter_cycle (by omega) hc _

theorem load_oof_iff (fuel : Nat) (cfg : Cfg) (bs : Bytes) :
    load fuel cfg bs = .outOfFuel ↔ HeaderOk bs ∧ (posAfter cfg bs fuel 16).isSome = true := by
  rw [load_eq]
  by_cases hh : HeaderOk bs
  · have hu := (readHeader_ok_iff bs _).mpr ⟨hh, rfl⟩
    generalize ({ fileVersion := byteAt bs 7, startTs := leAt bs 8 8, lastTs := leAt bs 8 8 } : ULog) = u at hu
    simp only [hu, hh, true_and]
    rw [← defLoop_oof_iff cfg bs fuel ⟨16, 16, u⟩]
    split
    · rename_i e; rw [e]; simp
    · rename_i e; rw [e]; simp
    · rename_i s e
      rw [e]
      constructor
      · intro h
        split at h
        · cases h
        · exact absurd h (readSections_ne_outOfFuel _ _ _ _ _)
      · intro h; cases h
  · simp only [hh, false_and, iff_false]
    cases hr : readHeader bs with
    | error e => simp
    | ok u => exact absurd ((readHeader_ok_iff bs u).mp hr).1 hh

/-- **C03**: the reader runs for ever exactly when, in a file with a valid header, it comes to a position
of the definition section at which it has been before. -/
theorem C03_diverges_iff (cfg : Cfg) (bs : Bytes) :
    (∀ fuel, load fuel cfg bs = .outOfFuel) ↔
      HeaderOk bs ∧ ∃ i j q, i < j ∧ posAfter cfg bs i 16 = some q ∧ posAfter cfg bs j 16 = some q := by
  constructor
  · intro h
    obtain ⟨hh, hp⟩ := (load_oof_iff (bs.length + 1) cfg bs).mp (h _)
    obtain ⟨i, j, q, hij, _, hi, hj⟩ := posAfter_repeat hp
    exact ⟨hh, i, j, q, hij, hi, hj⟩
  · rintro ⟨hh, i, j, q, hij, hi, hj⟩ fuel
    exact (load_oof_iff fuel cfg bs).mpr ⟨hh, posAfter_forever hij hi hj fuel⟩

/-- **C03**: a load that ends at all ends within one iteration more than the file has bytes. -/
theorem C03_bounded (cfg : Cfg) (bs : Bytes) :
    (∃ fuel, load fuel cfg bs ≠ .outOfFuel) ↔ load (bs.length + 1) cfg bs ≠ .outOfFuel := by
  refine ⟨fun ⟨fuel, h⟩ h2 => h ?_, fun h => ⟨_, h⟩⟩
  obtain ⟨hh, hp⟩ := (load_oof_iff (bs.length + 1) cfg bs).mp h2
  obtain ⟨i, j, q, hij, _, hi, hj⟩ := posAfter_repeat hp
  exact (load_oof_iff fuel cfg bs).mpr ⟨hh, posAfter_forever hij hi hj fuel⟩

theorem handleDef_unknown {cfg : Cfg} {u : ULog} {ty : Nat} {d : Bytes} (h : ¬ isDefType ty) :
    handleDef cfg u ty d = none := by
  refine handleDef_none _ _ _ _ ?_
  cases hk : knownDef ty with
  | false => rfl
  | true => rcases knownDef_cases hk with e | e | e | e | e | e <;> subst e <;> exact absurd (by decide) h

theorem endsDefs_unknown {ty : Nat} (h : ¬ isDefType ty) : ¬ endsDefs ty = true := by
  intro he
  simp only [endsDefs, Bool.or_eq_true, decide_eq_true_eq] at he
  rcases he with (e | e) | e <;> subst e <;> exact absurd (by decide) h

/-- **C03**: where the reader goes from a header at position `p` that announces `size` bytes: to the end of
the message (or of the file), except that from an invalid message of an unknown type it goes back `size + 2`
bytes from there. -/
theorem C03_next (cfg : Cfg) (bs : Bytes) (p q : Nat) (h : nextPos cfg bs p = some q) :
    p + 3 ≤ bs.length ∧
    if ¬ isDefType (byteAt bs (p + 2)) ∧ badHeader (byteAt bs (p + 2)) (leAt bs p 2) then
      q + (2 + leAt bs p 2) = min (p + 3 + leAt bs p 2) bs.length
    else q = min (p + 3 + leAt bs p 2) bs.length := by
  have hpos := nextPos_fits h
  refine ⟨hpos, ?_⟩
  have hsize : leNat ((readAt bs p 3).take 2) = leAt bs p 2 := by
    rw [leAt_eq _ _ _ (by omega)]; simp [readAt, List.take_take]
  have hty : leNat ((readAt bs p 3).drop 2) = byteAt bs (p + 2) := by
    rw [byteAt_eq _ _ (by omega)]; simp [readAt, List.drop_take]
  have hlen : p + 3 + (readAt bs (p + 3) (leAt bs p 2)).length
      = min (p + 3 + leAt bs p 2) bs.length := by simp [readAt]; omega
  unfold nextPos defStep at h
  simp only [hsize, hty] at h
  split at h
  · cases h
  · split at h
    · cases h
    · split at h
      · rename_i u hk
        have hd : ¬ (¬ isDefType (byteAt bs (p + 2)) ∧ badHeader (byteAt bs (p + 2)) (leAt bs p 2)) := by
          rintro ⟨hd, -⟩
          rw [handleDef_unknown hd] at hk; cases hk
        rw [if_neg hd]
        simp only [Step.next, Option.some.injEq] at h
        omega
      · rename_i u hk
        have hd : ¬ (¬ isDefType (byteAt bs (p + 2)) ∧ badHeader (byteAt bs (p + 2)) (leAt bs p 2)) := by
          rintro ⟨hd, -⟩
          rw [handleDef_unknown hd] at hk; cases hk
        rw [if_neg hd]
        simp only [Step.next, Option.some.injEq] at h
        omega
      · cases h
      · rename_i hk
        split at h
        · split at h <;> cases h
        · rename_i hne
          have hd := not_isDefType hk hne
          split at h
          · rename_i hpc
            have hb : badHeader (byteAt bs (p + 2)) (leAt bs p 2) := by
              simpa [badHeader, packetCorrupt, or_assoc] using hpc
            rw [if_pos ⟨hd, hb⟩]
            split at h
            · rename_i r hr
              simp only [seekBack] at hr
              split at hr
              · cases hr
                simp only [Step.next, Option.some.injEq] at h
                omega
              · cases hr
            · cases h
          · rename_i hpc
            have hb : ¬ badHeader (byteAt bs (p + 2)) (leAt bs p 2) := by
              intro hb
              exact hpc (by simpa [badHeader, packetCorrupt, or_assoc] using hb)
            rw [if_neg (fun hc => hb hc.2)]
            simp only [Step.next, Option.some.injEq] at h
            omega

/-- **C03**: the reader goes back, or stays, only at an invalid message of unknown type that runs past the
end of the file. -/
theorem C03_back_iff (cfg : Cfg) (bs : Bytes) (p q : Nat) (h : nextPos cfg bs p = some q) :
    q ≤ p ↔ CutGarbageAt bs p := by
  obtain ⟨hp, hq⟩ := C03_next cfg bs p q h
  unfold CutGarbageAt
  split at hq
  · rename_i hc
    constructor
    · intro hle
      exact ⟨hp, by omega, hc.1, hc.2⟩
    · rintro ⟨_, h2, _, _⟩
      omega
  · rename_i hc
    constructor
    · intro hle; omega
    · rintro ⟨_, _, h3, h4⟩
      exact absurd ⟨h3, h4⟩ hc

/-- **C03**: a message of unknown type that is invalid and lacks exactly its last byte holds the reader for
ever, wherever it is reached. -/
theorem C03_one_byte_short (cfg : Cfg) (bs : Bytes) (n p : Nat) (hh : HeaderOk bs)
    (hr : posAfter cfg bs n 16 = some p) (hg : CutGarbageAt bs p) (hl : bs.length + 1 = p + 3 + leAt bs p 2) :
    ∀ fuel, load fuel cfg bs = .outOfFuel := by
  refine (C03_diverges_iff cfg bs).mpr ⟨hh, n, n + 1, p, by omega, hr, ?_⟩
  rw [posAfter_add, hr]
  simp only [Option.bind_some, posAfter]
  have : nextPos cfg bs p = some p := by
    obtain ⟨hpos, hlt, hd, hb⟩ := hg
    have hsize : leNat ((readAt bs p 3).take 2) = leAt bs p 2 := by
      rw [leAt_eq _ _ _ (by omega)]; simp [readAt, List.take_take]
    have hty : leNat ((readAt bs p 3).drop 2) = byteAt bs (p + 2) := by
      rw [byteAt_eq _ _ (by omega)]; simp [readAt, List.drop_take]
    have h3 : (readAt bs p 3).length = 3 := by simp [readAt]; omega
    have hlen : (readAt bs (p + 3) (leAt bs p 2)).length + 1 = leAt bs p 2 := by simp [readAt]; omega
    have hpc : packetCorrupt (byteAt bs (p + 2)) (leAt bs p 2) = true := by
      simpa [badHeader, packetCorrupt, or_assoc] using hb
    unfold nextPos defStep
    simp only [hsize, hty, h3, handleDef_unknown hd]
    rw [if_neg (by simp), if_neg (by simp), if_neg (endsDefs_unknown hd), if_pos hpc]
    simp only [seekBack]
    rw [if_pos (by omega)]
    simp only [Step.next, Option.some.injEq]
    omega
  rw [this]; rfl

/-- non-vacuity: `hangFile` is such a file -/
example : HeaderOk hangFile ∧ posAfter {} hangFile 0 16 = some 16 ∧ posAfter {} hangFile 1 16 = some 16 ∧
    CutGarbageAt hangFile 16 ∧ hangFile.length + 1 = 16 + 3 + leAt hangFile 16 2 := by
  unfold CutGarbageAt HeaderOk; decide +kernel

/-- a cut invalid message that ends the load: the reader would go to a position before the file -/
example : CutGarbageAt (hangFile.set 16 20) 16 ∧ posAfter {} (hangFile.set 16 20) 1 16 = none ∧
    load 20 {} (hangFile.set 16 20) = .raised .osError := by
  unfold CutGarbageAt; decide +kernel

/-- 300 zero bytes, then a message of type 0 with 256 bytes that are not there -/
def backFile : Bytes := hangFile.take 16 ++ List.replicate 300 0 ++ [0, 1, 0]

/-- a loop over 256 positions: the zero bytes are skipped one by one, from the last message the reader goes
back to byte 61 -/
example : posAfter {} backFile 300 16 = some 316 ∧ nextPos {} backFile 316 = some 61 ∧
    posAfter {} backFile 255 61 = some 316 := by
  decide +kernel

end PyULog
