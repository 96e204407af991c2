import Verif.Lemmas.Defs
import Verif.Lemmas.SpecBridge
import Verif.Spec.Trace
/-
Induction principles: an assertion about the object and the messages processed so far, kept by
every message, holds at the end of the load.
-/
namespace PyULog
open Spec

/-- an assertion survives setting the corruption flag and changing the sync flag -/
def Insens (P : List Tr → ULog → Prop) : Prop :=
  ∀ t u c h, P t u → P t { u with fileCorrupt := u.fileCorrupt || c, hasSync := h }

theorem insens_corrupt {P : List Tr → ULog → Prop} (h : Insens P) {t : List Tr} {u : ULog}
    (hp : P t u) : P t { u with fileCorrupt := true } := by
  have := h t u true u.hasSync hp
  rw [Bool.or_true] at this
  exact this

theorem readAt_facts {bs : Bytes} {pos : Nat} (h : (readAt bs pos 3).length = 3) :
    pos + 3 ≤ bs.length ∧ leNat ((readAt bs pos 3).take 2) = leAt bs pos 2 ∧
      leNat ((readAt bs pos 3).drop 2) = byteAt bs (pos + 2) := by
  have h3 : pos + 3 ≤ bs.length := by simp [readAt] at h; omega
  refine ⟨h3, ?_, ?_⟩
  · rw [leAt_eq _ _ _ (by omega)]; simp [readAt, List.take_take]
  · rw [byteAt_eq _ _ (by omega)]; simp [readAt, List.drop_take]

theorem dataLoop_inv {cfg : Cfg} {bs : Bytes} {ru : Nat} {P : List Tr → ULog → Prop}
    (hins : Insens P)
    (hmsg : ∀ t u ty d o, P t u → handleData cfg u ty d = some o → P (t ++ [(u, ty, d)]) o.state)
    {n : Nat} {s s' : RS} {t : List Tr} (h : dataLoop cfg bs ru n s = .done s') (hp : P t s.u) :
    P (t ++ dataTrace cfg bs ru n s) s'.u := by
  induction n generalizing s t with
  | zero => cases h
  | succ n ih =>
    simp only [dataLoop] at h
    simp only [dataTrace]
    rw [← List.append_assoc]
    unfold dataStep at h ⊢
    simp only at h ⊢
    by_cases hh : (readAt bs s.pos 3).length = 3
    · obtain ⟨h3, hsz, hty⟩ := readAt_facts hh
      simp only [hh, not_true_eq_false, if_false, ne_eq, hsz, hty] at h ⊢
      by_cases hd : (readAt bs (s.pos + 3) (leAt bs s.pos 2)).length < leAt bs s.pos 2
      · simp only [hd, if_true] at h ⊢
        cases h
        have : msgAt bs ru s = [] := by
          unfold msgAt
          rw [if_neg]
          rintro ⟨_, h2, _⟩
          simp [readAt] at hd; omega
        simp only [this, List.append_nil]
        exact hp
      · simp only [hd, if_false] at h ⊢
        have hlen : (readAt bs (s.pos + 3) (leAt bs s.pos 2)).length = leAt bs s.pos 2 := by
          have : (readAt bs (s.pos + 3) (leAt bs s.pos 2)).length ≤ leAt bs s.pos 2 := by
            simp [readAt]; omega
          omega
        have hfit : s.pos + 3 + leAt bs s.pos 2 ≤ bs.length := by
          simp [readAt] at hlen; omega
        simp only [hlen] at h ⊢
        by_cases hr : s.cur + 3 + leAt bs s.pos 2 > ru
        · simp only [hr, if_true] at h ⊢
          cases h
          have : msgAt bs ru s = [] := by
            unfold msgAt
            rw [if_neg]
            rintro ⟨_, _, h2, _⟩
            omega
          simp only [this, List.append_nil]
          exact hp
        · simp only [hr, if_false] at h ⊢
          by_cases hk : knownData (byteAt bs (s.pos + 2)) = true
          · obtain ⟨o, ho⟩ := handleData_some cfg s.u _ (readAt bs (s.pos + 3) (leAt bs s.pos 2)) hk
            have hm : msgAt bs ru s = [(s.u, byteAt bs (s.pos + 2),
                readAt bs (s.pos + 3) (leAt bs s.pos 2))] := by
              unfold msgAt
              rw [if_pos ⟨h3, hfit, by omega, (isDataType_iff _).mpr hk⟩]; rfl
            have hstep := hmsg t s.u _ _ o hp ho
            rw [hm]
            rw [ho] at h ⊢
            cases o with
            | ok u' => exact ih h hstep
            | err e u' =>
              cases e <;> simp only at h ⊢
              case indexError => exact ih h (insens_corrupt hins hstep)
              case structError => cases h; rw [List.append_nil]; exact hstep
              all_goals cases h
          · have hk' : knownData (byteAt bs (s.pos + 2)) = false := by simpa using hk
            have hm : msgAt bs ru s = [] := by
              unfold msgAt
              rw [if_neg]
              rintro ⟨_, _, _, h2⟩
              exact hk ((isDataType_iff _).mp h2)
            rw [handleData_none _ _ _ _ hk'] at h ⊢
            rw [hm, List.append_nil]
            simp only at h ⊢
            apply ih h
            rw [handleUnknown_eq]
            exact hins _ _ _ _ hp
    · simp only [ne_eq, hh, not_false_eq_true, if_true] at h ⊢
      cases h
      have : msgAt bs ru s = [] := by
        unfold msgAt
        rw [if_neg]
        rintro ⟨h2, _⟩
        apply hh
        simp [readAt]; omega
      simp only [this, List.append_nil]
      exact hp

/-- an assertion survives the end of a section -/
def InsensF (P : List Tr → ULog → Prop) : Prop :=
  ∀ t u d, P t u → P t { u with subs := [], dataList := d }

theorem readData_inv {cfg : Cfg} {bs : Bytes} {ru pos : Nat} {P : List Tr → ULog → Prop}
    (hins : Insens P) (hfin : InsensF P)
    (hmsg : ∀ t u ty d o, P t u → handleData cfg u ty d = some o → P (t ++ [(u, ty, d)]) o.state)
    {u u' : ULog} {t : List Tr} (h : readData cfg bs ru pos u = .ok u') (hp : P t u) :
    P (t ++ sectionTrace cfg bs ru pos u) u' := by
  unfold readData at h
  split at h
  · rename_i s heq
    have h1 := dataLoop_inv hins hmsg heq hp
    unfold LoadRes.ofExcept at h
    split at h
    · rename_i u2 hfz
      cases h
      obtain ⟨new, _, h2⟩ := finalize_ok hfz
      rw [h2]
      exact hfin _ _ _ h1
    · cases h
  · cases h
  · cases h

theorem readSections_inv {cfg : Cfg} {bs : Bytes} {offs : List Nat} {pos : Nat}
    {P : List Tr → ULog → Prop} (hins : Insens P) (hfin : InsensF P)
    (hmsg : ∀ t u ty d o, P t u → handleData cfg u ty d = some o → P (t ++ [(u, ty, d)]) o.state)
    {u u' : ULog} {t : List Tr} (h : readSections cfg bs offs pos u = .ok u') (hp : P t u) :
    P (t ++ (sectionsTrace cfg bs offs pos u).flatten) u' := by
  induction offs generalizing pos u t with
  | nil =>
    simp only [sectionsTrace, List.flatten_cons, List.flatten_nil, List.append_nil]
    exact readData_inv hins hfin hmsg h hp
  | cons off offs ih =>
    simp only [readSections] at h
    simp only [sectionsTrace, List.flatten_cons]
    split at h
    · rename_i u2 heq
      have h1 := readData_inv hins hfin hmsg heq hp
      split at h
      · cases h
      · rw [heq, ← List.append_assoc]
        exact ih h h1
    · rename_i hne; exact absurd h (hne _)

/-- **induction over a load**: an assertion that holds after the definitions and is kept by every
data section message holds at the end -/
theorem load_inv {fuel : Nat} {cfg : Cfg} {bs : Bytes}
    {P : List Tr → ULog → Prop} (hins : Insens P) (hfin : InsensF P)
    (hmsg : ∀ t u ty d o, P t u → handleData cfg u ty d = some o → P (t ++ [(u, ty, d)]) o.state)
    (hbase : ∀ s, afterDefs fuel cfg bs = some s → P [] s.u)
    {u : ULog} (h : load fuel cfg bs = .ok u) :
    P (fileTrace fuel cfg bs).flatten u := by
  rw [load_eq] at h
  unfold fileTrace
  unfold afterDefs at hbase ⊢
  split at h
  · cases h
  · rename_i u0 hh
    simp only [hh] at hbase ⊢
    split at h
    · cases h
    · cases h
    · rename_i s heq
      simp only [heq] at hbase ⊢
      have hb := hbase s rfl
      split at h
      · rename_i ho
        cases h
        simp only [ho, if_true]
        exact hb
      · rename_i ho
        rw [if_neg ho]
        have := readSections_inv hins hfin hmsg h hb
        simpa using this

/-- what `afterDefs` says about a successful load -/
theorem load_afterDefs {fuel : Nat} {cfg : Cfg} {bs : Bytes} {u : ULog}
    (h : load fuel cfg bs = .ok u) : ∃ s, afterDefs fuel cfg bs = some s := by
  rw [load_eq] at h
  unfold afterDefs
  split at h
  · cases h
  · rename_i u0 hh
    simp only [hh]
    split at h
    · cases h
    · cases h
    · rename_i s heq
      simp only [heq]
      exact ⟨s, rfl⟩

theorem afterDefs_presD {fuel : Nat} {cfg : Cfg} {bs : Bytes} {s : RS}
    (h : afterDefs fuel cfg bs = some s) :
    ∃ u0, readHeader bs = .ok u0 ∧ PresD u0 s.u ∧
      defLoop cfg bs fuel { pos := 16, cur := 16, u := u0 } = .done s := by
  unfold afterDefs at h
  split at h
  · cases h
  · rename_i u0 hh
    split at h
    · rename_i s' heq
      cases h
      exact ⟨u0, hh, defLoop_presD heq, heq⟩
    · cases h

theorem knownDef_mem (ty : Nat) : ty ∈ [tyI, tyM, tyF, tyP, tyQ, tyB] ↔ knownDef ty = true := by
  simp only [List.mem_cons, knownDef, Bool.or_eq_true, decide_eq_true_eq,
    List.not_mem_nil, or_false, or_assoc]
  rfl

theorem defLoop_inv {cfg : Cfg} {bs : Bytes} {P : List Tr → ULog → Prop}
    (hins : Insens P)
    (hmsg : ∀ t u ty d o, P t u → handleDef cfg u ty d = some o → P (t ++ [(u, ty, d)]) o.state)
    {n : Nat} {s s' : RS} {t : List Tr} (h : defLoop cfg bs n s = .done s') (hp : P t s.u) :
    P (t ++ defsTrace cfg bs n s) s'.u := by
  induction n generalizing s t with
  | zero => cases h
  | succ n ih =>
    simp only [defLoop] at h
    simp only [defsTrace]
    rw [← List.append_assoc]
    unfold defStep at h ⊢
    simp only at h ⊢
    by_cases h0 : (readAt bs s.pos 3).length = 0
    · have hm : defAt bs s = [] := by
        unfold defAt
        rw [if_neg]
        rintro ⟨h2, _⟩
        simp [readAt] at h0; omega
      rw [if_pos h0] at h ⊢
      cases h
      rw [hm]
      simpa using hp
    · rw [if_neg h0] at h ⊢
      by_cases hh : (readAt bs s.pos 3).length = 3
      · obtain ⟨h3, hsz, hty⟩ := readAt_facts hh
        rw [if_neg (by simpa using hh)] at h ⊢
        simp only [hsz, hty] at h ⊢
        by_cases hk : knownDef (byteAt bs (s.pos + 2)) = true
        · obtain ⟨o, ho⟩ := handleDef_some cfg s.u _ (readAt bs (s.pos + 3) (leAt bs s.pos 2)) hk
          have hm : defAt bs s = [(s.u, byteAt bs (s.pos + 2),
              readAt bs (s.pos + 3) (leAt bs s.pos 2))] := by
            unfold defAt
            rw [if_pos ⟨h3, (knownDef_mem _).mpr hk⟩]; rfl
          have hstep := hmsg t s.u _ _ o hp ho
          rw [hm]
          rw [ho] at h ⊢
          cases o with
          | ok u' => exact ih h hstep
          | err e u' =>
            cases e <;> simp only at h ⊢
            case indexError => exact ih h (insens_corrupt hins hstep)
            all_goals cases h
        · have hk' : knownDef (byteAt bs (s.pos + 2)) = false := by simpa using hk
          have hm : defAt bs s = [] := by
            unfold defAt
            rw [if_neg]
            rintro ⟨_, h2⟩
            exact hk ((knownDef_mem _).mp h2)
          rw [handleDef_none _ _ _ _ hk'] at h ⊢
          rw [hm, List.append_nil]
          simp only at h ⊢
          by_cases he : endsDefs (byteAt bs (s.pos + 2)) = true
          · rw [if_pos he] at h ⊢
            cases hs : seekBack (s.pos + 3 + (readAt bs (s.pos + 3) (leAt bs s.pos 2)).length)
              (3 + leAt bs s.pos 2) with
            | ok p => rw [hs] at h; cases h; simpa using hp
            | error e => rw [hs] at h; cases h
          · rw [if_neg he] at h ⊢
            by_cases hc : packetCorrupt (byteAt bs (s.pos + 2)) (leAt bs s.pos 2) = true
            · rw [if_pos hc] at h ⊢
              cases hs : seekBack (s.pos + 3 + (readAt bs (s.pos + 3) (leAt bs s.pos 2)).length)
                (2 + leAt bs s.pos 2) with
              | ok p => rw [hs] at h; exact ih h (insens_corrupt hins hp)
              | error e => rw [hs] at h; cases h
            · rw [if_neg hc] at h ⊢
              exact ih h hp
      · rw [if_pos (by simpa using hh)] at h
        cases h

/-- induction over the definition section of a load -/
theorem afterDefs_inv {fuel : Nat} {cfg : Cfg} {bs : Bytes} {P : List Tr → ULog → Prop}
    (hins : Insens P)
    (hmsg : ∀ t u ty d o, P t u → handleDef cfg u ty d = some o → P (t ++ [(u, ty, d)]) o.state)
    (hbase : ∀ u, readHeader bs = .ok u → P [] u)
    {s : RS} (h : afterDefs fuel cfg bs = some s) : P (defTrace fuel cfg bs) s.u := by
  obtain ⟨u0, hh, _, hl⟩ := afterDefs_presD h
  have := defLoop_inv hins hmsg (t := []) hl (hbase u0 hh)
  simpa [defTrace, hh] using this

end PyULog
