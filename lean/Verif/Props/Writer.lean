import Verif.Lemmas.WriteDecode
import Verif.Props.Messages
import Verif.Props.Params
import Verif.Spec.SampleRun
/-
Property theorems: C22 (header and flags of a written file), C23 (order of the written data section).
-/
namespace PyULog
open Spec

theorem packFlags_ok {l : List Nat} {b : Bytes} (h : packFlags l = .ok b) :
    l.length = 8 ∧ b.length = 8 ∧ ∀ i, byteAt b i = l.getD i 0 := by
  unfold packFlags at h
  split at h
  · cases h
  · rename_i hl
    have hl : l.length = 8 := by omega
    have key : ∀ (l : List Nat) (b : Bytes), concatM (l.map (packU 1)) = .ok b →
        b.length = l.length ∧ ∀ i, byteAt b i = l.getD i 0 := by
      intro l
      induction l with
      | nil =>
        intro b h
        injection h with h
        subst h
        exact ⟨rfl, fun i => by simp [byteAt]⟩
      | cons x xs ih =>
        intro b h
        rw [List.map_cons, concatM_cons_ok] at h
        obtain ⟨a, r, h1, h2, rfl⟩ := h
        obtain ⟨h0, rfl⟩ := packU_eq_ok h1
        obtain ⟨i1, i2⟩ := ih r h2
        refine ⟨by simp [leEnc, i1], ?_⟩
        intro i
        have hx : x < 256 := by simpa using h0
        cases i with
        | zero =>
          simp [byteAt, leEnc]
          omega
        | succ i =>
          have := i2 i
          simp only [byteAt, leEnc, List.cons_append, List.nil_append, List.getD_cons_succ] at this ⊢
          exact this
    obtain ⟨h1, h2⟩ := key l b h
    exact ⟨hl, by rw [h1, hl], h2⟩

theorem and_0xFE (x : Nat) : x &&& 0xFE = x % 256 - x % 2 := by
  have e : x &&& 0xFE = (x % 256) &&& 0xFE := by
    apply Nat.eq_of_testBit_eq
    intro i
    have hm : (x % 256).testBit i = (decide (i < 8) && x.testBit i) := by
      rw [show 256 = 2 ^ 8 from rfl, Nat.testBit_mod_two_pow]
    rw [Nat.testBit_and, Nat.testBit_and, hm]
    by_cases hi : i < 8
    · simp [hi]
    · have : (0xFE : Nat).testBit i = false := Nat.testBit_lt_two_pow (by
        have : 2 ^ 8 ≤ 2 ^ i := Nat.pow_le_pow_right (by decide) (by omega)
        omega)
      simp [this]
  have hb : ∀ y, y < 256 → y &&& 0xFE = y - y % 2 := by decide +kernel
  rw [e, hb _ (Nat.mod_lt _ (by decide))]
  omega

theorem byteAt_append_left {a b : Bytes} {i : Nat} (h : i < a.length) :
    byteAt (a ++ b) i = byteAt a i := by
  simp [byteAt, List.getD_eq_getElem?_getD, List.getElem?_append_left h]

theorem byteAt_append_right {a b : Bytes} {i : Nat} :
    byteAt (a ++ b) (a.length + i) = byteAt b i := by
  simp [byteAt, List.getD_eq_getElem?_getD, List.getElem?_append_right]

/-- **C22**: a written file begins with the 16-byte header (magic, version, start timestamp) and a
flag bits message; its compatible flags are those of the log, its incompatible flags are those of
the log except that bit 0 of byte 0 (data appended) is cleared, and its offsets are zero. -/
theorem C22_header_and_flags (u : ULog) (b : Bytes) (h : writeUlog u = .ok b) :
    ∃ hdr payload rest, b = hdr ++ encMsg (tyB, payload) ++ rest ∧
      hdr.length = 16 ∧ hdr.take 7 = magic ∧ byteAt hdr 7 = u.fileVersion ∧
      leAt hdr 8 8 = u.startTs ∧
      payload.length = 40 ∧
      (∀ i, i < 8 → byteAt payload i = u.compat.getD i 0) ∧
      byteAt payload 8 = u.incompat.getD 0 0 % 256 - u.incompat.getD 0 0 % 2 ∧
      (∀ i, 0 < i → i < 8 → byteAt payload (8 + i) = u.incompat.getD i 0) ∧
      (∀ i, 16 ≤ i → i < 40 → byteAt payload i = 0) := by
  obtain ⟨w⟩ := written_of_ok h
  have hh := w.h_hdr
  unfold writeHeader at hh
  obtain ⟨h1, hh⟩ := packU_bind_ok.mp hh
  obtain ⟨h2, hh⟩ := packU_bind_ok.mp hh
  split at hh
  · cases hh
  · rename_i hlen
    injection hh with hh
    have hlen : (HEADER_BYTES ++ leEnc 1 u.fileVersion ++ leEnc 8 u.startTs).length = 16 := by
      simpa using hlen
    have hf := w.h_flags
    unfold writeFlags at hf
    obtain ⟨c, h3, hf⟩ := except_bind_ok.mp hf
    obtain ⟨i, h4, hf⟩ := except_bind_ok.mp hf
    obtain ⟨j, h5, hf⟩ := except_bind_ok.mp hf
    obtain ⟨c1, c2, c3⟩ := packFlags_ok h3
    obtain ⟨j1, j2, j3⟩ := packFlags_ok h5
    obtain ⟨_, _, hf⟩ := (frame_ok_iff _ _ _).mp hf
    have hpl : (c ++ j ++ leEnc 8 0 ++ leEnc 8 0 ++ leEnc 8 0).length = 40 := by
      simp [c2, j2]
    refine ⟨w.hdr, _, w.fmts ++ (w.infos ++ (w.multi ++ (w.init ++ (w.dflt ++ (w.subs ++ w.data))))),
      ?_, ?_, ?_, ?_, ?_, hpl, ?_, ?_, ?_, ?_⟩
    · rw [show tyB = MSG_TYPE_FLAG_BITS from rfl, ← hf, List.append_assoc]
      exact w.eq
    · rw [← hh]; exact hlen
    · rw [← hh]; rfl
    · rw [← hh]
      have : byteAt (HEADER_BYTES ++ leEnc 1 u.fileVersion ++ leEnc 8 u.startTs) 7
          = u.fileVersion % 256 := by
        simp [HEADER_BYTES, leEnc, byteAt]
      rw [this]
      have : u.fileVersion < 256 := by simpa using h1
      omega
    · rw [← hh, leAt_slice _ _ _ (by rw [hlen]; omega)]
      have : slice 8 (8 + 8) (HEADER_BYTES ++ leEnc 1 u.fileVersion ++ leEnc 8 u.startTs)
          = leEnc 8 u.startTs := by
        have := slice_mid (a := 8) (b := 16) (HEADER_BYTES ++ leEnc 1 u.fileVersion)
          (leEnc 8 u.startTs) [] rfl (by rw [leEnc_length])
        rwa [List.append_nil] at this
      rw [this, leNat_leEnc _ _ h2]
    · intro k hk
      rw [List.append_assoc, List.append_assoc, List.append_assoc, byteAt_append_left (by omega), c3]
    all_goals
      have hinc : ∃ x xs, u.incompat = x :: xs ∧ i = (x &&& 0xFE) :: xs := by
        revert h4
        cases u.incompat with
        | nil => intro h4; cases h4
        | cons x xs => intro h4; injection h4 with h4; exact ⟨x, xs, rfl, h4.symm⟩
      obtain ⟨x, xs, q1, q2⟩ := hinc
      have e8 : ∀ k, k < 8 → byteAt (c ++ j ++ leEnc 8 0 ++ leEnc 8 0 ++ leEnc 8 0) (8 + k)
          = i.getD k 0 := by
        intro k hk
        rw [List.append_assoc, List.append_assoc, List.append_assoc, ← c2, byteAt_append_right,
          byteAt_append_left (by omega), j3]
    · have := e8 0 (by decide)
      rw [Nat.add_zero] at this
      rw [this, q1, q2, List.getD_cons_zero, List.getD_cons_zero, and_0xFE]
    · intro k h0 hk
      rw [e8 k hk, q1, q2]
      cases k with
      | zero => omega
      | succ k => rfl
    · intro k h16 hk
      have hz : leEnc 8 0 ++ leEnc 8 0 ++ leEnc 8 0 = List.replicate 24 0 := by decide
      have : k = (c ++ j).length + (k - 16) := by
        rw [List.length_append, c2, j2]; omega
      rw [this, List.append_assoc (c ++ j ++ leEnc 8 0), List.append_assoc (c ++ j),
        ← List.append_assoc (leEnc 8 0), hz, byteAt_append_right]
      simp only [byteAt, List.getD_eq_getElem?_getD, List.getElem?_replicate]
      split <;> rfl

/-- a log with appended data loses only the marker -/
example : ((writeUlog (Sample.get (load 20 {} (Sample.header ++ encMsgs
      [(tyB, [1, 2] ++ List.replicate 6 0 ++ [1] ++ List.replicate 7 0 ++ leEnc 8 59 ++ List.replicate 16 0)])))).toOption.map
      fun b => (b.drop 19).take 40)
    = some ([1, 2] ++ List.replicate 38 0) := by decide +kernel

/-! ### C23 -/

theorem mapM_inv {α β : Type} {f : α → Except PyErr β} {l : List α} {r : List β}
    (h : l.mapM f = .ok r) : r.length = l.length ∧ ∀ p ∈ l.zip r, f p.1 = .ok p.2 := by
  induction l generalizing r with
  | nil =>
    injection h with h
    subst h
    exact ⟨rfl, by simp⟩
  | cons a l ih =>
    rw [List.mapM_cons] at h
    obtain ⟨b, h1, h⟩ := except_bind_ok.mp h
    obtain ⟨bs, h2, h⟩ := except_bind_ok.mp h
    injection h with h
    subst h
    obtain ⟨i1, i2⟩ := ih h2
    refine ⟨by simp [i1], ?_⟩
    intro p hp
    rw [List.zip_cons_cons, List.mem_cons] at hp
    rcases hp with rfl | hp
    · exact h1
    · exact i2 p hp

theorem mapM_get {α β : Type} {f : α → Except PyErr β} {l : List α} {r : List β}
    (h : l.mapM f = .ok r) (i : Nat) (hi : i < l.length) (hr : i < r.length) :
    f l[i] = .ok r[i] := by
  obtain ⟨_, h2⟩ := mapM_inv h
  have hlt : i < (l.zip r).length := by rw [List.length_zip]; omega
  have := List.getElem_mem hlt
  rw [List.getElem_zip] at this
  exact h2 _ this

/-- from a relation between elements to a list of messages -/
theorem mapM_items {α : Type} {f : α → Except PyErr Item} {P : α → Timed → Prop}
    {l : List α} {r : List Item}
    (hf : ∀ a ∈ l, ∀ x, f a = .ok x → ∃ m, x.2 = encMsg m ∧ Fits m ∧ P a (x.1, m))
    (h : l.mapM f = .ok r) :
    ∃ ts : List Timed, r = ts.map (fun t => (t.1, encMsg t.2)) ∧ (∀ t ∈ ts, Fits t.2) ∧
      ts.length = l.length ∧ ∀ p ∈ l.zip ts, P p.1 p.2 := by
  induction l generalizing r with
  | nil =>
    injection h with h
    subst h
    exact ⟨[], rfl, by simp, rfl, by simp⟩
  | cons a l ih =>
    rw [List.mapM_cons] at h
    obtain ⟨b, h1, h⟩ := except_bind_ok.mp h
    obtain ⟨bs, h2, h⟩ := except_bind_ok.mp h
    injection h with h
    subst h
    obtain ⟨ts, i1, i2, i3, i4⟩ := ih (fun a ha => hf a (List.mem_cons_of_mem _ ha)) h2
    obtain ⟨m, e1, e2, e3⟩ := hf a (List.mem_cons_self ..) b h1
    refine ⟨(b.1, m) :: ts, ?_, ?_, by simp [i3], ?_⟩
    · rw [i1, List.map_cons, ← e1]
    · intro t ht
      rcases List.mem_cons.mp ht with rfl | ht
      · exact e2
      · exact i2 t ht
    · intro p hp
      rw [List.zip_cons_cons, List.mem_cons] at hp
      rcases hp with rfl | hp
      · exact e3
      · exact i4 p hp

theorem zip_map_eq {α β γ : Type} {l : List α} {r : List β} {f : α → γ} {g : β → γ}
    (hl : r.length = l.length) (h : ∀ p ∈ l.zip r, g p.2 = f p.1) : r.map g = l.map f := by
  induction l generalizing r with
  | nil =>
    cases r with
    | nil => rfl
    | cons => simp at hl
  | cons a l ih =>
    cases r with
    | nil => simp at hl
    | cons b r =>
      rw [List.map_cons, List.map_cons, h (a, b) (by simp), ih (by simpa using hl) (fun p hp =>
        h p (by rw [List.zip_cons_cons]; exact List.mem_cons_of_mem _ hp))]

theorem loggedItem_ok {m : LogMsg} {x : Item} (h : loggedItem m = .ok x) :
    ∃ d : Nat × Bytes, x.2 = encMsg d ∧ Fits d ∧ x.1 = (m.ts : Int) ∧ d.1 = tyL ∧
      ∀ ign, parseLogging ign d.2 = .ok m := by
  unfold loggedItem at h
  obtain ⟨h1, h⟩ := packU_bind_ok.mp h
  obtain ⟨h2, h⟩ := packU_bind_ok.mp h
  obtain ⟨f1, f2, h⟩ := frame_bind_ok.mp h
  injection h with h
  subst h
  exact ⟨_, rfl, ⟨f1, f2⟩, rfl, rfl, fun ign => parseLogging_payload ign m (by simpa using h1) h2⟩

theorem taggedItem_ok {m : TagMsg} {x : Item} (h : taggedItem m = .ok x) :
    ∃ d : Nat × Bytes, x.2 = encMsg d ∧ Fits d ∧ x.1 = (m.ts : Int) ∧ d.1 = tyC ∧
      ∀ ign, parseLoggingTagged ign d.2 = .ok m := by
  unfold taggedItem at h
  obtain ⟨h1, h⟩ := packU_bind_ok.mp h
  obtain ⟨h2, h⟩ := packU_bind_ok.mp h
  obtain ⟨h3, h⟩ := packU_bind_ok.mp h
  obtain ⟨f1, f2, h⟩ := frame_bind_ok.mp h
  injection h with h
  subst h
  exact ⟨_, rfl, ⟨f1, f2⟩, rfl, rfl,
    fun ign => parseLoggingTagged_payload ign m (by simpa using h1) h2 h3⟩

theorem dropoutItem_ok {m : Dropout} {x : Item} (h : dropoutItem m = .ok x) :
    ∃ d : Nat × Bytes, x.2 = encMsg d ∧ Fits d ∧ x.1 = (m.ts : Int) ∧
      d = (tyO, leEnc 2 m.duration) ∧ m.duration < 256 ^ 2 := by
  unfold dropoutItem at h
  obtain ⟨h1, h⟩ := packU_bind_ok.mp h
  obtain ⟨f1, f2, h⟩ := frame_bind_ok.mp h
  injection h with h
  subst h
  exact ⟨_, rfl, ⟨f1, f2⟩, rfl, rfl, h1⟩

theorem changedItem_ok {p : Nat × Str × Value} {x : Item} (hk : ' ' ∉ p.2.1) (hv : ParamOk p.2.2)
    (h : changedItem p = .ok x) :
    ∃ d : Nat × Bytes, x.2 = encMsg d ∧ Fits d ∧ x.1 = (p.1 : Int) ∧ d.1 = tyP ∧
      ∀ ign, parseInfo ign d.2
        = .ok { cont := 0, type := paramType p.2.2, key := p.2.1, value := asParam p.2.2 } := by
  unfold changedItem at h
  obtain ⟨d, h1, h⟩ := except_bind_ok.mp h
  obtain ⟨f1, f2, h⟩ := frame_bind_ok.mp h
  injection h with h
  subst h
  exact ⟨_, rfl, ⟨f1, f2⟩, rfl, rfl, fun ign => paramData_ok ign hk hv h1⟩

theorem byMsgId_pre : TotalPre (fun a b : Dataset => decide (a.msgId ≤ b.msgId)) :=
  totalPre_keyNat _

theorem datasetItems_ok {d : Dataset} {l : List Item} (ht : ColumnsTyped d)
    (h : datasetItems d = .ok l) :
    ∃ ts : List Timed, l = ts.map (fun t => (t.1, encMsg t.2)) ∧ (∀ t ∈ ts, Fits t.2) ∧
      IsRows d ts := by
  unfold datasetItems at h
  obtain ⟨f, h1, h⟩ := except_bind_ok.mp h
  split at h
  · cases h
  · rename_i col hcol
    obtain ⟨ts, e1, e2, e3, e4⟩ := mapM_items (P := fun i t => IsRow d i t)
      (fun i _ x hx => sampleItem_ok ht hx) h
    refine ⟨ts, e1, e2, ?_, ?_⟩
    · rw [e3, List.length_range]
      unfold rowCount
      unfold pyIndex at h1
      cases hf : d.fields with
      | nil => rw [hf] at h1; cases h1
      | cons g gs =>
        rw [hf] at h1
        injection h1 with h1
        subst h1
        simp [hcol]
    · intro i hi
      have hlt : i < ((List.range col.length).zip ts).length := by
        rw [List.length_zip, ← e3]; omega
      have := e4 _ (List.getElem_mem hlt)
      rw [List.getElem_zip, List.getElem_range] at this
      exact this

/-- messages of all datasets -/
theorem dataItems_ok {u : ULog} {l : List Item} (ht : ∀ d ∈ u.dataList, ColumnsTyped d)
    (h : dataItems u = .ok l) :
    ∃ per : List (List Timed), l = per.flatten.map (fun t => (t.1, encMsg t.2)) ∧
      (∀ t ∈ per.flatten, Fits t.2) ∧ per.length = (byMsgId u.dataList).length ∧
      ∀ p ∈ (byMsgId u.dataList).zip per, IsRows p.1 p.2 := by
  unfold dataItems at h
  obtain ⟨ls, h1, h⟩ := except_bind_ok.mp h
  injection h with h
  subst h
  clear h
  have hmem : ∀ d ∈ byMsgId u.dataList, ColumnsTyped d := fun d hd =>
    ht d ((mem_ssort _ _ _).mp hd)
  revert ls hmem
  induction byMsgId u.dataList with
  | nil =>
    intro ls h1 _
    injection h1 with h1
    subst h1
    exact ⟨[], rfl, by simp, rfl, by simp⟩
  | cons d ds ih =>
    intro ls h0 hmem
    rw [List.mapM_cons] at h0
    obtain ⟨a, h1, h2'⟩ := except_bind_ok.mp h0
    obtain ⟨as, h2, h3⟩ := except_bind_ok.mp h2'
    injection h3 with h3
    subst h3
    obtain ⟨ts, t1, t2, t3⟩ := datasetItems_ok (hmem d (List.mem_cons_self ..)) h1
    obtain ⟨per, p1, p2, p3, p4⟩ := ih as h2 (fun d hd => hmem d (List.mem_cons_of_mem _ hd))
    refine ⟨ts :: per, ?_, ?_, by simp [p3], ?_⟩
    · rw [List.flatten_cons, List.flatten_cons, List.map_append, ← t1, ← p1]
    · intro t ht
      rw [List.flatten_cons, List.mem_append] at ht
      rcases ht with ht | ht
      · exact t2 t ht
      · exact p2 t ht
    · intro p hp
      rw [List.zip_cons_cons, List.mem_cons] at hp
      rcases hp with rfl | hp
      · exact t3
      · exact p4 p hp

theorem itemKey_pre : TotalPre (fun a b : Item => decide (a.1 ≤ b.1)) := totalPre_key _

theorem timedKey_pre : TotalPre (fun a b : Timed => decide (a.1 ≤ b.1)) := totalPre_key _

theorem timeSorted_ssort (l : List Timed) :
    TimeSorted l (ssort (fun a b => decide (a.1 ≤ b.1)) l) := by
  refine ⟨ssort_perm _ _, ?_, ?_⟩
  · refine (ssort_sorted timedKey_pre l).imp ?_
    intro a b h
    simpa using h
  · intro t
    have h := filter_ssort timedKey_pre (fun x : Timed => decide (x.1 = t)) l
    rw [h]
    apply ssort_of_sorted
    rw [Sorted, List.pairwise_iff_forall_sublist]
    intro a b hab
    have ha : a ∈ l.filter fun x : Timed => decide (x.1 = t) := hab.subset (by simp)
    have hb : b ∈ l.filter fun x : Timed => decide (x.1 = t) := hab.subset (by simp)
    have ha := (List.mem_filter.mp ha).2
    have hb := (List.mem_filter.mp hb).2
    simp only [decide_eq_true_eq] at ha hb ⊢
    omega

/-- the messages of the data section before sorting -/
theorem allItems_ok {u : ULog} {l : List Item} (ht : ∀ d ∈ u.dataList, ColumnsTyped d)
    (hp : ∀ p ∈ u.changedParams, ' ' ∉ p.2.1 ∧ ParamOk p.2.2) (h : allItems u = .ok l) :
    ∃ (per : List (List Timed)) (lo ta dr pa : List Timed),
      l = (per.flatten ++ lo ++ ta ++ dr ++ pa).map (fun t => (t.1, encMsg t.2)) ∧
      (∀ t ∈ per.flatten ++ lo ++ ta ++ dr ++ pa, Fits t.2) ∧
      (per.length = (byMsgId u.dataList).length ∧
        ∀ p ∈ (byMsgId u.dataList).zip per, IsRows p.1 p.2) ∧
      (lo.length = u.logged.length ∧ ∀ p ∈ u.logged.zip lo, p.2.1 = (p.1.ts : Int) ∧
        p.2.2.1 = tyL ∧ ∀ ign, parseLogging ign p.2.2.2 = .ok p.1) ∧
      (ta.length = u.tagged.vals.flatten.length ∧
        ∀ p ∈ u.tagged.vals.flatten.zip ta, p.2.1 = (p.1.ts : Int) ∧
        p.2.2.1 = tyC ∧ ∀ ign, parseLoggingTagged ign p.2.2.2 = .ok p.1) ∧
      (dr.length = u.dropouts.length ∧ ∀ p ∈ u.dropouts.zip dr, p.2.1 = (p.1.ts : Int) ∧
        p.2.2 = (tyO, leEnc 2 p.1.duration) ∧ p.1.duration < 256 ^ 2) ∧
      (pa.length = u.changedParams.length ∧
        ∀ p ∈ u.changedParams.zip pa, p.2.1 = (p.1.1 : Int) ∧
        p.2.2.1 = tyP ∧ ∀ ign, parseInfo ign p.2.2.2
          = .ok { cont := 0, type := paramType p.1.2.2, key := p.1.2.1, value := asParam p.1.2.2 }) := by
  unfold allItems at h
  obtain ⟨a, h1, ha⟩ := except_bind_ok.mp h
  obtain ⟨b, h2, hb⟩ := except_bind_ok.mp ha
  obtain ⟨c, h3, hc⟩ := except_bind_ok.mp hb
  obtain ⟨d, h4, hd⟩ := except_bind_ok.mp hc
  obtain ⟨e, h5, he⟩ := except_bind_ok.mp hd
  injection he with he
  subst he
  clear h ha hb hc hd
  obtain ⟨per, a1, a2, a3, a4⟩ := dataItems_ok ht h1
  obtain ⟨lo, b1, b2, b3, b4⟩ := mapM_items (f := loggedItem)
    (P := fun m t => t.1 = (m.ts : Int) ∧ t.2.1 = tyL ∧ ∀ ign, parseLogging ign t.2.2 = .ok m)
    (fun m _ x hx => by obtain ⟨d, q1, q2, q3⟩ := loggedItem_ok hx; exact ⟨d, q1, q2, q3⟩) h2
  obtain ⟨ta, c1, c2, c3, c4⟩ := mapM_items (f := taggedItem)
    (P := fun m t => t.1 = (m.ts : Int) ∧ t.2.1 = tyC ∧ ∀ ign, parseLoggingTagged ign t.2.2 = .ok m)
    (fun m _ x hx => by obtain ⟨d, q1, q2, q3⟩ := taggedItem_ok hx; exact ⟨d, q1, q2, q3⟩) h3
  obtain ⟨dr, d1, d2, d3, d4⟩ := mapM_items (f := dropoutItem)
    (P := fun m t => t.1 = (m.ts : Int) ∧ t.2 = (tyO, leEnc 2 m.duration) ∧ m.duration < 256 ^ 2)
    (fun m _ x hx => by obtain ⟨d, q1, q2, q3⟩ := dropoutItem_ok hx; exact ⟨d, q1, q2, q3⟩) h4
  obtain ⟨pa, e1, e2, e3, e4⟩ := mapM_items (f := changedItem)
    (P := fun p t => t.1 = (p.1 : Int) ∧ t.2.1 = tyP ∧ ∀ ign, parseInfo ign t.2.2
      = .ok { cont := 0, type := paramType p.2.2, key := p.2.1, value := asParam p.2.2 })
    (fun p hm x hx => by
      obtain ⟨d, q1, q2, q3⟩ := changedItem_ok (hp _ hm).1 (hp _ hm).2 hx
      exact ⟨d, q1, q2, q3⟩) h5
  refine ⟨per, lo, ta, dr, pa, ?_, ?_, ⟨a3, a4⟩, ⟨b3, b4⟩, ⟨c3, c4⟩, ⟨d3, d4⟩, e3, e4⟩
  · simp only [List.map_append]
    rw [← a1, ← b1, ← c1, ← d1, ← e1]
  · intro t ht
    simp only [List.mem_append] at ht
    rcases ht with (((ht | ht) | ht) | ht) | ht
    · exact a2 t ht
    · exact b2 t ht
    · exact c2 t ht
    · exact d2 t ht
    · exact e2 t ht

/-- the definition part and the subscriptions contain no message of the data section -/
theorem written_parts {u : ULog} {b : Bytes} (w : Written u b) :
    ∃ defs subs : List (Nat × Bytes), (∀ m ∈ defs, m.1 ∈ [tyB, tyF, tyI, tyM, tyP, tyQ] ∧ Fits m) ∧
      (∀ m ∈ subs, m.1 ∈ [tyA] ∧ Fits m) ∧
      b = w.hdr ++ encMsgs defs ++ encMsgs subs ++ w.data := by
  have hflags : ∃ ms : List (Nat × Bytes), (∀ m ∈ ms, m.1 ∈ [tyB, tyF, tyI, tyM, tyP, tyQ] ∧ Fits m)
      ∧ w.flags = encMsgs ms := by
    have h := w.h_flags
    unfold writeFlags at h
    obtain ⟨_, _, h⟩ := except_bind_ok.mp h
    obtain ⟨_, _, h⟩ := except_bind_ok.mp h
    obtain ⟨_, _, h⟩ := except_bind_ok.mp h
    exact frame_types (by decide) h
  have hfmts := emits_types (T := [tyB, tyF, tyI, tyM, tyP, tyQ])
    (fun x _ b hb => frame_types (by decide) hb) w.h_fmts
  have hinfos := emits_types (T := [tyB, tyF, tyI, tyM, tyP, tyQ])
    (fun x _ b hb => by
      dsimp only at hb
      split at hb
      · cases hb
      · obtain ⟨_, _, h⟩ := except_bind_ok.mp hb
        exact frame_types (by decide) h) w.h_infos
  have hmulti := emits_types (T := [tyB, tyF, tyI, tyM, tyP, tyQ])
    (fun x _ b hb => by
      dsimp only at hb
      split at hb
      · cases hb
      · exact emits_types (T := [tyB, tyF, tyI, tyM, tyP, tyQ]) (fun y _ b hb => by
          obtain ⟨ms, h1, h2⟩ := writeValueSet_types hb
          refine ⟨ms, fun m hm => ⟨?_, (h1 m hm).2⟩, h2⟩
          have := (h1 m hm).1
          rw [List.mem_singleton] at this
          rw [this]; decide) hb) w.h_multi
  have hinit := emits_types (T := [tyB, tyF, tyI, tyM, tyP, tyQ])
    (fun x _ b hb => by
      obtain ⟨_, _, h⟩ := except_bind_ok.mp hb
      exact frame_types (by decide) h) w.h_init
  have hdflt := emits_types (T := [tyB, tyF, tyI, tyM, tyP, tyQ])
    (fun x _ b hb => by
      exact emits_types (T := [tyB, tyF, tyI, tyM, tyP, tyQ]) (fun y _ b hb => by
        obtain ⟨_, _, h⟩ := except_bind_ok.mp hb
        obtain ⟨_, _, h⟩ := except_bind_ok.mp h
        exact frame_types (by decide) h) hb) w.h_dflt
  have hsubs := emits_types (T := [tyA])
    (fun x _ b hb => by
      obtain ⟨_, _, h⟩ := except_bind_ok.mp hb
      obtain ⟨_, _, h⟩ := except_bind_ok.mp h
      exact frame_types (by decide) h) w.h_subs
  obtain ⟨m1, p1, e1⟩ := hflags
  obtain ⟨m2, p2, e2⟩ := hfmts
  obtain ⟨m3, p3, e3⟩ := hinfos
  obtain ⟨m4, p4, e4⟩ := hmulti
  obtain ⟨m5, p5, e5⟩ := hinit
  obtain ⟨m6, p6, e6⟩ := hdflt
  obtain ⟨m7, p7, e7⟩ := hsubs
  refine ⟨m1 ++ (m2 ++ (m3 ++ (m4 ++ (m5 ++ m6)))), m7, ?_, p7, ?_⟩
  · intro m hm
    simp only [List.mem_append] at hm
    rcases hm with hm | hm | hm | hm | hm | hm
    · exact p1 m hm
    · exact p2 m hm
    · exact p3 m hm
    · exact p4 m hm
    · exact p5 m hm
    · exact p6 m hm
  · have := w.eq
    rw [e1, e2, e3, e4, e5, e6, e7] at this
    simp only [encMsgs_append, List.append_assoc] at this ⊢
    exact this

/-- **C23**: the data section of a written log consists of the messages of the datasets (one for each
row, datasets in the order of their ids), logged messages, tagged messages, dropouts and parameter
changes, each exactly once, ordered by timestamp; messages with the same timestamp stay in the order
just given. Every message holds what the log holds. -/
theorem C23_data_section (u : ULog) (b : Bytes) (h : writeUlog u = .ok b)
    (ht : ∀ d ∈ u.dataList, ColumnsTyped d)
    (hp : ∀ p ∈ u.changedParams, ' ' ∉ p.2.1 ∧ ParamOk p.2.2) :
    ∃ (hdr : Bytes) (defs subs : List (Nat × Bytes)) (ds : List Dataset) (per : List (List Timed))
        (lo ta dr pa out : List Timed),
      -- the file
      b = hdr ++ encMsgs defs ++ encMsgs subs ++ encMsgs (out.map (·.2)) ∧ hdr.length = 16 ∧
      (∀ m ∈ defs, m.1 ∈ [tyB, tyF, tyI, tyM, tyP, tyQ]) ∧ (∀ m ∈ subs, m.1 = tyA) ∧
      -- the order
      TimeSorted (per.flatten ++ lo ++ ta ++ dr ++ pa) out ∧
      -- the samples
      ds.Perm u.dataList ∧ ds.Pairwise (fun a b => a.msgId ≤ b.msgId) ∧
      (∀ id, ds.filter (fun d => d.msgId = id) = u.dataList.filter (fun d => d.msgId = id)) ∧
      per.length = ds.length ∧ (∀ p ∈ ds.zip per, IsRows p.1 p.2) ∧
      -- the other messages
      (lo.map (·.1) = u.logged.map (fun m => (m.ts : Int)) ∧
        ∀ ign, lo.map (fun x => loggedOf ign (trace0 x.2)) = u.logged.map some) ∧
      (ta.map (·.1) = (u.tagged.map (·.2)).flatten.map (fun m => (m.ts : Int)) ∧
        ∀ ign, ta.map (fun x => taggedOf ign (trace0 x.2)) = (u.tagged.map (·.2)).flatten.map some) ∧
      (dr.map (·.1) = u.dropouts.map (fun m => (m.ts : Int)) ∧
        dr.map (fun x => dropoutOf (trace0 x.2)) = u.dropouts.map fun m => some m.duration) ∧
      (pa.map (·.1) = u.changedParams.map (fun p => (p.1 : Int)) ∧
        ∀ ign, pa.map (fun x => paramOf ign (trace0 x.2))
          = u.changedParams.map fun p => some (p.2.1, asParam p.2.2)) := by
  obtain ⟨w⟩ := written_of_ok h
  obtain ⟨defs, subs, d1, d2, d3⟩ := written_parts w
  have hd := w.h_data
  unfold writeDataSection at hd
  obtain ⟨items, hi, hd⟩ := except_bind_ok.mp hd
  injection hd with hd
  obtain ⟨per, lo, ta, dr, pa, e0, _, ⟨p1, p2⟩, ⟨l1, l2⟩, ⟨t1, t2⟩, ⟨r1, r2⟩, q1, q2⟩ :=
    allItems_ok ht hp hi
  refine ⟨w.hdr, defs, subs, byMsgId u.dataList, per, lo, ta, dr, pa,
    ssort (fun a b => decide (a.1 ≤ b.1)) (per.flatten ++ lo ++ ta ++ dr ++ pa), ?_, ?_,
    fun m hm => (d1 m hm).1, fun m hm => List.mem_singleton.mp (d2 m hm).1, timeSorted_ssort _,
    ssort_perm _ _, ?_, ?_, p1, p2, ⟨?_, ?_⟩, ⟨?_, ?_⟩, ⟨?_, ?_⟩, ?_, ?_⟩
  · refine d3.trans (congrArg _ ?_)
    rw [← hd, e0]
    unfold sortItems
    rw [← ssort_map (le := fun a b : Timed => decide (a.1 ≤ b.1))
      (fun t : Timed => ((t.1, encMsg t.2) : Item)) (fun a b => rfl)]
    unfold encMsgs
    rw [List.flatMap_map, List.flatMap_map]
  · have hh := w.h_hdr
    unfold writeHeader at hh
    obtain ⟨_, hh⟩ := packU_bind_ok.mp hh
    obtain ⟨_, hh⟩ := packU_bind_ok.mp hh
    split at hh
    · cases hh
    · rename_i hl
      injection hh with hh
      rw [← hh]
      simpa using hl
  · refine (ssort_sorted byMsgId_pre u.dataList).imp ?_
    intro a b h
    simpa using h
  · intro id
    unfold byMsgId
    rw [filter_ssort byMsgId_pre]
    apply ssort_of_sorted
    rw [Sorted, List.pairwise_iff_forall_sublist]
    intro a b hab
    have ha := (List.mem_filter.mp (hab.subset (by simp) : a ∈ _)).2
    have hb := (List.mem_filter.mp (hab.subset (by simp) : b ∈ _)).2
    simp only [decide_eq_true_eq] at ha hb ⊢
    omega
  · exact zip_map_eq l1 fun p hp => (l2 p hp).1
  · intro ign
    refine zip_map_eq l1 fun p hp => ?_
    obtain ⟨_, h1, h2⟩ := l2 p hp
    have := parseLogging_spec ign p.2.2.2
    rw [h2 ign] at this
    simp only [loggedOf, trace0, h1, true_and]
    exact this.symm
  · exact zip_map_eq t1 fun p hp => (t2 p hp).1
  · intro ign
    refine zip_map_eq t1 fun p hp => ?_
    obtain ⟨_, h1, h2⟩ := t2 p hp
    have := parseLoggingTagged_spec ign p.2.2.2
    rw [h2 ign] at this
    simp only [taggedOf, trace0, h1, true_and]
    exact this.symm
  · exact zip_map_eq r1 fun p hp => (r2 p hp).1
  · refine zip_map_eq r1 fun p hp => ?_
    obtain ⟨_, h1, h2⟩ := r2 p hp
    simp only [dropoutOf, trace0, h1, true_and, leEnc_length, if_true]
    rw [leAt_zero _ _ (leEnc_length ..), leNat_leEnc _ _ h2]
  · exact zip_map_eq q1 fun p hp => (q2 p hp).1
  · intro ign
    refine zip_map_eq q1 fun p hp => ?_
    obtain ⟨_, h1, h2⟩ := q2 p hp
    simp only [paramOf, trace0, h1, if_true, keyValue_eq, h2]
    rfl

namespace Sample

/-- the sample log without its malformed message -/
def goodFile : Bytes := header ++ encMsgs (defs.dropLast) ++ encMsgs (msgs.filter fun m => m ≠ (tyD, leEnc 2 3 ++ [1, 2]))

def good : ULog := get (load 20 {} goodFile)

theorem typed_of_check {t : BT} {v : NpVal}
    (h : match t, v with
      | .i16, .int n => -2 ^ 15 ≤ n ∧ n < 2 ^ 15
      | .u64, .int n => 0 ≤ n ∧ n < 2 ^ 64
      | _, _ => False) : Typed t v := by
  have key : ∀ n : Int, intFits t n → (∀ b : Bytes, npDecode t b = .int (if t.signed then
      toSigned t.size (leNat b) else (leNat b : Int))) → Typed t (.int n) := by
    intro n hn ht
    obtain ⟨b, _, h2, h3⟩ := packInt_ok hn
    exact typed_iff.mpr ⟨b, h2, by rw [ht, h3]⟩
  cases t <;> cases v <;> first | (simp at h; done) | skip
  · rename_i n
    exact key n h (fun _ => rfl)
  · rename_i n
    exact key n h (fun _ => rfl)

end Sample

/-- the hypotheses hold for the sample log, which has two datasets, text messages, a dropout and
parameter changes -/
example : (writeUlog Sample.good).toOption.isSome ∧ Sample.good.dataList.length = 2 ∧
    Sample.good.changedParams.length = 2 ∧ Sample.good.dropouts.length = 1 := by decide +kernel

example : ∀ d ∈ Sample.good.dataList, ColumnsTyped d := by
  have : ∀ d ∈ Sample.good.dataList, ∀ f ∈ d.fields, ∀ v ∈ (d.data.get? f.name).getD [],
      (match f.type, v with
        | .i16, .int n => decide (-2 ^ 15 ≤ n ∧ n < 2 ^ 15)
        | .u64, .int n => decide (0 ≤ n ∧ n < 2 ^ 64)
        | _, _ => false) = true := by decide +kernel
  intro d hd f hf col hc v hv
  refine Sample.typed_of_check ?_
  have := this d hd f hf v (by rw [hc]; exact hv)
  split at this
  · exact of_decide_eq_true this
  · exact of_decide_eq_true this
  · cases this

example : ∀ p ∈ Sample.good.changedParams, ' ' ∉ p.2.1 ∧ ParamOk p.2.2 := by
  have : Sample.good.changedParams = [(110, py! "K", .int 8), (120, py! "K", .int 10)] := by
    decide +kernel
  rw [this]
  intro p hp
  simp only [List.mem_cons, List.not_mem_nil, or_false] at hp
  rcases hp with rfl | rfl
  · exact ⟨by decide, Or.inl ⟨8, rfl, by decide, by decide⟩⟩
  · exact ⟨by decide, Or.inl ⟨10, rfl, by decide, by decide⟩⟩

end PyULog
