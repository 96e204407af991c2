import Verif.Lemmas.Trace
import Verif.Spec.Messages
/-
The model's parsers agree with the independent decoders of Spec/Messages.lean.
-/
namespace PyULog
open Spec

theorem leAt_zero (b : Bytes) (n : Nat) (h : b.length = n) : leAt b 0 n = leNat b := by
  rw [leAt_eq _ _ _ (by omega), List.drop_zero, List.take_of_length_le (by omega)]

theorem byteAt_zero (b : Bytes) (h : 1 ≤ b.length) : byteAt b 0 = leNat (slice 0 1 b) := by
  rw [byteAt_eq _ _ (by omega), slice_zero, List.drop_zero]

theorem leAt_slice (b : Bytes) (o n : Nat) (h : o + n ≤ b.length) :
    leAt b o n = leNat (slice o (o + n) b) := by
  rw [leAt_eq _ _ _ h]
  simp [slice, List.drop_take]

theorem toOption_map (x : Except PyErr α) (f : α → β) : (x.map f).toOption = x.toOption.map f := by
  cases x <;> rfl

theorem unpackScalar_spec (t : BT) (b : Bytes) :
    (unpackScalar t b).toOption = if b.length = width t then
      some (match t with
        | .i8 => .int (signed 8 (leNat b)) | .i16 => .int (signed 16 (leNat b))
        | .i32 => .int (signed 32 (leNat b)) | .i64 => .int (signed 64 (leNat b))
        | .u8 | .u16 | .u32 | .u64 => .int (leNat b)
        | .f32 => .float (widen (leNat b)) | .f64 => .float (leNat b)
        | .bool => .bool (leNat b != 0) | .char => .bytes b) else none := by
  unfold unpackScalar
  by_cases h : b.length = width t
  · rw [if_pos h, if_neg (by rw [h]; cases t <;> simp [width, BT.size])]
    cases t <;> simp only [Except.toOption, toSigned, signed, BT.size] <;>
      first | (simp only [Nat.reduceMul]; done) | (cases leNat b <;> rfl)
  · rw [if_neg h, if_pos (by intro h2; apply h; rw [h2]; cases t <;> rfl)]
    rfl

theorem infoValue_eq (ign : Bool) (ty : Str) (b : Bytes) :
    infoValue ign ty b = (parseInfoValue ign ty b).toOption := by
  unfold infoValue parseInfoValue
  have hp : (py! "char[" <+: ty) ↔ startsWith (py! "char[") ty = true := by
    simp [startsWith]
  by_cases hc : startsWith (py! "char[") ty = true
  · rw [if_pos (hp.mpr hc), if_pos hc, toOption_map]; rfl
  · rw [if_neg (fun h => hc (hp.mp h)), if_neg hc]
    cases ho : BT.ofName ty with
    | some t =>
      have hn : t.name = ty := by
        have := List.find?_some ho
        simpa using this
      subst hn
      simp only [unpackScalar_spec]
      by_cases h : b.length = width t
      · have hl := leAt_zero b _ h
        rw [if_pos h]
        cases t <;> simp [BT.name] <;> simp [width] at h hl <;> simp [h, hl]
      · rw [if_neg h]
        cases t <;> simp [BT.name] <;> simpa [width] using h
    | none =>
      have hne : ∀ t : BT, t.name ≠ ty := by
        intro t ht
        have := List.find?_eq_none.mp ho t (by cases t <;> decide)
        simp [ht] at this
      have h1 := hne .i8; have h2 := hne .u8; have h3 := hne .i16; have h4 := hne .u16
      have h5 := hne .i32; have h6 := hne .u32; have h7 := hne .i64; have h8 := hne .u64
      have h9 := hne .f32; have h10 := hne .f64; have h11 := hne .bool; have h12 := hne .char
      simp only [BT.name, ne_eq, eq_comm] at h1 h2 h3 h4 h5 h6 h7 h8 h9 h10 h11 h12
      rw [if_neg h1, if_neg h2, if_neg h3, if_neg h4, if_neg h5, if_neg h6, if_neg h7, if_neg h8,
        if_neg h9, if_neg h10, if_neg h11, if_neg h12]
      rfl

theorem ok_bind (a : α) (f : α → Except PyErr β) : (Except.ok a >>= f) = f a := rfl

theorem ok_of_toOption {α : Type} {x : Except PyErr α} {a : α} (h : x.toOption = some a) : x = .ok a := by
  cases x with
  | error e => cases h
  | ok b => injection h with h; rw [h]

theorem toOption_bind (x : Except PyErr α) (f : α → Except PyErr β) :
    (x >>= f).toOption = x.toOption.bind fun a => (f a).toOption := by
  cases x <;> rfl

theorem keyValue_eq (ign : Bool) (d : Bytes) :
    keyValue ign d = (parseInfo ign d).toOption.map fun m => (m.type, m.key, m.value) := by
  unfold keyValue parseInfo
  by_cases h0 : d.length = 0
  · rw [if_pos h0]
    have : unpackU 1 (slice 0 1 d) = .error .structError := by
      simp [unpackU, slice, h0]
    rw [this]; rfl
  · rw [if_neg h0]
    have hu : unpackU 1 (slice 0 1 d) = .ok (byteAt d 0) := by
      rw [unpackU_ok (by simp; omega), byteAt_zero _ (by omega)]
    have hs : slice 1 (1 + byteAt d 0) d = (d.drop 1).take (byteAt d 0) := by
      simp [slice, List.drop_take]
    rw [hu, ok_bind, hs]
    unfold text
    cases parseString ign ((d.drop 1).take (byteAt d 0)) with
    | error e => rfl
    | ok t =>
      rw [ok_bind]
      rcases hsp : pySplit ' ' t with _ | ⟨ty, _ | ⟨key, rest⟩⟩
      · simp only [Except.toOption, hsp]; rfl
      · simp only [Except.toOption, hsp]; rfl
      · simp only [Except.toOption, hsp, infoValue_eq]
        have i0 : pyIndex (ty :: key :: rest) 0 = .ok ty := rfl
        have i1 : pyIndex (ty :: key :: rest) 1 = .ok key := rfl
        rw [i0, ok_bind, i1, ok_bind]
        cases parseInfoValue ign ty (d.drop (1 + byteAt d 0)) <;> rfl

theorem width_eq (t : BT) : width t = t.size := by cases t <;> rfl

theorem rowSize_eq (fs : List FieldData) : rowSize fs = fieldsSize fs := by
  simp [rowSize, fieldsSize, width_eq]

theorem tsPos_eq (fs : List FieldData) : tsPos fs = tsOffset fs := by
  unfold tsPos
  induction fs with
  | nil => rfl
  | cons f fs ih =>
    simp only [tsOffset, List.takeWhile_cons]
    by_cases h : f.name = py! "timestamp"
    · simp [h, rowSize]
    · simp only [h, ne_eq, not_false_eq_true, decide_true, if_true, if_false]
      rw [← ih, ← width_eq]
      simp [rowSize]

theorem tsOffset_le (fs : List FieldData) : tsOffset fs ≤ fieldsSize fs := by
  induction fs with
  | nil => simp [tsOffset]
  | cons f fs ih =>
    simp only [tsOffset, fieldsSize, List.map_cons, List.sum_cons] at *
    split <;> omega

/-- consistency of the subscriptions of an object: what `_MessageAddLogged.__init__` establishes and
data messages keep -/
structure SubOk (id : Nat) (s : Sub) : Prop where
  msgId : s.msgId = id
  tsOff : s.tsOff = tsOffset s.fields
  maxSize : s.maxSize = fieldsSize s.fields
  itemSize : s.itemSize = fieldsSize s.fields
  names : ((dtypeFields s.fields).map (·.name)).Nodup
  buffer : ∃ k, s.buffer.length = k * s.itemSize

def SubsOk (u : ULog) : Prop :=
  (u.subs.keys).Nodup ∧ ∀ id s, u.subs.get? id = some s → SubOk id s

theorem parseAddLogged_subOk {ign : Bool} {fm : Dict Str MsgFormat} {depth : Nat} {d : Bytes}
    {s : Sub} (h : parseAddLogged ign fm depth d = .ok s) : SubOk s.msgId s ∧ s.buffer = [] := by
  unfold parseAddLogged at h
  obtain ⟨_, _, h⟩ := except_bind_ok.mp h
  obtain ⟨_, _, h⟩ := except_bind_ok.mp h
  obtain ⟨_, _, h⟩ := except_bind_ok.mp h
  obtain ⟨⟨fs, idx⟩, _, h⟩ := except_bind_ok.mp h
  simp only at h
  split at h
  · cases h
  · rename_i hn
    cases h
    exact ⟨⟨rfl, rfl, rfl, rfl, Classical.not_not.mp hn, ⟨0, by simp⟩⟩, rfl⟩

/-- effect of a data message on a consistent object -/
theorem addData_cases (u : ULog) (d : Bytes) (hu : SubsOk u) :
    (d.length < 2 ∧ addData u d = .err .structError u) ∨
    (2 ≤ d.length ∧ u.subs.get? (leAt d 0 2) = none ∧
      ((leAt d 0 2 ∈ u.filteredIds ∧ addData u d = .ok u) ∨
       (leAt d 0 2 ∉ u.filteredIds ∧ addData u d =
          .ok { u with missingIds := setAdd u.missingIds (leAt d 0 2), fileCorrupt := true }))) ∨
    (2 ≤ d.length ∧ ∃ s, u.subs.get? (leAt d 0 2) = some s ∧
      ((d.length ≠ 2 + rowSize s.fields ∧ addData u d = .ok { u with fileCorrupt := true }) ∨
       (d.length = 2 + rowSize s.fields ∧ 
         ((tsPos s.fields + 8 ≤ rowSize s.fields ∧ addData u d =
             .ok { u with
                   subs := u.subs.set (leAt d 0 2) { s with buffer := s.buffer ++ d.drop 2 }
                   lastTs := max u.lastTs (leAt d (2 + tsPos s.fields) 8) }) ∨
          (rowSize s.fields < tsPos s.fields + 8 ∧ addData u d =
             .err .structError { u with
               subs := u.subs.set (leAt d 0 2) { s with buffer := s.buffer ++ d.drop 2 } }))))) := by
  by_cases h2 : d.length < 2
  · left
    refine ⟨h2, ?_⟩
    unfold addData
    have : unpackU 2 (d.take 2) = .error .structError := by
      unfold unpackU; rw [if_neg]; simp; omega
    rw [this]
  · right
    have hid : unpackU 2 (d.take 2) = .ok (leAt d 0 2) := by
      rw [unpackU_ok (by simp; omega), leAt_eq _ _ _ (by omega), List.drop_zero]
    unfold addData
    rw [hid]
    simp only
    cases hs : u.subs.get? (leAt d 0 2) with
    | none =>
      left
      refine ⟨by omega, rfl, ?_⟩
      by_cases hf : leAt d 0 2 ∈ u.filteredIds
      · left; simp [hf]
      · right; simp [hf]
    | some s =>
      right
      have hok := hu.2 _ _ hs
      refine ⟨by omega, s, rfl, ?_⟩
      simp only [hok.itemSize, hok.maxSize, rowSize_eq, tsPos_eq]
      by_cases hl : d.length = 2 + fieldsSize s.fields
      · right
        refine ⟨hl, ?_⟩
        have hd2 : d.length - 2 = fieldsSize s.fields := by omega
        rw [hd2, if_neg (by omega), if_neg (by omega)]
        rw [hok.tsOff]
        by_cases ht : tsOffset s.fields + 8 ≤ fieldsSize s.fields
        · left
          refine ⟨ht, ?_⟩
          rw [unpackU_ok (by simp; omega), show tsOffset s.fields + 10 = tsOffset s.fields + 2 + 8 by omega,
            ← leAt_slice _ _ _ (by omega), Nat.add_comm (tsOffset s.fields) 2]
          simp only
          by_cases hgt : leAt d (2 + tsOffset s.fields) 8 > u.lastTs
          · rw [if_pos hgt, Nat.max_eq_right (by omega)]
          · rw [if_neg hgt, Nat.max_eq_left (by omega)]
        · right
          refine ⟨by omega, ?_⟩
          have := tsOffset_le s.fields
          have : unpackU 8 (slice (tsOffset s.fields + 2) (tsOffset s.fields + 10) d)
              = .error .structError := by
            unfold unpackU; rw [if_neg]; simp; omega
          rw [this]
      · left
        refine ⟨hl, ?_⟩
        rw [if_pos (by omega)]

/-- an attribute `F` that is not touched by messages of type `ty` is unchanged by such a message -/
theorem handleData_frame {β : Type} (F : ULog → β) {cfg : Cfg} {u : ULog} {ty : Nat} {d : Bytes}
    {o : Out} (h : handleData cfg u ty d = some o)
    (hI : ty = tyI → ∀ a b, F { u with info := a, infoTypes := b } = F u := by intros; rfl)
    (hM : ty = tyM → ∀ a b, F { u with infoMulti := a, infoMultiTypes := b } = F u
      := by intros; rfl)
    (hP : ty = tyP → ∀ a, F { u with changedParams := a } = F u := by intros; rfl)
    (hQ : ty = tyQ → ∀ a, F { u with defaultParams := a } = F u := by intros; rfl)
    (hA : ty = tyA → ∀ a b, F { u with subs := a, filteredIds := b } = F u := by intros; rfl)
    (hL : ty = tyL → ∀ a, F { u with logged := a } = F u := by intros; rfl)
    (hC : ty = tyC → ∀ a, F { u with tagged := a } = F u := by intros; rfl)
    (hD : ty = tyD → ∀ a b c e,
      F { u with subs := a, lastTs := b, missingIds := c, fileCorrupt := e } = F u
      := by intros; rfl)
    (hO : ty = tyO → ∀ a, F { u with dropouts := a } = F u := by intros; rfl)
    (hS : ty = tyS → ∀ a, F { u with syncCnt := a } = F u := by intros; rfl) :
    F o.state = F u := by
  have hb : ∀ {α} {r : Except PyErr α} {f : α → ULog},
      (∀ a, F (f a) = F u) → F (Out.bind r u f).state = F u := by
    intro α r f hf
    cases r
    · rfl
    · exact hf _
  by_cases hk : knownData ty = true
  · rcases known_cases hk with hk | hk | hk | hk | hk | hk | hk | hk | hk | hk <;> subst hk
    · rw [handleData_I] at h; cases h; exact hb fun a => hI rfl _ _
    · rw [handleData_M] at h; cases h
      apply hb; intro a; unfold addInfoMulti
      split
      · split
        · exact hM rfl _ u.infoMultiTypes
        · exact hM rfl _ u.infoMultiTypes
      · exact hM rfl _ _
    · rw [handleData_P] at h; cases h; exact hb fun a => hP rfl _
    · rw [handleData_Q] at h; cases h; exact hb fun a => hQ rfl _
    · rw [handleData_A] at h; cases h
      apply hb; intro a; unfold addSub
      split
      · exact hA rfl _ u.filteredIds
      · exact hA rfl u.subs _
    · rw [handleData_L] at h; cases h; exact hb fun a => hL rfl _
    · rw [handleData_C] at h; cases h; exact hb fun a => hC rfl _
    · rw [handleData_D] at h; cases h
      unfold addData
      split
      · rfl
      · split
        · simp only
          split
          · exact hD rfl u.subs u.lastTs u.missingIds true
          · split
            · exact hD rfl _ u.lastTs u.missingIds u.fileCorrupt
            · simp only [Out.state]
              split
              · exact hD rfl _ _ u.missingIds u.fileCorrupt
              · exact hD rfl _ u.lastTs u.missingIds u.fileCorrupt
        · split
          · rfl
          · exact hD rfl u.subs u.lastTs _ true
    · rw [handleData_O] at h; cases h; exact hb fun a => hO rfl _
    · rw [handleData_S] at h; cases h; exact hS rfl _
  · rw [handleData_none _ _ _ _ (by simpa using hk)] at h; cases h

theorem handleData_subs {cfg : Cfg} {u : ULog} {ty : Nat} {d : Bytes} {o : Out}
    (h : handleData cfg u ty d = some o) (h1 : ty ≠ tyA) (h2 : ty ≠ tyD) :
    o.state.subs = u.subs :=
  handleData_frame (fun u => u.subs) h (hA := fun e => absurd e h1) (hD := fun e => absurd e h2)

theorem handleData_subsOk {cfg : Cfg} {u : ULog} {ty : Nat} {d : Bytes} {o : Out}
    (hu : SubsOk u) (h : handleData cfg u ty d = some o) : SubsOk o.state := by
  have hset : ∀ (u' : ULog) (id : Nat) (s : Sub), u'.subs = u.subs.set id s → SubOk id s →
      SubsOk u' := by
    intro u' id s hs hok
    refine ⟨by rw [hs]; exact Dict.keys_nodup_set _ _ _ hu.1, ?_⟩
    intro i s' hi
    rw [hs, Dict.get?_set] at hi
    split at hi
    · cases hi; subst_vars; exact hok
    · exact hu.2 _ _ hi
  have hsame : ∀ u' : ULog, u'.subs = u.subs → SubsOk u' := by
    intro u' hs; unfold SubsOk; rw [hs]; exact hu
  by_cases hA : ty = tyA
  · subst hA
    rw [show tyA = MSG_TYPE_ADD_LOGGED_MSG from rfl, handleData_A] at h
    cases h
    cases hp : parseAddLogged cfg.ign u.formats cfg.depth d with
    | error e => exact hsame _ rfl
    | ok s =>
      simp only [Out.bind, Out.state, addSub]
      split
      · exact hset _ s.msgId s rfl (parseAddLogged_subOk hp).1
      · exact hsame _ rfl
  · by_cases hD : ty = tyD
    · subst hD
      rw [show tyD = MSG_TYPE_DATA from rfl, handleData_D] at h
      cases h
      have happ : ∀ s, u.subs.get? (leAt d 0 2) = some s → d.length = 2 + rowSize s.fields →
          SubOk (leAt d 0 2) { s with buffer := s.buffer ++ d.drop 2 } := by
        intro s hs hl
        have hok := hu.2 _ _ hs
        obtain ⟨k, hk⟩ := hok.buffer
        refine ⟨hok.msgId, hok.tsOff, hok.maxSize, hok.itemSize, hok.names, ⟨k + 1, ?_⟩⟩
        simp only [List.length_append, List.length_drop, hl, hk, hok.itemSize, rowSize_eq]
        rw [Nat.add_mul]; omega
      rcases addData_cases u d hu with ⟨_, h⟩ | ⟨_, _, ⟨_, h⟩ | ⟨_, h⟩⟩ |
        ⟨_, s, hs, ⟨_, h⟩ | ⟨hl, ⟨_, h⟩ | ⟨_, h⟩⟩⟩ <;> rw [h]
      · exact hsame _ rfl
      · exact hsame _ rfl
      · exact hsame _ rfl
      · exact hsame _ rfl
      · exact hset _ _ _ rfl (happ s hs hl)
      · exact hset _ _ _ rfl (happ s hs hl)
    · exact hsame _ (handleData_subs h hA hD)

/-- an attribute `F` that is not touched by definition messages of type `ty` is unchanged -/
theorem handleDef_frame {β : Type} (F : ULog → β) {cfg : Cfg} {u : ULog} {ty : Nat} {d : Bytes}
    {o : Out} (h : handleDef cfg u ty d = some o)
    (hI : ty = tyI → ∀ a b, F { u with info := a, infoTypes := b } = F u := by intros; rfl)
    (hM : ty = tyM → ∀ a b, F { u with infoMulti := a, infoMultiTypes := b } = F u
      := by intros; rfl)
    (hF : ty = tyF → ∀ a, F { u with formats := a } = F u := by intros; rfl)
    (hP : ty = tyP → ∀ a, F { u with initialParams := a } = F u := by intros; rfl)
    (hQ : ty = tyQ → ∀ a, F { u with defaultParams := a } = F u := by intros; rfl)
    (hB : ty = tyB → ∀ a b c, F { u with compat := a, incompat := b, appendedOffsets := c } = F u
      := by intros; rfl) :
    F o.state = F u := by
  have hb : ∀ {α} {r : Except PyErr α} {f : α → ULog},
      (∀ a, F (f a) = F u) → F (Out.bind r u f).state = F u := by
    intro α r f hf
    cases r
    · rfl
    · exact hf _
  by_cases hk : knownDef ty = true
  · rcases knownDef_cases hk with hk | hk | hk | hk | hk | hk <;> subst hk
    · rw [handleDef_I] at h; cases h; exact hb fun a => hI rfl _ _
    · rw [handleDef_M] at h; cases h
      apply hb; intro a; unfold addInfoMulti
      split
      · split
        · exact hM rfl _ u.infoMultiTypes
        · exact hM rfl _ u.infoMultiTypes
      · exact hM rfl _ _
    · rw [handleDef_F] at h; cases h; exact hb fun a => hF rfl _
    · rw [handleDef_P] at h; cases h; exact hb fun a => hP rfl _
    · rw [handleDef_Q] at h; cases h; exact hb fun a => hQ rfl _
    · rw [handleDef_B] at h; cases h
      split
      · unfold applyFlagBits
        simp only
        split
        · exact hB rfl _ _ _
        · split <;> exact hB rfl _ _ _
      · rfl
  · rw [handleDef_none _ _ _ _ (by simpa using hk)] at h; cases h

/-- induction over both sections of a load -/
theorem load_inv_all {fuel : Nat} {cfg : Cfg} {bs : Bytes}
    {P : List Tr → ULog → Prop} (hins : Insens P) (hfin : InsensF P)
    (hdef : ∀ t u ty d o, P t u → handleDef cfg u ty d = some o → P (t ++ [(u, ty, d)]) o.state)
    (hmsg : ∀ t u ty d o, P t u → handleData cfg u ty d = some o → P (t ++ [(u, ty, d)]) o.state)
    (hbase : ∀ u, readHeader bs = .ok u → P [] u)
    {u : ULog} (h : load fuel cfg bs = .ok u) :
    P (defTrace fuel cfg bs ++ (fileTrace fuel cfg bs).flatten) u := by
  refine load_inv (P := fun t v => P (defTrace fuel cfg bs ++ t) v)
    (fun t v c hh hp => hins _ v c hh hp) (fun t v d hp => hfin _ v d hp) ?_ ?_ h
  · intro t v ty d o hp hd
    rw [← List.append_assoc]
    exact hmsg _ v ty d o hp hd
  · intro s hs
    rw [List.append_nil]
    exact afterDefs_inv hins hdef hbase hs

end PyULog
