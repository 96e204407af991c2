import Verif.Lemmas.RoundAll
/-
A log whose content fits into the fields of a file can be written.
-/
namespace PyULog
open Spec

theorem concatM_total {α : Type} {f : α → Except PyErr Bytes} {l : List α}
    (h : ∀ a ∈ l, ∃ b, f a = .ok b) : ∃ b, concatM (l.map f) = .ok b := by
  induction l with
  | nil => exact ⟨[], rfl⟩
  | cons a l ih =>
    obtain ⟨x, hx⟩ := h a (List.mem_cons_self ..)
    obtain ⟨y, hy⟩ := ih fun b hb => h b (List.mem_cons_of_mem _ hb)
    exact ⟨x ++ y, by rw [List.map_cons, concatM_cons_ok]; exact ⟨x, y, hx, hy, rfl⟩⟩

theorem mapM_total {α β : Type} {f : α → Except PyErr β} {l : List α}
    (h : ∀ a ∈ l, ∃ b, f a = .ok b) : ∃ r, l.mapM f = .ok r := by
  induction l with
  | nil => exact ⟨[], rfl⟩
  | cons a l ih =>
    obtain ⟨x, hx⟩ := h a (List.mem_cons_self ..)
    obtain ⟨y, hy⟩ := ih fun b hb => h b (List.mem_cons_of_mem _ hb)
    exact ⟨x :: y, by rw [List.mapM_cons, hx, ok_bind, hy, ok_bind]; rfl⟩

theorem frame_total {ty : Nat} {d : Bytes} (h1 : ty < 256) (h2 : d.length < 65536) :
    ∃ b, frame ty d = .ok b := ⟨_, (frame_ok_iff _ _ _).mpr ⟨h1, h2, rfl⟩⟩

theorem writeHeader_total {u : ULog} (h1 : u.fileVersion < 256) (h2 : u.startTs < 2 ^ 64) :
    ∃ b, writeHeader u = .ok b := by
  unfold writeHeader
  refine ⟨HEADER_BYTES ++ leEnc 1 u.fileVersion ++ leEnc 8 u.startTs, ?_⟩
  rw [packU_ok (by simpa using h1), ok_bind, packU_ok (show _ < 256 ^ 8 from h2), ok_bind, if_neg]
  · rfl
  · simp [HEADER_BYTES]

theorem packFlags_total {l : List Nat} (h : l.length = 8) (h2 : ∀ x ∈ l, x < 256) :
    ∃ b, packFlags l = .ok b ∧ b.length = 8 := by
  unfold packFlags
  rw [if_neg (by omega)]
  obtain ⟨b, hb⟩ := concatM_total (f := packU 1) (l := l) fun a ha =>
    ⟨_, packU_ok (by simpa using h2 a ha)⟩
  refine ⟨b, hb, ?_⟩
  have : packFlags l = .ok b := by unfold packFlags; rw [if_neg (by omega), hb]
  exact (packFlags_ok this).2.1

theorem writeFlags_total {u : ULog} (hc : u.compat.length = 8 ∧ ∀ x ∈ u.compat, x < 256)
    (hi : u.incompat.length = 8) (hz : u.incompat.getD 0 0 < 2 ∧ ∀ x ∈ u.incompat.drop 1, x = 0) :
    ∃ b, writeFlags u = .ok b := by
  unfold writeFlags
  obtain ⟨c, c1, c2⟩ := packFlags_total hc.1 hc.2
  rw [c1, ok_bind]
  cases hu : u.incompat with
  | nil => rw [hu] at hi; simp at hi
  | cons x xs =>
    rw [hu] at hi hz
    obtain ⟨i, i1, i2⟩ := packFlags_total (l := (x &&& 0xFE) :: xs) (by simpa using hi) (by
      intro y hy
      rcases List.mem_cons.mp hy with rfl | hy
      · have h1 : x < 2 := by simpa using hz.1
        have := Nat.and_le_left (n := x) (m := 0xFE)
        omega
      · have := hz.2 y (by simpa using hy)
        omega)
    simp only [clearAppended]
    rw [ok_bind, i1, ok_bind]
    exact frame_total (by decide) (by simp [c2, i2])

theorem textSize_append (a b : Str) : utf8Size (a ++ b) = utf8Size a + utf8Size b := by
  unfold utf8Size
  rw [encStr_append, List.length_append]

theorem fieldText_size (f : FieldDef) : (encStr (fieldText f)).length = fieldSize f := by
  have t1 : ∀ s t : Str, (encStr (s ++ t)).length = utf8Size s + utf8Size t := fun s t => by
    rw [encStr_append, List.length_append]; rfl
  unfold fieldText fieldSize
  by_cases h : f.arr > 0
  · rw [if_pos h, if_pos h]
    simp only [t1, textSize_append]
    have a1 : utf8Size (py! "[") = 1 := rfl
    have a2 : utf8Size (py! "] ") = 2 := rfl
    have a3 : utf8Size (py! ";") = 1 := rfl
    omega
  · rw [if_neg h, if_neg h]
    simp only [t1, textSize_append]
    have a1 : utf8Size (py! " ") = 1 := rfl
    have a3 : utf8Size (py! ";") = 1 := rfl
    omega

theorem writeFormats_total {u : ULog}
    (h : ∀ p ∈ u.formats, utf8Size p.2.name + 1 + (p.2.fields.map fieldSize).sum < 65536) :
    ∃ b, writeFormats u = .ok b := by
  unfold writeFormats
  apply concatM_total
  intro p hp
  have := h p hp
  apply frame_total (by decide)
  rw [List.length_append, encStr_append, List.length_append, List.length_flatMap]
  have e : (p.2.fields.map fun x => (encStr (fieldText x)).length) = p.2.fields.map fieldSize :=
    List.map_congr_left fun f _ => fieldText_size f
  rw [e]
  have a1 : (encStr (py! ":")).length = 1 := rfl
  have a2 : (encStr p.2.name).length = utf8Size p.2.name := rfl
  omega

theorem infoValueBytes_total {ty : Str} {v : Value} (h : ValueFits ty v) :
    ∃ b, infoValueBytes ty v = .ok b ∧ b.length ≤ valueSize v + 8 := by
  have h := infoOk_of h
  unfold InfoOk at h
  unfold infoValueBytes
  split at h
  · rename_i h1
    obtain ⟨s, rfl⟩ := h
    exact ⟨encStr s, by rw [if_pos h1], by simp [valueSize, utf8Size]⟩
  · rename_i h1
    split at h
    · rename_i h2
      obtain ⟨s, rfl⟩ := h
      exact ⟨s, by rw [if_neg h1, if_pos h2], by simp [valueSize]⟩
    · rename_i h2
      obtain ⟨t, b, e1, e2⟩ := h
      obtain ⟨b', g1, g2, _⟩ := scalar_roundtrip e2
      refine ⟨b', by rw [if_neg h1, if_neg h2, e1]; exact g1, ?_⟩
      have : t.size ≤ 8 := by cases t <;> decide
      omega

theorem infoData_total {ty k : Str} {v : Value} (c : Option Bool) (hv : ValueFits ty v)
    (hk : KeyFits ty k v) :
    ∃ b, infoData (ty ++ py! " " ++ k) v ty c = .ok b ∧ b.length < 65536 := by
  obtain ⟨vb, v1, v2⟩ := infoValueBytes_total hv
  have hl : (encStr (ty ++ py! " " ++ k)).length = utf8Size ty + 1 + utf8Size k := by
    show utf8Size _ = _
    rw [textSize_append, textSize_append]
    rfl
  have h1 := hk.1
  have h2 := hk.2
  unfold infoData
  simp only
  rw [packU_ok (by rw [hl]; simpa using h1), ok_bind, v1, ok_bind]
  refine ⟨_, rfl, ?_⟩
  rw [List.length_append, List.length_append, List.length_append, hl, leEnc_length]
  cases c with
  | none => simp only [List.length_nil]; omega
  | some b => simp only [leEnc_length]; omega

theorem writeInfos_total {u : ULog} (hi : u.infoTypes.map (·.1) = u.info.map (·.1))
    (h : ∀ p ∈ u.info, ∀ ty, (p.1, ty) ∈ u.infoTypes → ValueFits ty p.2 ∧ KeyFits ty p.1 p.2) :
    ∃ b, writeInfos u = .ok b := by
  unfold writeInfos
  apply concatM_total
  intro p hp
  dsimp only
  cases hg : u.infoTypes.get? p.1 with
  | none =>
    have : p.1 ∈ u.infoTypes.keys := by
      show p.1 ∈ u.infoTypes.map (·.1)
      rw [hi]
      exact List.mem_map_of_mem hp
    exact absurd ((Dict.get?_eq_none_iff _ _).mp hg) (not_not_intro this)
  | some ty =>
    obtain ⟨h1, h2⟩ := h p hp ty (Dict.mem_of_get? _ _ _ hg)
    obtain ⟨b, b1, b2⟩ := infoData_total none h1 h2
    dsimp only
    rw [b1, ok_bind]
    exact frame_total (by decide) b2

theorem writeValueSet_total {ty k : Str} {s : List Value} (c : Bool)
    (h : ∀ v ∈ s, ValueFits ty v ∧ KeyFits ty k v) :
    ∃ b, writeValueSet (ty ++ py! " " ++ k) ty c s = .ok b := by
  induction s generalizing c with
  | nil => exact ⟨[], rfl⟩
  | cons v s ih =>
    obtain ⟨h1, h2⟩ := h v (List.mem_cons_self ..)
    obtain ⟨b, b1, b2⟩ := infoData_total (some c) h1 h2
    obtain ⟨m, hm⟩ := frame_total (ty := MSG_TYPE_INFO_MULTIPLE) (by decide) b2
    obtain ⟨r, hr⟩ := ih true fun v hv => h v (List.mem_cons_of_mem _ hv)
    unfold writeValueSet
    rw [b1, ok_bind, hm, ok_bind, hr, ok_bind]
    exact ⟨_, rfl⟩

theorem writeInfoMulti_total {u : ULog} (hi : u.infoMultiTypes.map (·.1) = u.infoMulti.map (·.1))
    (h : ∀ p ∈ u.infoMulti, ∀ ty, (p.1, ty) ∈ u.infoMultiTypes → ∀ s ∈ p.2, ∀ v ∈ s,
      ValueFits ty v ∧ KeyFits ty p.1 v) :
    ∃ b, writeInfoMulti u = .ok b := by
  unfold writeInfoMulti
  apply concatM_total
  intro p hp
  dsimp only
  cases hg : u.infoMultiTypes.get? p.1 with
  | none =>
    have : p.1 ∈ u.infoMultiTypes.keys := by
      show p.1 ∈ u.infoMultiTypes.map (·.1)
      rw [hi]
      exact List.mem_map_of_mem hp
    exact absurd ((Dict.get?_eq_none_iff _ _).mp hg) (not_not_intro this)
  | some ty =>
    apply concatM_total
    intro s hs
    exact writeValueSet_total false (h p hp ty (Dict.mem_of_get? _ _ _ hg) s hs)

theorem paramData_total {k : Str} {v : Value} (hv : ParamOk v) (hk : utf8Size k < 248) :
    ∃ b, paramData k v = .ok b ∧ b.length < 65535 := by
  rw [paramData_eq hv]
  obtain ⟨vb, v1, v2, _⟩ := paramValue_roundtrip true hv
  have hty : utf8Size (paramType v) ≤ 7 := by
    rcases hv with ⟨n, rfl, _⟩ | ⟨b, rfl⟩ | ⟨x, _, rfl⟩
    · exact (by decide : utf8Size (py! "int32_t") ≤ 7)
    · exact (by decide : utf8Size (py! "int32_t") ≤ 7)
    · exact (by decide : utf8Size (py! "float") ≤ 7)
  have hl : (encStr (typeKey (paramType v) k)).length = utf8Size (paramType v) + 1 + utf8Size k := by
    show utf8Size (paramType v ++ py! " " ++ k) = _
    rw [textSize_append, textSize_append]
    rfl
  unfold infoData
  simp only
  rw [packU_ok (by rw [hl]; simp; omega), ok_bind, v1, ok_bind]
  refine ⟨_, rfl, ?_⟩
  rw [List.length_append, List.length_append, List.length_append, hl, leEnc_length, v2]
  simp only [List.length_nil]
  omega

theorem writeInitialParams_total {u : ULog}
    (h : ∀ p ∈ u.initialParams, ParamOk p.2 ∧ utf8Size p.1 < 248) :
    ∃ b, writeInitialParams u = .ok b := by
  unfold writeInitialParams
  apply concatM_total
  intro p hp
  obtain ⟨b, b1, b2⟩ := paramData_total (h p hp).1 (h p hp).2
  dsimp only
  rw [b1, ok_bind]
  exact frame_total (by decide) (by omega)

theorem writeDefaultParams_total {u : ULog}
    (h : ∀ p ∈ u.defaultParams, (p.1 = 0 ∨ p.1 = 1) ∧ ∀ q ∈ p.2, ParamOk q.2 ∧ utf8Size q.1 < 248) :
    ∃ b, writeDefaultParams u = .ok b := by
  unfold writeDefaultParams
  apply concatM_total
  intro p hp
  apply concatM_total
  intro q hq
  obtain ⟨h1, h2⟩ := h p hp
  obtain ⟨b, b1, b2⟩ := paramData_total (h2 q hq).1 (h2 q hq).2
  dsimp only
  rw [packU_ok (by rcases h1 with e | e <;> rw [e] <;> decide), ok_bind, b1, ok_bind]
  refine frame_total (by decide) ?_
  rw [List.length_append, leEnc_length]
  omega

theorem writeSubs_total {u : ULog}
    (h : ∀ d ∈ u.dataList, d.msgId < 2 ^ 16 ∧ d.multiId < 2 ^ 8 ∧ utf8Size d.name + 3 < 65536) :
    ∃ b, writeSubs u = .ok b := by
  unfold writeSubs
  apply concatM_total
  intro d hd
  obtain ⟨h1, h2, h3⟩ := h d ((mem_ssort _ _ _).mp hd)
  rw [packU_ok (show _ < 256 ^ 1 from h2), ok_bind, packU_ok (show _ < 256 ^ 2 from h1), ok_bind]
  refine frame_total (by decide) ?_
  simp only [List.length_append, leEnc_length]
  unfold utf8Size at h3
  omega

theorem packNp_total {t : BT} {v : NpVal} (hv : Typed t v)
    (hc : t = .char → ∀ n, v = .int n → 0 ≤ n) : ∃ b, packNp t v = .ok b := by
  obtain ⟨b0, hb0, rfl⟩ := typed_iff.mp hv
  have hint : intFits t (if t.signed then toSigned t.size (leNat b0) else (leNat b0 : Int)) →
      ∃ b, packInt t (if t.signed then toSigned t.size (leNat b0) else (leNat b0 : Int)) = .ok b :=
    fun h => by
      obtain ⟨b, h1, _⟩ := packInt_ok h
      exact ⟨b, h1⟩
  have hf := intFits_leNat (t := t) hb0
  cases t with
  | i8 | u8 | i16 | u16 | i32 | u32 | i64 | u64 => exact hint hf
  | f32 =>
    have hb : leNat b0 < 2 ^ 32 := by
      have := leNat_lt b0
      rw [hb0] at this
      exact this
    obtain ⟨c, h1, _⟩ := narrow_widen _ hb
    exact ⟨leEnc 4 c, by show (narrow (widen (leNat b0))).map (leEnc 4) = _; rw [h1]; rfl⟩
  | f64 => exact ⟨_, rfl⟩
  | bool => exact ⟨_, rfl⟩
  | char =>
    have h0 := hc rfl _ rfl
    have h1 := (toSigned_bounds 1 (by decide) (leNat b0) (by
      have := leNat_lt b0
      rw [hb0] at this
      exact this)).2
    refine ⟨[UInt8.ofNat (toSigned 1 (leNat b0)).toNat], ?_⟩
    show (if toSigned 1 (leNat b0) < 0 then Except.error PyErr.valueError
      else if toSigned 1 (leNat b0) < 128 then
        Except.ok [UInt8.ofNat (toSigned 1 (leNat b0)).toNat]
      else Except.error PyErr.structError) = _
    have h0 : 0 ≤ toSigned 1 (leNat b0) := h0
    have h1 : toSigned 1 (leNat b0) < 128 := h1
    rw [if_neg (by omega), if_pos h1]

theorem Spec.DatasetOk.col {F : Dict Str MsgFormat} {depth : Nat} {d : Dataset} (hd : DatasetOk F depth d)
    {f : FieldData} (hf : f ∈ d.fields) :
    ∃ col, d.data.get? f.name = some col ∧ col.length = rowCount d := by
  cases hg : d.data.get? f.name with
  | none =>
    have : f.name ∈ d.data.keys := by
      show f.name ∈ d.data.map (·.1)
      rw [hd.columns]
      exact List.mem_map_of_mem (f := (·.name)) hf
    exact absurd ((Dict.get?_eq_none_iff _ _).mp hg) (not_not_intro this)
  | some col => exact ⟨col, rfl, hd.shape _ (Dict.mem_of_get? _ _ _ hg)⟩

theorem sampleBytes_total {F : Dict Str MsgFormat} {depth : Nat} {d : Dataset}
    (hd : DatasetOk F depth d) {i : Nat} (hi : i < rowCount d)
    (hc : ∀ f ∈ d.fields, f.type = .char → ∀ i n, cell d f.name i = some (.int n) → 0 ≤ n) :
    ∃ b, sampleBytes d i = .ok b := by
  unfold sampleBytes
  apply concatM_total
  intro f hf
  obtain ⟨col, c1, c2⟩ := hd.col hf
  have hi' : i < col.length := by omega
  have hx : pyIndex col i = .ok col[i] := by
    unfold pyIndex
    rw [List.getElem?_eq_getElem hi']
  rw [c1]
  simp only
  rw [hx, ok_bind]
  apply packNp_total (hd.typed f hf col c1 _ (List.getElem_mem hi'))
  intro ht n hn
  refine hc f hf ht i n ?_
  unfold cell
  rw [c1]
  simp only [Option.bind_some]
  rw [List.getElem?_eq_getElem hi', hn]

theorem sampleItem_total {F : Dict Str MsgFormat} {depth : Nat} {d : Dataset}
    (hd : DatasetOk F depth d) (hid : d.msgId < 2 ^ 16) (hs : rowSize d.fields + 2 < 65536)
    {i : Nat} (hi : i < rowCount d)
    (hc : ∀ f ∈ d.fields, f.type = .char → ∀ i n, cell d f.name i = some (.int n) → 0 ≤ n) :
    ∃ b, sampleItem d i = .ok b := by
  unfold sampleItem
  obtain ⟨col, c1, c2⟩ := hd.col hd.timestamp
  have hi' : i < col.length := by omega
  have hx : pyIndex col i = .ok col[i] := by
    unfold pyIndex
    rw [List.getElem?_eq_getElem hi']
  simp only at c1
  rw [c1]
  simp only
  obtain ⟨b, hb⟩ := sampleBytes_total hd hi hc
  have hlen : b.length = rowSize d.fields := by
    have := packFields_ok (d := d) (i := i) (fs := d.fields) (row := b)
      (fun f hf => hd.typed f hf) hb
    exact this.1
  obtain ⟨m, hm⟩ := frame_total (ty := MSG_TYPE_DATA) (d := leEnc 2 d.msgId ++ b) (by decide) (by
    rw [List.length_append, leEnc_length]; omega)
  rw [hx, ok_bind, packU_ok (show _ < 256 ^ 2 from hid), ok_bind, hb, ok_bind, hm, ok_bind]
  obtain ⟨b0, _, e⟩ := hd.typed _ hd.timestamp col c1 _ (List.getElem_mem hi')
  rw [e]
  exact ⟨_, rfl⟩

theorem datasetItems_total {F : Dict Str MsgFormat} {depth : Nat} {d : Dataset}
    (hd : DatasetOk F depth d) (hid : d.msgId < 2 ^ 16) (hs : rowSize d.fields + 2 < 65536)
    (hc : ∀ f ∈ d.fields, f.type = .char → ∀ i n, cell d f.name i = some (.int n) → 0 ≤ n) :
    ∃ b, datasetItems d = .ok b := by
  unfold datasetItems
  cases hf : d.fields with
  | nil => have := hd.timestamp; rw [hf] at this; cases this
  | cons f fs =>
    obtain ⟨col, c1, c2⟩ := hd.col (f := f) (by rw [hf]; exact List.mem_cons_self ..)
    have : pyIndex (f :: fs) 0 = .ok f := rfl
    rw [this, ok_bind, c1]
    apply mapM_total
    intro i hi
    exact sampleItem_total hd hid hs (by rw [← c2]; exact List.mem_range.mp hi) hc

theorem writeUlog_total {depth : Nat} {u : ULog} (hu : Writable depth u) (he : Encodable u) :
    ∃ b, writeUlog u = .ok b := by
  obtain ⟨b1, h1⟩ := writeHeader_total he.version he.start
  obtain ⟨b2, h2⟩ := writeFlags_total he.compat he.incompat hu.flags
  obtain ⟨b3, h3⟩ := writeFormats_total he.formats
  obtain ⟨b4, h4⟩ := writeInfos_total hu.info
    (fun p hp ty hty => ⟨(hu.info_ok p hp ty hty).2.2, he.info p hp ty hty⟩)
  obtain ⟨b5, h5⟩ := writeInfoMulti_total hu.multi
    (fun p hp ty hty s hs v hv =>
      ⟨((hu.multi_ok p hp ty hty).2.2.2 s hs).2 v hv, he.multi p hp ty hty s hs v hv⟩)
  obtain ⟨b6, h6⟩ := writeInitialParams_total (u := u)
    (fun p hp => ⟨(hu.initial p hp).2, he.initial p hp⟩)
  obtain ⟨b7, h7⟩ := writeDefaultParams_total (u := u)
    (fun p hp => ⟨(hu.defaults p hp).1,
      fun q hq => ⟨((hu.defaults p hp).2.2.2 q hq).2, he.defaults p hp q hq⟩⟩)
  obtain ⟨b8, h8⟩ := writeSubs_total (u := u)
    (fun d hd => ⟨(he.data d hd).1, (he.data d hd).2.1, (he.data d hd).2.2.1⟩)
  obtain ⟨b9, h9⟩ : ∃ b, writeDataSection u = .ok b := by
    obtain ⟨a, ha⟩ : ∃ a, dataItems u = .ok a := by
      obtain ⟨r, hr⟩ := mapM_total (f := datasetItems) (l := byMsgId u.dataList) fun d hd => by
        have hd := (mem_ssort _ _ _).mp hd
        exact datasetItems_total (hu.data d hd) (he.data d hd).1 (he.data d hd).2.2.2 (he.chars d hd)
      exact ⟨_, by unfold dataItems; rw [hr, ok_bind]; rfl⟩
    obtain ⟨b, hb⟩ := mapM_total (f := loggedItem) (l := u.logged) fun m hm => by
      obtain ⟨g1, g2, g3⟩ := he.logged m hm
      obtain ⟨x, hx⟩ := frame_total (ty := MSG_TYPE_LOGGING)
        (d := leEnc 1 m.level ++ leEnc 8 m.ts ++ encStr m.msg) (by decide) (by
          unfold utf8Size at g3
          simp only [List.length_append, leEnc_length]; omega)
      exact ⟨_, by
        unfold loggedItem
        rw [packU_ok (show _ < 256 ^ 1 from g1), ok_bind, packU_ok (show _ < 256 ^ 8 from g2), ok_bind,
          hx, ok_bind]
        rfl⟩
    obtain ⟨c, hc⟩ := mapM_total (f := taggedItem) (l := u.tagged.vals.flatten) fun m hm => by
      obtain ⟨g1, g2, g3, g4⟩ := he.tagged m hm
      obtain ⟨x, hx⟩ := frame_total (ty := MSG_TYPE_LOGGING_TAGGED)
        (d := leEnc 1 m.level ++ leEnc 2 m.tag ++ leEnc 8 m.ts ++ encStr m.msg) (by decide) (by
          unfold utf8Size at g4
          simp only [List.length_append, leEnc_length]; omega)
      exact ⟨_, by
        unfold taggedItem
        rw [packU_ok (show _ < 256 ^ 1 from g1), ok_bind, packU_ok (show _ < 256 ^ 2 from g2), ok_bind,
          packU_ok (show _ < 256 ^ 8 from g3), ok_bind, hx, ok_bind]
        rfl⟩
    obtain ⟨d, hd⟩ := mapM_total (f := dropoutItem) (l := u.dropouts) fun m hm => by
      have g1 := he.dropouts m hm
      obtain ⟨x, hx⟩ := frame_total (ty := MSG_TYPE_DROPOUT) (d := leEnc 2 m.duration) (by decide)
        (by rw [leEnc_length]; omega)
      exact ⟨_, by
        unfold dropoutItem
        rw [packU_ok (show _ < 256 ^ 2 from g1), ok_bind, hx, ok_bind]
        rfl⟩
    obtain ⟨e, hE⟩ := mapM_total (f := changedItem) (l := u.changedParams) fun p hp => by
      obtain ⟨x, x1, x2⟩ := paramData_total (hu.changed p hp).2 (he.changed p hp)
      obtain ⟨y, hy⟩ := frame_total (ty := MSG_TYPE_PARAMETER) (d := x) (by decide) (by omega)
      exact ⟨_, by
        unfold changedItem
        rw [x1, ok_bind, hy, ok_bind]
        rfl⟩
    unfold writeDataSection allItems
    rw [ha, ok_bind, hb, ok_bind, hc, ok_bind, hd, ok_bind, hE, ok_bind]
    exact ⟨_, rfl⟩
  unfold writeUlog
  refine ⟨_, (concatM_cons_ok).mpr ⟨b1, _, h1, (concatM_cons_ok).mpr ⟨b2, _, h2,
    (concatM_cons_ok).mpr ⟨b3, _, h3, (concatM_cons_ok).mpr ⟨b4, _, h4,
    (concatM_cons_ok).mpr ⟨b5, _, h5, (concatM_cons_ok).mpr ⟨b6, _, h6,
    (concatM_cons_ok).mpr ⟨b7, _, h7, (concatM_cons_ok).mpr ⟨b8, _, h8,
    (concatM_cons_ok).mpr ⟨b9, _, h9, rfl, rfl⟩, rfl⟩, rfl⟩, rfl⟩, rfl⟩, rfl⟩, rfl⟩, rfl⟩, rfl⟩⟩

end PyULog
