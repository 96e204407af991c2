import Verif.Lemmas.CanWrite
import Verif.Lemmas.Errors
import Verif.Spec.WriteError
/-
The exception of a failing write belongs to an obstacle.
-/
namespace PyULog
open Spec

theorem concatM_err {α : Type} {f : α → Except PyErr Bytes} {l : List α} {e : PyErr}
    (h : concatM (l.map f) = .error e) : ∃ a ∈ l, f a = .error e := by
  induction l with
  | nil => cases h
  | cons a l ih =>
    rw [List.map_cons, concatM_cons] at h
    rcases except_bind_error.mp h with h | ⟨_, _, h⟩
    · exact ⟨a, List.mem_cons_self, h⟩
    · rcases except_bind_error.mp h with h | ⟨_, _, h⟩
      · obtain ⟨b, h1, h2⟩ := ih h
        exact ⟨b, List.mem_cons_of_mem _ h1, h2⟩
      · cases h

theorem mapM_errMem {α β : Type} {f : α → Except PyErr β} {l : List α} {e : PyErr}
    (h : l.mapM f = .error e) : ∃ a ∈ l, f a = .error e := by
  induction l with
  | nil => cases h
  | cons a l ih =>
    rw [List.mapM_cons] at h
    rcases except_bind_error.mp h with h | ⟨_, _, h⟩
    · exact ⟨a, List.mem_cons_self, h⟩
    · rcases except_bind_error.mp h with h | ⟨_, _, h⟩
      · obtain ⟨b, h1, h2⟩ := ih h
        exact ⟨b, List.mem_cons_of_mem _ h1, h2⟩
      · cases h

theorem packU_err {n v : Nat} {e : PyErr} (h : packU n v = .error e) : ¬v < 256 ^ n ∧ e = .structError := by
  unfold packU at h
  split at h
  · cases h
  · injection h with h
    exact ⟨‹_›, h.symm⟩

theorem frame_err {ty : Nat} {d : Bytes} (hty : ty < 256) {e : PyErr} (h : frame ty d = .error e) :
    65536 ≤ d.length ∧ e = .structError := by
  unfold frame at h
  rcases except_bind_error.mp h with h | ⟨_, _, h⟩
  · obtain ⟨h1, h2⟩ := packU_err h
    exact ⟨by omega, h2⟩
  · rcases except_bind_error.mp h with h | ⟨_, _, h⟩
    · exact absurd hty (by have := (packU_err h).1; omega)
    · cases h

theorem narrow_err {b : Nat} {e : PyErr} (h : narrow b = .error e) : ¬FitsFloat b ∧ e = .overflowError := by
  refine ⟨fun hf => ?_, ?_⟩
  · obtain ⟨r, hr⟩ := (narrow_ok_iff b).mpr hf
    rw [hr] at h
    cases h
  · unfold narrow at h
    extract_lets s e' m M E q R f at h
    split at h
    · split at h <;> cases h
    · split at h
      · cases h
      · split at h
        · cases h
        · injection h with h
          exact h.symm

theorem floatArg_err {n : Int} {e : PyErr} (h : floatArg n = .error e) : ¬IntFitsDouble n ∧ e = .structError := by
  refine ⟨fun hf => ?_, ?_⟩
  · obtain ⟨r, hr⟩ := (intFitsDouble_iff n).mpr hf
    rw [hr] at h
    cases h
  · unfold floatArg at h
    split at h
    · cases h
    · injection h with h
      exact h.symm

theorem packInt_err {t : BT} {n : Int} {e : PyErr} (h : packInt t n = .error e) : e = .structError := by
  unfold packInt at h
  split at h
  · split at h
    · cases h
    · injection h with h; exact h.symm
  · split at h
    · cases h
    · injection h with h; exact h.symm

theorem map_err {α β : Type} {x : Except PyErr α} {f : α → β} {e : PyErr} (h : x.map f = .error e) : x = .error e := by
  cases x with
  | error y => injection h with h; rw [h]
  | ok y => cases h

/-- an integer under the code `f` -/
theorem packFloat_err {n : Int} {e : PyErr}
    (h : (do (narrow (← floatArg n)).map (leEnc 4) : Except PyErr Bytes) = .error e) :
    (IntFitsDouble n ∧ ¬IntFitsFloat n ∧ e = .overflowError) ∨ ¬IntFitsDouble n ∧ e = .structError := by
  rcases except_bind_error.mp h with h | ⟨x, hx, h⟩
  · exact Or.inr (floatArg_err h)
  · obtain ⟨h1, h2⟩ := narrow_err (map_err h)
    refine Or.inl ⟨(intFitsDouble_iff n).mp ⟨x, hx⟩, fun hf => ?_, h2⟩
    obtain ⟨y, hy, hf⟩ := (intFitsFloat_iff n).mpr hf
    rw [hx] at hy
    injection hy with hy
    rw [hy] at h1
    exact h1 hf

theorem intFits_mono {n : Int} (h : IntFitsFloat n) : IntFitsDouble n := by
  obtain ⟨x, hx, _⟩ := (intFitsFloat_iff n).mpr h
  exact (intFitsDouble_iff n).mp ⟨x, hx⟩

theorem packScalar_err {t : BT} {v : Value} {e : PyErr} (h : packScalar t v = .error e) :
    ¬Holds t v ∧ ((t = .f32 ∧ TooBig v) ∧ e = .overflowError ∨ ¬(t = .f32 ∧ TooBig v) ∧ e = .structError) := by
  refine ⟨fun hh => ?_, ?_⟩
  · obtain ⟨b, hb⟩ := (packScalar_iff t v).mpr hh
    rw [hb] at h
    cases h
  · cases t with
    | i8 | u8 | i16 | u16 | i32 | u32 | i64 | u64 =>
      refine Or.inr ⟨fun hc => (by cases hc.1), ?_⟩
      cases v with
      | int n => exact packInt_err h
      | bool b => exact packInt_err h
      | _ => injection h with h; exact h.symm
    | f32 =>
      cases v with
      | float x =>
        obtain ⟨h1, h2⟩ := narrow_err (map_err h)
        exact Or.inl ⟨⟨rfl, h1⟩, h2⟩
      | int n =>
        rcases packFloat_err h with ⟨h1, h2, h3⟩ | ⟨h1, h2⟩
        · exact Or.inl ⟨⟨rfl, h1, h2⟩, h3⟩
        · exact Or.inr ⟨fun hc => h1 hc.2.1, h2⟩
      | bool b =>
        exfalso
        obtain ⟨r, hr⟩ := (packScalar_iff .f32 (.bool b)).mpr trivial
        rw [hr] at h
        cases h
      | _ => injection h with h; exact Or.inr ⟨fun hc => hc.2, h.symm⟩
    | f64 =>
      refine Or.inr ⟨fun hc => (by cases hc.1), ?_⟩
      cases v with
      | float x => cases h
      | int n => exact (floatArg_err (map_err h)).2
      | bool b => exact (floatArg_err (map_err h)).2
      | _ => injection h with h; exact h.symm
    | bool => cases v <;> cases h
    | char =>
      refine Or.inr ⟨fun hc => (by cases hc.1), ?_⟩
      unfold packScalar at h
      dsimp only at h
      split at h
      · cases h
      · injection h with h; exact h.symm

theorem packNp_err {t : BT} {v : NpVal} {e : PyErr} (h : packNp t v = .error e) : CellObstacle t v e := by
  have hh : ¬HoldsNp t v := fun hh => by
    obtain ⟨b, hb⟩ := (packNp_iff t v).mpr hh
    rw [hb] at h
    cases h
  cases t with
  | i8 | u8 | i16 | u16 | i32 | u32 | i64 | u64 =>
    have : e = .structError := by
      cases v with
      | int n => exact packInt_err h
      | _ => injection h with h; exact h.symm
    rw [this]
    exact .range hh (fun h => by cases h) (fun h => by cases h)
  | f32 =>
    cases v with
    | f32 x => exact absurd trivial hh
    | f64 x =>
      obtain ⟨h1, h2⟩ := narrow_err (map_err h)
      rw [h2]
      exact .big rfl h1
    | int n =>
      rcases packFloat_err h with ⟨h1, h2, h3⟩ | ⟨h1, h2⟩
      · rw [h3]
        exact .big rfl ⟨h1, h2⟩
      · rw [h2]
        exact .range hh (fun h => by cases h) (fun _ hb => h1 hb.1)
  | f64 =>
    cases v with
    | int n =>
      rw [(floatArg_err (map_err h)).2]
      exact .range hh (fun h => by cases h) (fun h => by cases h)
    | _ => cases h
  | bool => cases v <;> cases h
  | char =>
    cases v with
    | int n =>
      have h : (if n < 0 then Except.error PyErr.valueError else if n < 128 then
        (Except.ok [UInt8.ofNat n.toNat] : Except PyErr Bytes) else .error .structError) = .error e := h
      split at h
      · rename_i hn
        injection h with h
        rw [← h]
        exact .negative n rfl rfl hn
      · rename_i hn
        split at h
        · cases h
        · injection h with h
          rw [← h]
          exact .range hh (fun _ => ⟨n, rfl, by omega⟩) (fun h => by cases h)
    | _ =>
      injection h with h
      rw [← h]
      exact .noChar rfl (fun n hn => by cases hn)

theorem infoValueBytes_err {ty : Str} {v : Value} {e : PyErr} (h : infoValueBytes ty v = .error e) : ValueObstacle ty v e := by
  have hpc : (py! "char[" <+: ty) ↔ startsWith (py! "char[") ty = true := List.isPrefixOf_iff_prefix.symm
  have hpu : (py! "uint8_t[" <+: ty) ↔ startsWith (py! "uint8_t[") ty = true := List.isPrefixOf_iff_prefix.symm
  unfold infoValueBytes at h
  split at h
  · rename_i hc
    cases v with
    | str s => cases h
    | _ => injection h with h; rw [← h]; exact .noText (hpc.mpr hc) (fun s hs => by cases hs)
  · rename_i hc
    split at h
    · rename_i hu
      cases v with
      | bytes b => cases h
      | str s =>
        have h : (if s = [] then (Except.ok [] : Except PyErr Bytes) else Except.error PyErr.typeError) = .error e := h
        split at h
        · cases h
        · rename_i hs
          injection h with h
          rw [← h]
          exact .noBytes (hpu.mpr hu) (fun s hs => by cases hs) (fun hv => hs (by injection hv))
      | _ =>
        injection h with h
        rw [← h]
        exact .noBytes (hpu.mpr hu) (fun s hs => by cases hs) (fun hs => by cases hs)
    · rename_i hu
      rw [← basicType_eq] at h
      cases hb : basicType ty with
      | none =>
        rw [hb] at h
        injection h with h
        rw [← h]
        refine .unknown ?_
        rintro (h | h | ⟨t, h⟩)
        · exact hc (hpc.mp h)
        · exact hu (hpu.mp h)
        · rw [hb] at h; cases h
      | some t =>
        rw [hb] at h
        obtain ⟨h1, ⟨⟨h2, h3⟩, h4⟩ | ⟨h2, h3⟩⟩ := packScalar_err h
        · rw [h4]
          exact .big (by rw [hb, h2]) h3
        · rw [h3]
          exact .range t hb h1 h2

theorem infoFrame_err {ty k : Str} {v : Value} {c : Option Bool} {T : Nat} (hT : T < 256) {e : PyErr}
    (h : (infoData (ty ++ py! " " ++ k) v ty c >>= frame T) = .error e) : InfoObstacle (contSize c) ty k v e := by
  have hl : (encStr (ty ++ py! " " ++ k)).length = utf8Size ty + 1 + utf8Size k := by
    show utf8Size _ = _
    rw [textSize_append, textSize_append]
    rfl
  rcases except_bind_error.mp h with h | ⟨d, hd, h⟩
  · unfold infoData at h
    dsimp only at h
    rcases except_bind_error.mp h with h | ⟨_, _, h⟩
    · obtain ⟨h1, h2⟩ := packU_err h
      rw [hl] at h1
      rw [h2]
      exact .key (by omega)
    · rcases except_bind_error.mp h with h | ⟨_, _, h⟩
      · exact .value (infoValueBytes_err h)
      · cases h
  · obtain ⟨h1, h2⟩ := frame_err hT h
    obtain ⟨_, m, h3, h4⟩ := (infoData_iff ty k v c d.length).mp ⟨d, hd, rfl⟩
    rw [h2]
    exact .size m h3 (by omega)

theorem writeValueSet_err {ty k : Str} {c : Bool} {s : List Value} {e : PyErr}
    (h : writeValueSet (ty ++ py! " " ++ k) ty c s = .error e) : ∃ v ∈ s, InfoObstacle 1 ty k v e := by
  induction s generalizing c with
  | nil => cases h
  | cons v s ih =>
    unfold writeValueSet at h
    have key : ∀ {e}, (infoData (ty ++ py! " " ++ k) v ty (some c) >>= frame MSG_TYPE_INFO_MULTIPLE) = .error e →
        InfoObstacle 1 ty k v e := fun h => infoFrame_err (c := some c) (by decide) h
    rcases except_bind_error.mp h with h | ⟨d, hd, h⟩
    · exact ⟨v, List.mem_cons_self, key (except_bind_error.mpr (Or.inl h))⟩
    · rcases except_bind_error.mp h with h | ⟨_, _, h⟩
      · exact ⟨v, List.mem_cons_self, key (except_bind_error.mpr (Or.inr ⟨d, hd, h⟩))⟩
      · rcases except_bind_error.mp h with h | ⟨_, _, h⟩
        · obtain ⟨w, h1, h2⟩ := ih h
          exact ⟨w, List.mem_cons_of_mem _ h1, h2⟩
        · cases h

theorem paramInfo_err {ty k : Str} {v : Value} {e : PyErr} (h : infoData (ty ++ py! " " ++ k) v ty none = .error e) :
    (256 ≤ utf8Size ty + 1 + utf8Size k ∧ e = .structError) ∨ ValueObstacle ty v e := by
  have hl : (encStr (ty ++ py! " " ++ k)).length = utf8Size ty + 1 + utf8Size k := by
    show utf8Size _ = _
    rw [textSize_append, textSize_append]
    rfl
  unfold infoData at h
  dsimp only at h
  rcases except_bind_error.mp h with h | ⟨_, _, h⟩
  · obtain ⟨h1, h2⟩ := packU_err h
    rw [hl] at h1
    exact Or.inl ⟨by omega, h2⟩
  · rcases except_bind_error.mp h with h | ⟨_, _, h⟩
    · exact Or.inr (infoValueBytes_err h)
    · cases h

theorem valueObstacle_basic {ty : Str} {t : BT} {v : Value} {e : PyErr} (ht : basicType ty = some t)
    (h1 : ¬ py! "char[" <+: ty) (h2 : ¬ py! "uint8_t[" <+: ty) (h : ValueObstacle ty v e) :
    (t = .f32 ∧ TooBig v ∧ e = .overflowError) ∨ (¬Holds t v ∧ ¬(t = .f32 ∧ TooBig v) ∧ e = .structError) := by
  cases h with
  | unknown h => exact absurd (Or.inr (Or.inr ⟨t, ht⟩)) h
  | noText h => exact absurd h h1
  | noBytes h => exact absurd h h2
  | big hb hv =>
    rw [ht] at hb
    exact Or.inl ⟨Option.some.inj hb, hv, rfl⟩
  | range t' hb hv hn =>
    rw [ht] at hb
    have := Option.some.inj hb
    subst this
    exact Or.inr ⟨hv, hn, rfl⟩

theorem paramData_err {k : Str} {v : Value} {e : PyErr} (h : paramData k v = .error e) : ParamObstacle k v e := by
  have hi : utf8Size (py! "int32_t") = 7 := by decide
  have hf : utf8Size (py! "float") = 5 := by decide
  cases v with
  | int n =>
    rcases paramInfo_err (ty := py! "int32_t") h with ⟨h1, h2⟩ | h
    · rw [h2]
      exact .name (fun x hx => by cases hx) (by omega)
    · rcases valueObstacle_basic (t := .i32) (by decide) (by decide) (by decide) h with ⟨h1, _⟩ | ⟨h1, _, h2⟩
      · cases h1
      · rw [h2]
        exact .range n rfl h1
  | bool b =>
    rcases paramInfo_err (ty := py! "int32_t") h with ⟨h1, h2⟩ | h
    · rw [h2]
      exact .name (fun x hx => by cases hx) (by omega)
    · rcases valueObstacle_basic (t := .i32) (by decide) (by decide) (by decide) h with ⟨h1, _⟩ | ⟨h1, _, h2⟩
      · cases h1
      · exact absurd trivial h1
  | float x =>
    rcases paramInfo_err (ty := py! "float") h with ⟨h1, h2⟩ | h
    · rw [h2]
      exact .floatName x rfl (by omega)
    · rcases valueObstacle_basic (t := .f32) (by decide) (by decide) (by decide) h with ⟨_, h1, h2⟩ | ⟨h1, h2, _⟩
      · rw [h2]
        exact .big x rfl h1
      · exact absurd ⟨rfl, h1⟩ h2
  | str s => injection h with h; rw [← h]; exact .text s rfl
  | bytes s => injection h with h; rw [← h]; exact .bytes s rfl

theorem paramFrame_err {k : Str} {v : Value} {T : Nat} (hT : T < 256) {pre : Bytes} (hp : pre.length ≤ 1) {e : PyErr}
    (h : (paramData k v >>= fun d => frame T (pre ++ d)) = .error e) : ParamObstacle k v e := by
  rcases except_bind_error.mp h with h | ⟨d, hd, h⟩
  · exact paramData_err h
  · have h1 := (frame_err hT h).1
    have h2 := paramData_short hd
    rw [List.length_append] at h1
    omega

theorem pyIndex_errLen {α : Type} {l : List α} {i : Nat} {e : PyErr} (h : pyIndex l i = .error e) :
    l.length ≤ i ∧ e = .indexError := by
  unfold pyIndex at h
  cases hi : l[i]? with
  | none =>
    rw [hi] at h
    injection h with h
    exact ⟨List.getElem?_eq_none_iff.mp hi, h.symm⟩
  | some x => rw [hi] at h; cases h

theorem sampleItem_err {d : Dataset} {i : Nat} {e : PyErr} (hid : d.msgId < 2 ^ 16)
    (ht : ∀ col, d.data.get? (py! "timestamp") = some col → ∀ v ∈ col, ∃ n, v = .int n)
    (h : sampleItem d i = .error e) : RowObstacle d i e := by
  unfold sampleItem at h
  cases hg : d.data.get? (py! "timestamp") with
  | none => rw [hg] at h; injection h with h; rw [← h]; exact .noTime hg
  | some col =>
    rw [hg] at h
    rcases except_bind_error.mp h with h | ⟨ts, hts, h⟩
    · obtain ⟨h1, h2⟩ := pyIndex_errLen h
      rw [h2]
      exact .shortTime col hg h1
    · rcases except_bind_error.mp h with h | ⟨_, hp, h⟩
      · exact absurd hid (packU_err h).1
      · obtain ⟨_, rfl⟩ := packU_eq_ok hp
        rcases except_bind_error.mp h with h | ⟨b, hb, h⟩
        · unfold sampleBytes at h
          obtain ⟨f, hf, h⟩ := concatM_err h
          cases hgf : d.data.get? f.name with
          | none => rw [hgf] at h; injection h with h; rw [← h]; exact .noColumn f hf hgf
          | some col =>
            rw [hgf] at h
            rcases except_bind_error.mp h with h | ⟨v, hv, h⟩
            · obtain ⟨h1, h2⟩ := pyIndex_errLen h
              rw [h2]
              exact .short f col hf hgf h1
            · refine .value f v hf ?_ (packNp_err h)
              unfold cell
              rw [hgf]
              exact pyIndex_some.mp hv
        · rcases except_bind_error.mp h with h | ⟨m, hm, h⟩
          · obtain ⟨h1, h2⟩ := frame_err (by decide) h
            rw [h2]
            have := ((sampleBytes_iff d i b.length).mp ⟨b, hb, rfl⟩).2
            rw [List.length_append, leEnc_length] at h1
            exact .size (by omega)
          · obtain ⟨n, rfl⟩ := ht col hg ts (List.mem_of_getElem? (pyIndex_some.mp hts))
            cases h

theorem datasetItems_err {u : ULog} {d : Dataset} {e : PyErr} (hd : d ∈ u.dataList) (hid : d.msgId < 2 ^ 16)
    (ht : ∀ col, d.data.get? (py! "timestamp") = some col → ∀ v ∈ col, ∃ n, v = .int n)
    (h : datasetItems d = .error e) : Obstacle u e := by
  unfold datasetItems at h
  rcases except_bind_error.mp h with h | ⟨f, hf, h⟩
  · obtain ⟨h1, h2⟩ := pyIndex_errLen h
    rw [h2]
    exact .noField d hd (List.eq_nil_of_length_eq_zero (by omega))
  · have hf := pyIndex_some.mp hf
    cases hfs : d.fields with
    | nil => rw [hfs] at hf; cases hf
    | cons f' rest =>
      rw [hfs] at hf
      injection hf with hf
      subst hf
      cases hg : d.data.get? f'.name with
      | none => rw [hg] at h; injection h with h; rw [← h]; exact .noFirst d f' rest hd hfs hg
      | some col =>
        rw [hg] at h
        obtain ⟨i, hi, h⟩ := mapM_errMem h
        exact .row d f' rest col i hd hfs hg (List.mem_range.mp hi) (sampleItem_err hid ht h)

theorem writeData_err {u : ULog} (hid : ∀ d ∈ u.dataList, d.msgId < 2 ^ 16) (ht : IntegerTimes u) {e : PyErr}
    (h : writeDataSection u = .error e) : Obstacle u e := by
  unfold writeDataSection allItems dataItems at h
  rcases except_bind_error.mp h with h | ⟨_, _, h⟩
  case inr => cases h
  rcases except_bind_error.mp h with h | ⟨_, _, h⟩
  · rcases except_bind_error.mp h with h | ⟨_, _, h⟩
    case inr => cases h
    obtain ⟨d, hd, h⟩ := mapM_errMem h
    have hd := (mem_ssort _ _ _).mp hd
    exact datasetItems_err hd (hid d hd) (ht d hd) h
  rcases except_bind_error.mp h with h | ⟨_, _, h⟩
  · obtain ⟨m, hm, h⟩ := mapM_errMem h
    have hs : e = .structError := by
      unfold loggedItem at h
      rcases except_bind_error.mp h with h | ⟨_, _, h⟩
      · exact (packU_err h).2
      rcases except_bind_error.mp h with h | ⟨_, _, h⟩
      · exact (packU_err h).2
      rcases except_bind_error.mp h with h | ⟨_, _, h⟩
      · exact (frame_err (by decide) h).2
      · cases h
    rw [hs]
    refine .logged m hm fun hc => ?_
    obtain ⟨x, hx⟩ := (loggedItem_iff m).mpr hc
    rw [hx] at h
    cases h
  rcases except_bind_error.mp h with h | ⟨_, _, h⟩
  · obtain ⟨m, hm, h⟩ := mapM_errMem h
    have hs : e = .structError := by
      unfold taggedItem at h
      rcases except_bind_error.mp h with h | ⟨_, _, h⟩
      · exact (packU_err h).2
      rcases except_bind_error.mp h with h | ⟨_, _, h⟩
      · exact (packU_err h).2
      rcases except_bind_error.mp h with h | ⟨_, _, h⟩
      · exact (packU_err h).2
      rcases except_bind_error.mp h with h | ⟨_, _, h⟩
      · exact (frame_err (by decide) h).2
      · cases h
    rw [hs]
    refine .tagged m hm fun hc => ?_
    obtain ⟨x, hx⟩ := (taggedItem_iff m).mpr hc
    rw [hx] at h
    cases h
  rcases except_bind_error.mp h with h | ⟨_, _, h⟩
  · obtain ⟨m, hm, h⟩ := mapM_errMem h
    have hs : e = .structError := by
      unfold dropoutItem at h
      rcases except_bind_error.mp h with h | ⟨_, _, h⟩
      · exact (packU_err h).2
      rcases except_bind_error.mp h with h | ⟨_, _, h⟩
      · exact (frame_err (by decide) h).2
      · cases h
    rw [hs]
    refine .dropout m hm fun hc => ?_
    obtain ⟨x, hx⟩ := (dropoutItem_iff m).mpr hc
    rw [hx] at h
    cases h
  rcases except_bind_error.mp h with h | ⟨_, _, h⟩
  · obtain ⟨p, hp, h⟩ := mapM_errMem h
    refine .changed p hp ?_
    unfold changedItem at h
    rcases except_bind_error.mp h with h | ⟨d, hd, h⟩
    · exact paramData_err h
    · rcases except_bind_error.mp h with h | ⟨_, _, h⟩
      · have h1 := (frame_err (by decide) h).1
        have h2 := paramData_short hd
        omega
      · cases h
  · cases h

theorem packFlags_err {l : List Nat} {e : PyErr} (h : packFlags l = .error e) :
    ¬(l.length = 8 ∧ ∀ x ∈ l, x < 256) ∧ e = .structError := by
  refine ⟨fun hc => ?_, ?_⟩
  · obtain ⟨b, hb⟩ := (packFlags_iff l).mpr hc
    rw [hb] at h
    cases h
  · unfold packFlags at h
    split at h
    · injection h with h; exact h.symm
    · obtain ⟨_, _, h⟩ := concatM_err h
      exact (packU_err h).2

theorem writeUlog_err {u : ULog} (ht : IntegerTimes u) {e : PyErr} (h : writeUlog u = .error e) : Obstacle u e := by
  unfold writeUlog at h
  rw [concatM_cons] at h
  rcases except_bind_error.mp h with h | ⟨_, _, h⟩
  · have hs : e = .structError ∧ ¬(u.fileVersion < 256 ∧ u.startTs < 2 ^ 64) := by
      refine ⟨?_, fun hc => ?_⟩
      · unfold writeHeader at h
        rcases except_bind_error.mp h with h | ⟨v, hv, h⟩
        · exact (packU_err h).2
        rcases except_bind_error.mp h with h | ⟨t, ht, h⟩
        · exact (packU_err h).2
        · obtain ⟨_, rfl⟩ := packU_eq_ok hv
          obtain ⟨_, rfl⟩ := packU_eq_ok ht
          rw [if_neg (by rw [List.length_append, List.length_append, leEnc_length, leEnc_length]; decide)] at h
          cases h
      · obtain ⟨b, hb⟩ := (writeHeader_iff u).mpr hc
        rw [hb] at h
        cases h
    rw [hs.1]
    exact .head hs.2
  rcases except_bind_error.mp h with h | ⟨_, _, h⟩
  case inr => cases h
  rw [concatM_cons] at h
  rcases except_bind_error.mp h with h | ⟨_, _, h⟩
  · unfold writeFlags at h
    rcases except_bind_error.mp h with h | ⟨c, hc, h⟩
    · obtain ⟨h1, h2⟩ := packFlags_err h
      rw [h2]
      exact .compat h1
    cases hu : u.incompat with
    | nil =>
      rw [hu] at h
      injection h with h
      rw [← h]
      exact .noFlags hu
    | cons x xs =>
      rw [hu] at h
      rcases except_bind_error.mp h with h | ⟨_, hx, h⟩
      · cases h
      injection hx with hx
      subst hx
      rcases except_bind_error.mp h with h | ⟨i, hi, h⟩
      · obtain ⟨h1, h2⟩ := packFlags_err h
        rw [h2]
        refine .incompat (by rw [hu]; exact List.cons_ne_nil _ _) fun hc => h1 ?_
        rw [hu] at hc
        refine ⟨by simpa using hc.1, fun y hy => ?_⟩
        rcases List.mem_cons.mp hy with rfl | hy
        · have := Nat.and_le_right (n := x) (m := 0xFE)
          omega
        · exact hc.2 y (by simpa using hy)
      · exfalso
        obtain ⟨k1, k2⟩ := (packFlags_iff _).mp ⟨c, hc⟩
        obtain ⟨j1, j2⟩ := (packFlags_iff _).mp ⟨i, hi⟩
        obtain ⟨c', hc', hcl⟩ := packFlags_total k1 k2
        obtain ⟨i', hi', hil⟩ := packFlags_total j1 j2
        rw [hc] at hc'
        rw [hi] at hi'
        injection hc' with hc'
        injection hi' with hi'
        have h1 := (frame_err (by decide) h).1
        rw [hc', hi'] at h1
        simp [hcl, hil] at h1
  rcases except_bind_error.mp h with h | ⟨_, _, h⟩
  case inr => cases h
  rw [concatM_cons] at h
  rcases except_bind_error.mp h with h | ⟨_, _, h⟩
  · obtain ⟨p, hp, h⟩ := concatM_err h
    obtain ⟨h1, h2⟩ := frame_err (by decide) h
    rw [h2]
    refine .format p hp ?_
    rw [List.length_append, encStr_append, List.length_append, List.length_flatMap,
      List.map_congr_left fun f _ => fieldText_size f] at h1
    exact h1
  rcases except_bind_error.mp h with h | ⟨_, _, h⟩
  case inr => cases h
  rw [concatM_cons] at h
  rcases except_bind_error.mp h with h | ⟨_, _, h⟩
  · obtain ⟨p, hp, h⟩ := concatM_err h
    dsimp only at h
    cases hg : u.infoTypes.get? p.1 with
    | none => rw [hg] at h; injection h with h; rw [← h]; exact .noType p hp hg
    | some ty => rw [hg] at h; exact .info p ty hp hg (infoFrame_err (c := none) (by decide) h)
  rcases except_bind_error.mp h with h | ⟨_, _, h⟩
  case inr => cases h
  rw [concatM_cons] at h
  rcases except_bind_error.mp h with h | ⟨_, _, h⟩
  · obtain ⟨p, hp, h⟩ := concatM_err h
    dsimp only at h
    cases hg : u.infoMultiTypes.get? p.1 with
    | none => rw [hg] at h; injection h with h; rw [← h]; exact .noMultiType p hp hg
    | some ty =>
      rw [hg] at h
      obtain ⟨s, hs, h⟩ := concatM_err h
      obtain ⟨v, hv, h⟩ := writeValueSet_err h
      exact .multi p ty s v hp hg hs hv h
  rcases except_bind_error.mp h with h | ⟨_, _, h⟩
  case inr => cases h
  rw [concatM_cons] at h
  rcases except_bind_error.mp h with h | ⟨_, _, h⟩
  · obtain ⟨p, hp, h⟩ := concatM_err h
    exact .initial p hp (paramFrame_err (T := MSG_TYPE_PARAMETER) (pre := []) (by decide) (by decide) h)
  rcases except_bind_error.mp h with h | ⟨_, _, h⟩
  case inr => cases h
  rw [concatM_cons] at h
  rcases except_bind_error.mp h with h | ⟨_, _, h⟩
  · obtain ⟨p, hp, h⟩ := concatM_err h
    obtain ⟨q, hq, h⟩ := concatM_err h
    rcases except_bind_error.mp h with h | ⟨m, hm, h⟩
    · obtain ⟨h1, h2⟩ := packU_err h
      rw [shift_lt] at h1
      rw [h2]
      exact .bit p hp (List.ne_nil_of_mem hq) (by omega)
    · obtain ⟨_, rfl⟩ := packU_eq_ok hm
      exact .default p q hp hq (paramFrame_err (T := MSG_TYPE_PARAMETER_DEFAULT) (by decide)
        (Nat.le_of_eq (leEnc_length _ _)) h)
  rcases except_bind_error.mp h with h | ⟨_, _, h⟩
  case inr => cases h
  rw [concatM_cons] at h
  rcases except_bind_error.mp h with h | ⟨b, hb, h⟩
  · unfold writeSubs at h
    obtain ⟨d, hd, h⟩ := concatM_err h
    have hd := (mem_ssort _ _ _).mp hd
    have hs : e = .structError := by
      rcases except_bind_error.mp h with h | ⟨_, _, h⟩
      · exact (packU_err h).2
      rcases except_bind_error.mp h with h | ⟨_, _, h⟩
      · exact (packU_err h).2
      · exact (frame_err (by decide) h).2
    rw [hs]
    refine .sub d hd fun hc => ?_
    rw [packU_ok (show d.multiId < 256 ^ 1 from hc.1), packU_ok (show d.msgId < 256 ^ 2 from hc.2.1)] at h
    have h1 := (frame_err (by decide) h).1
    rw [List.length_append, List.length_append, leEnc_length, leEnc_length] at h1
    have : (encStr d.name).length = utf8Size d.name := rfl
    omega
  rcases except_bind_error.mp h with h | ⟨_, _, h⟩
  case inr => cases h
  rw [concatM_cons] at h
  rcases except_bind_error.mp h with h | ⟨_, _, h⟩
  · exact writeData_err (fun d hd => ((writeSubs_iff u).mp ⟨b, hb⟩ d hd).2.1) ht h
  · rcases except_bind_error.mp h with h | ⟨_, _, h⟩ <;> cases h

end PyULog
