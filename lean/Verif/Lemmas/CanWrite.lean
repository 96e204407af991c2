import Verif.Lemmas.WriteTotal
import Verif.Lemmas.CanWriteNum
/-
`write_ulog` succeeds exactly for the logs that fit into a file.
-/
namespace PyULog
open Spec

/-! ### lists of writes -/

theorem concatM_iff {α : Type} {f : α → Except PyErr Bytes} {l : List α} :
    (∃ b, concatM (l.map f) = .ok b) ↔ ∀ a ∈ l, ∃ b, f a = .ok b := by
  refine ⟨?_, concatM_total⟩
  induction l with
  | nil => intro _ a ha; cases ha
  | cons a l ih =>
    rintro ⟨b, hb⟩ x hx
    rw [List.map_cons, concatM_cons_ok] at hb
    obtain ⟨y, z, h1, h2, _⟩ := hb
    rcases List.mem_cons.mp hx with rfl | hx
    · exact ⟨y, h1⟩
    · exact ih ⟨z, h2⟩ x hx

theorem mapM_can {α β : Type} {f : α → Except PyErr β} {l : List α} :
    (∃ r, l.mapM f = .ok r) ↔ ∀ a ∈ l, ∃ b, f a = .ok b := by
  refine ⟨?_, mapM_total⟩
  induction l with
  | nil => intro _ a ha; cases ha
  | cons a l ih =>
    rintro ⟨b, hb⟩ x hx
    rw [List.mapM_cons] at hb
    obtain ⟨y, h1, hb⟩ := except_bind_ok.mp hb
    obtain ⟨z, h2, hb⟩ := except_bind_ok.mp hb
    rcases List.mem_cons.mp hx with rfl | hx
    · exact ⟨y, h1⟩
    · exact ih ⟨z, h2⟩ x hx

theorem can_bind {α β : Type} {x : Except PyErr α} {f : α → Except PyErr β} :
    (∃ b, (x >>= f) = .ok b) ↔ ∃ a, x = .ok a ∧ ∃ b, f a = .ok b := by
  constructor
  · rintro ⟨b, hb⟩
    obtain ⟨a, h1, h2⟩ := except_bind_ok.mp hb
    exact ⟨a, h1, b, h2⟩
  · rintro ⟨a, h1, b, h2⟩
    exact ⟨b, except_bind_ok.mpr ⟨a, h1, h2⟩⟩

theorem can_pack {β : Type} {n v : Nat} {f : Bytes → Except PyErr β} :
    (∃ b, (packU n v >>= f) = .ok b) ↔ v < 256 ^ n ∧ ∃ b, f (leEnc n v) = .ok b := by
  rw [can_bind]
  constructor
  · rintro ⟨a, h1, h2⟩
    obtain ⟨h3, rfl⟩ := packU_eq_ok h1
    exact ⟨h3, h2⟩
  · rintro ⟨h1, h2⟩
    exact ⟨_, packU_ok h1, h2⟩

theorem can_frame {ty : Nat} {d : Bytes} (hty : ty < 256) : (∃ b, frame ty d = .ok b) ↔ d.length < 65536 := by
  constructor
  · rintro ⟨b, hb⟩
    exact ((frame_ok_iff _ _ _).mp hb).2.1
  · exact frame_total hty

theorem can_frame_bind {β : Type} {ty : Nat} {d : Bytes} (hty : ty < 256) {f : Bytes → β} :
    (∃ b, (frame ty d >>= fun x => (pure (f x) : Except PyErr β)) = .ok b) ↔ d.length < 65536 := by
  rw [can_bind]
  constructor
  · rintro ⟨a, h1, _⟩
    exact ((frame_ok_iff _ _ _).mp h1).2.1
  · intro h
    obtain ⟨b, hb⟩ := frame_total hty h
    exact ⟨b, hb, _, rfl⟩

/-! ### the parts of a file -/

theorem writeHeader_iff (u : ULog) : (∃ b, writeHeader u = .ok b) ↔ u.fileVersion < 256 ∧ u.startTs < 2 ^ 64 := by
  constructor
  · intro h
    unfold writeHeader at h
    rw [can_pack, can_pack] at h
    exact ⟨h.1, h.2.1⟩
  · rintro ⟨h1, h2⟩
    exact writeHeader_total h1 h2

theorem packFlags_iff (l : List Nat) : (∃ b, packFlags l = .ok b) ↔ l.length = 8 ∧ ∀ x ∈ l, x < 256 := by
  constructor
  · rintro ⟨b, hb⟩
    unfold packFlags at hb
    split at hb
    · cases hb
    · rename_i h
      refine ⟨by omega, fun x hx => ?_⟩
      obtain ⟨c, hc⟩ := concatM_iff.mp ⟨b, hb⟩ x hx
      simpa using (packU_eq_ok hc).1
  · rintro ⟨h1, h2⟩
    obtain ⟨b, hb, _⟩ := packFlags_total h1 h2
    exact ⟨b, hb⟩

theorem writeFlags_iff (u : ULog) : (∃ b, writeFlags u = .ok b) ↔
    (u.compat.length = 8 ∧ ∀ x ∈ u.compat, x < 256) ∧
      (u.incompat.length = 8 ∧ ∀ x ∈ u.incompat.drop 1, x < 256) := by
  unfold writeFlags
  rw [can_bind]
  constructor
  · rintro ⟨c, h1, h⟩
    obtain ⟨i, h2, h⟩ := can_bind.mp h
    obtain ⟨i', h3, h⟩ := can_bind.mp h
    refine ⟨(packFlags_iff _).mp ⟨c, h1⟩, ?_⟩
    cases hu : u.incompat with
    | nil => rw [hu] at h2; cases h2
    | cons x xs =>
      rw [hu] at h2
      injection h2 with h2
      obtain ⟨k1, k2⟩ := (packFlags_iff _).mp ⟨i', h3⟩
      rw [← h2] at k1 k2
      refine ⟨by simpa using k1, fun y hy => k2 y ?_⟩
      exact List.mem_cons_of_mem _ (by simpa using hy)
  · rintro ⟨⟨c1, c2⟩, i1, i2⟩
    obtain ⟨c, hc, hl⟩ := packFlags_total c1 c2
    refine ⟨c, hc, can_bind.mpr ?_⟩
    cases hu : u.incompat with
    | nil => rw [hu] at i1; cases i1
    | cons x xs =>
      rw [hu] at i1 i2
      refine ⟨_, rfl, can_bind.mpr ?_⟩
      obtain ⟨i, hi, hl2⟩ := packFlags_total (l := (x &&& 0xFE) :: xs) (by simpa using i1) (by
        intro y hy
        rcases List.mem_cons.mp hy with rfl | hy
        · have := Nat.and_le_right (n := x) (m := 0xFE)
          omega
        · exact i2 y (by simpa using hy))
      exact ⟨i, hi, frame_total (by decide) (by simp [hl, hl2])⟩

theorem writeFormats_iff (u : ULog) : (∃ b, writeFormats u = .ok b) ↔
    ∀ p ∈ u.formats, utf8Size p.2.name + 1 + (p.2.fields.map fieldSize).sum < 65536 := by
  unfold writeFormats
  rw [concatM_iff]
  refine forall_congr' fun p => forall_congr' fun hp => ?_
  dsimp only
  rw [can_frame (by decide), List.length_append, encStr_append, List.length_append, List.length_flatMap,
    List.map_congr_left fun f _ => fieldText_size f]
  exact Iff.rfl

theorem infoValueBytes_iff (ty : Str) (v : Value) (n : Nat) :
    (∃ b, infoValueBytes ty v = .ok b ∧ b.length = n) ↔ WrittenIn ty v n := by
  have hpc : (py! "char[" <+: ty) ↔ startsWith (py! "char[") ty = true := List.isPrefixOf_iff_prefix.symm
  have hpu : (py! "uint8_t[" <+: ty) ↔ startsWith (py! "uint8_t[") ty = true := List.isPrefixOf_iff_prefix.symm
  unfold WrittenIn infoValueBytes
  by_cases hc : startsWith (py! "char[") ty = true
  · have hu : ¬ py! "uint8_t[" <+: ty := by
      intro h
      obtain ⟨r, rfl⟩ := hpc.mpr hc
      obtain ⟨r', h⟩ := h
      cases h
    have hb : basicType ty = none := by
      obtain ⟨r, rfl⟩ := hpc.mpr hc
      simp [basicType, typeTable]
    rw [if_pos hc]
    constructor
    · rintro ⟨b, h1, h2⟩
      left
      refine ⟨hpc.mpr hc, ?_⟩
      cases v with
      | str s => injection h1 with h1; exact ⟨s, rfl, by rw [← h2, ← h1]; rfl⟩
      | _ => cases h1
    · rintro (⟨_, s, rfl, h⟩ | ⟨h, _⟩ | ⟨t, h, _⟩)
      · exact ⟨_, rfl, h.symm⟩
      · exact absurd h hu
      · rw [hb] at h; cases h
  · rw [if_neg hc]
    by_cases hu : startsWith (py! "uint8_t[") ty = true
    · have hb : basicType ty = none := by rw [basicType_eq]; exact ofName_uint8arr hu
      rw [if_pos hu]
      constructor
      · rintro ⟨b, h1, h2⟩
        right; left
        refine ⟨hpu.mpr hu, ?_⟩
        cases v with
        | str s =>
          right
          have h1 : (if s = [] then (Except.ok [] : Except PyErr Bytes) else Except.error PyErr.typeError) = .ok b := h1
          split at h1
          · rename_i e
            injection h1 with h1
            exact ⟨by rw [e], by rw [← h2, ← h1]; rfl⟩
          · cases h1
        | bytes s => left; injection h1 with h1; exact ⟨s, rfl, by rw [← h2, ← h1]⟩
        | _ => cases h1
      · rintro (⟨h, _⟩ | ⟨_, ⟨b, rfl, h⟩ | ⟨rfl, h⟩⟩ | ⟨t, h, _⟩)
        · exact absurd (hpc.mp h) hc
        · exact ⟨b, rfl, h.symm⟩
        · exact ⟨[], rfl, h.symm⟩
        · rw [hb] at h; cases h
    · rw [if_neg hu]
      rw [← basicType_eq]
      constructor
      · rintro ⟨b, h1, h2⟩
        right; right
        cases hb : basicType ty with
        | none => rw [hb] at h1; cases h1
        | some t =>
          rw [hb] at h1
          exact ⟨t, rfl, (packScalar_iff _ _).mp ⟨b, h1⟩, by rw [← h2]; exact packScalar_length h1⟩
      · rintro (⟨h, _⟩ | ⟨h, _⟩ | ⟨t, h, h2, h3⟩)
        · exact absurd (hpc.mp h) hc
        · exact absurd (hpu.mp h) hu
        · obtain ⟨b, hb⟩ := (packScalar_iff _ _).mpr h2
          rw [h]
          exact ⟨b, hb, by rw [h3]; exact packScalar_length hb⟩

/-- bytes before the key -/
def contSize (c : Option Bool) : Nat :=
  match c with
  | none => 0
  | some _ => 1

theorem infoData_iff (ty k : Str) (v : Value) (c : Option Bool) (n : Nat) :
    (∃ b, infoData (ty ++ py! " " ++ k) v ty c = .ok b ∧ b.length = n) ↔
      utf8Size ty + 1 + utf8Size k < 256 ∧
        ∃ m, WrittenIn ty v m ∧ n = contSize c + 1 + (utf8Size ty + 1 + utf8Size k) + m := by
  have hl : (encStr (ty ++ py! " " ++ k)).length = utf8Size ty + 1 + utf8Size k := by
    show utf8Size _ = _
    rw [textSize_append, textSize_append]
    rfl
  unfold infoData
  dsimp only
  constructor
  · rintro ⟨b, hb, hn⟩
    obtain ⟨l, h1, hb⟩ := except_bind_ok.mp hb
    obtain ⟨x, h2, hb⟩ := except_bind_ok.mp hb
    obtain ⟨h3, rfl⟩ := packU_eq_ok h1
    injection hb with hb
    refine ⟨by rw [hl] at h3; exact h3, x.length, (infoValueBytes_iff _ _ _).mp ⟨x, h2, rfl⟩, ?_⟩
    rw [← hn, ← hb, List.length_append, List.length_append, List.length_append, hl, leEnc_length]
    cases c <;> rfl
  · rintro ⟨h1, m, h2, hn⟩
    obtain ⟨x, hx, hxl⟩ := (infoValueBytes_iff _ _ _).mpr h2
    refine ⟨_, except_bind_ok.mpr ⟨_, packU_ok (by rw [hl]; exact h1), except_bind_ok.mpr ⟨x, hx, rfl⟩⟩, ?_⟩
    rw [List.length_append, List.length_append, List.length_append, hl, leEnc_length, hn, hxl]
    cases c <;> rfl

theorem infoFrame_iff (ty k : Str) (v : Value) (c : Option Bool) {T : Nat} (hT : T < 256) :
    (∃ b, (infoData (ty ++ py! " " ++ k) v ty c >>= frame T) = .ok b) ↔ InfoFits (contSize c) ty k v := by
  rw [can_bind]
  unfold InfoFits
  constructor
  · rintro ⟨d, h1, h2⟩
    rw [can_frame hT] at h2
    obtain ⟨h3, m, h4, h5⟩ := (infoData_iff ty k v c d.length).mp ⟨d, h1, rfl⟩
    exact ⟨h3, m, h4, by omega⟩
  · rintro ⟨h3, m, h4, h5⟩
    obtain ⟨d, h1, h2⟩ := (infoData_iff ty k v c _).mpr ⟨h3, m, h4, rfl⟩
    exact ⟨d, h1, (can_frame hT).mpr (by omega)⟩

theorem writeInfos_iff (u : ULog) : (∃ b, writeInfos u = .ok b) ↔
    ∀ p ∈ u.info, ∃ ty, u.infoTypes.get? p.1 = some ty ∧ InfoFits 0 ty p.1 p.2 := by
  unfold writeInfos
  rw [concatM_iff]
  refine forall_congr' fun p => forall_congr' fun hp => ?_
  dsimp only
  cases hg : u.infoTypes.get? p.1 with
  | none => exact ⟨fun ⟨_, h⟩ => (by cases h), fun ⟨_, h, _⟩ => (by cases h)⟩
  | some ty =>
    refine (infoFrame_iff ty p.1 p.2 none (by decide)).trans ⟨fun h => ⟨ty, rfl, h⟩, ?_⟩
    rintro ⟨ty', h1, h2⟩
    injection h1 with h1
    rw [h1]; exact h2

theorem writeValueSet_iff (ty k : Str) (c : Bool) (s : List Value) :
    (∃ b, writeValueSet (ty ++ py! " " ++ k) ty c s = .ok b) ↔ ∀ v ∈ s, InfoFits 1 ty k v := by
  induction s generalizing c with
  | nil => exact ⟨fun _ v hv => (by cases hv), fun _ => ⟨_, rfl⟩⟩
  | cons v s ih =>
    have hv := infoFrame_iff ty k v (some c) (T := MSG_TYPE_INFO_MULTIPLE) (by decide)
    rw [List.forall_mem_cons, ← ih true]
    constructor
    · rintro ⟨b, hb⟩
      unfold writeValueSet at hb
      obtain ⟨d, h1, hb⟩ := except_bind_ok.mp hb
      obtain ⟨m, h2, hb⟩ := except_bind_ok.mp hb
      obtain ⟨r, h3, hb⟩ := except_bind_ok.mp hb
      exact ⟨hv.mp ⟨m, except_bind_ok.mpr ⟨d, h1, h2⟩⟩, r, h3⟩
    · rintro ⟨h1, r, hr⟩
      obtain ⟨m, hm⟩ := hv.mpr h1
      obtain ⟨d, h1, h2⟩ := except_bind_ok.mp hm
      unfold writeValueSet
      exact ⟨_, except_bind_ok.mpr ⟨d, h1, except_bind_ok.mpr ⟨m, h2, except_bind_ok.mpr ⟨r, hr, rfl⟩⟩⟩⟩

theorem writeInfoMulti_iff (u : ULog) : (∃ b, writeInfoMulti u = .ok b) ↔
    ∀ p ∈ u.infoMulti, ∃ ty, u.infoMultiTypes.get? p.1 = some ty ∧
      ∀ s ∈ p.2, ∀ v ∈ s, InfoFits 1 ty p.1 v := by
  unfold writeInfoMulti
  rw [concatM_iff]
  refine forall_congr' fun p => forall_congr' fun hp => ?_
  dsimp only
  cases hg : u.infoMultiTypes.get? p.1 with
  | none => exact ⟨fun ⟨_, h⟩ => (by cases h), fun ⟨_, h, _⟩ => (by cases h)⟩
  | some ty =>
    dsimp only
    rw [concatM_iff]
    constructor
    · intro h
      exact ⟨ty, rfl, fun s hs => (writeValueSet_iff ty p.1 false s).mp (h s hs)⟩
    · rintro ⟨ty', h1, h2⟩ s hs
      injection h1 with h1
      subst h1
      exact (writeValueSet_iff ty p.1 false s).mpr (h2 s hs)

theorem writtenIn_int (v : Value) (n : Nat) : WrittenIn (py! "int32_t") v n ↔ Holds .i32 v ∧ n = 4 := by
  unfold WrittenIn
  constructor
  · rintro (⟨h, _⟩ | ⟨h, _⟩ | ⟨t, h, h1, h2⟩)
    · exact absurd h (by decide)
    · exact absurd h (by decide)
    · have : t = .i32 := Option.some.inj (h.symm.trans (by decide))
      subst this
      exact ⟨h1, h2⟩
  · rintro ⟨h1, h2⟩
    exact Or.inr (Or.inr ⟨.i32, by decide, h1, h2⟩)

theorem writtenIn_float (v : Value) (n : Nat) : WrittenIn (py! "float") v n ↔ Holds .f32 v ∧ n = 4 := by
  unfold WrittenIn
  constructor
  · rintro (⟨h, _⟩ | ⟨h, _⟩ | ⟨t, h, h1, h2⟩)
    · exact absurd h (by decide)
    · exact absurd h (by decide)
    · have : t = .f32 := Option.some.inj (h.symm.trans (by decide))
      subst this
      exact ⟨h1, h2⟩
  · rintro ⟨h1, h2⟩
    exact Or.inr (Or.inr ⟨.f32, by decide, h1, h2⟩)

theorem paramData_iff (k : Str) (v : Value) :
    (∃ d, paramData k v = .ok d ∧ d.length < 300) ↔ ParamFits k v := by
  have hi : utf8Size (py! "int32_t") = 7 := by decide
  have hf : utf8Size (py! "float") = 5 := by decide
  cases v with
  | int n =>
    show (∃ d, infoData (py! "int32_t" ++ py! " " ++ k) (.int n) (py! "int32_t") none = .ok d ∧ _) ↔
      Within .i32 n ∧ utf8Size k < 248
    constructor
    · rintro ⟨d, h, _⟩
      obtain ⟨h1, m, h2, h3⟩ := (infoData_iff _ _ _ _ d.length).mp ⟨d, h, rfl⟩
      exact ⟨((writtenIn_int _ _).mp h2).1, by omega⟩
    · rintro ⟨h1, h2⟩
      obtain ⟨d, h3, h4⟩ := (infoData_iff (py! "int32_t") k (.int n) none _).mpr
        ⟨by omega, 4, (writtenIn_int _ _).mpr ⟨h1, rfl⟩, rfl⟩
      exact ⟨d, h3, by rw [h4]; simp only [contSize]; omega⟩
  | bool b =>
    show (∃ d, infoData (py! "int32_t" ++ py! " " ++ k) (.bool b) (py! "int32_t") none = .ok d ∧ _) ↔
      utf8Size k < 248
    constructor
    · rintro ⟨d, h, _⟩
      obtain ⟨h1, m, h2, h3⟩ := (infoData_iff _ _ _ _ d.length).mp ⟨d, h, rfl⟩
      omega
    · intro h2
      obtain ⟨d, h3, h4⟩ := (infoData_iff (py! "int32_t") k (.bool b) none _).mpr
        ⟨by omega, 4, (writtenIn_int _ _).mpr ⟨trivial, rfl⟩, rfl⟩
      exact ⟨d, h3, by rw [h4]; simp only [contSize]; omega⟩
  | float x =>
    show (∃ d, infoData (py! "float" ++ py! " " ++ k) (.float x) (py! "float") none = .ok d ∧ _) ↔
      FitsFloat x ∧ utf8Size k < 250
    constructor
    · rintro ⟨d, h, _⟩
      obtain ⟨h1, m, h2, h3⟩ := (infoData_iff _ _ _ _ d.length).mp ⟨d, h, rfl⟩
      exact ⟨((writtenIn_float _ _).mp h2).1, by omega⟩
    · rintro ⟨h1, h2⟩
      obtain ⟨d, h3, h4⟩ := (infoData_iff (py! "float") k (.float x) none _).mpr
        ⟨by omega, 4, (writtenIn_float _ _).mpr ⟨h1, rfl⟩, rfl⟩
      exact ⟨d, h3, by rw [h4]; simp only [contSize]; omega⟩
  | str s => exact ⟨fun ⟨_, h, _⟩ => (by cases h), fun h => False.elim h⟩
  | bytes s => exact ⟨fun ⟨_, h, _⟩ => (by cases h), fun h => False.elim h⟩

theorem paramData_short {k : Str} {v : Value} {d : Bytes} (h : paramData k v = .ok d) : d.length < 300 := by
  have key : ∀ ty v', (utf8Size ty + 1 + utf8Size k < 256 → ∀ m, WrittenIn ty v' m → m = 4) →
      infoData (ty ++ py! " " ++ k) v' ty none = .ok d → d.length < 300 := by
    intro ty v' hm hd
    obtain ⟨h1, m, h2, h3⟩ := (infoData_iff _ _ _ _ d.length).mp ⟨d, hd, rfl⟩
    have := hm h1 m h2
    simp only [contSize] at h3
    omega
  cases v with
  | int n => exact key (py! "int32_t") _ (fun _ m h => ((writtenIn_int _ _).mp h).2) h
  | bool n => exact key (py! "int32_t") _ (fun _ m h => ((writtenIn_int _ _).mp h).2) h
  | float n => exact key (py! "float") _ (fun _ m h => ((writtenIn_float _ _).mp h).2) h
  | str s => cases h
  | bytes s => cases h

theorem paramData_can (k : Str) (v : Value) : (∃ d, paramData k v = .ok d) ↔ ParamFits k v := by
  rw [← paramData_iff]
  exact ⟨fun ⟨d, h⟩ => ⟨d, h, paramData_short h⟩, fun ⟨d, h, _⟩ => ⟨d, h⟩⟩

theorem writeInitial_iff (u : ULog) : (∃ b, writeInitialParams u = .ok b) ↔
    ∀ p ∈ u.initialParams, ParamFits p.1 p.2 := by
  unfold writeInitialParams
  rw [concatM_iff]
  refine forall_congr' fun p => forall_congr' fun hp => ?_
  rw [← paramData_can]
  constructor
  · intro h
    obtain ⟨d, hd, _⟩ := can_bind.mp h
    exact ⟨d, hd⟩
  · rintro ⟨d, hd⟩
    have := paramData_short hd
    exact can_bind.mpr ⟨d, hd, (can_frame (by decide)).mpr (by omega)⟩

theorem shift_lt (bit : Nat) : 1 <<< bit < 256 ^ 1 ↔ bit < 8 := by
  rw [Nat.one_shiftLeft]
  exact Nat.pow_lt_pow_iff_right (n := bit) (m := 8) (by decide)

theorem writeDefault_iff (u : ULog) : (∃ b, writeDefaultParams u = .ok b) ↔
    ∀ p ∈ u.defaultParams, ∀ q ∈ p.2, p.1 < 8 ∧ ParamFits q.1 q.2 := by
  unfold writeDefaultParams
  rw [concatM_iff]
  refine forall_congr' fun p => forall_congr' fun hp => ?_
  dsimp only
  rw [concatM_iff]
  refine forall_congr' fun q => forall_congr' fun hq => ?_
  rw [can_pack, shift_lt, ← paramData_can]
  refine and_congr Iff.rfl ?_
  constructor
  · intro h
    obtain ⟨d, hd, _⟩ := can_bind.mp h
    exact ⟨d, hd⟩
  · rintro ⟨d, hd⟩
    have := paramData_short hd
    refine can_bind.mpr ⟨d, hd, (can_frame (by decide)).mpr ?_⟩
    rw [List.length_append, leEnc_length]
    omega

theorem writeSubs_iff (u : ULog) : (∃ b, writeSubs u = .ok b) ↔
    ∀ d ∈ u.dataList, d.multiId < 2 ^ 8 ∧ d.msgId < 2 ^ 16 ∧ utf8Size d.name + 3 < 65536 := by
  unfold writeSubs
  rw [concatM_iff]
  refine forall_congr' fun d => ?_
  rw [show d ∈ byMsgId u.dataList ↔ d ∈ u.dataList from mem_ssort _ _ _]
  refine forall_congr' fun hd => ?_
  rw [can_pack, can_pack, can_frame (by decide), List.length_append, List.length_append, leEnc_length,
    leEnc_length]
  refine and_congr Iff.rfl (and_congr Iff.rfl ?_)
  show 1 + 2 + utf8Size d.name < 65536 ↔ _
  omega

theorem pyIndex_some {α : Type} {l : List α} {i : Nat} {x : α} : pyIndex l i = .ok x ↔ l[i]? = some x := by
  unfold pyIndex
  cases l[i]? with
  | none => constructor <;> intro h <;> cases h
  | some y =>
    constructor
    · intro h; injection h with h; rw [h]
    · intro h; injection h with h; rw [h]

theorem sampleBytes_iff (d : Dataset) (i n : Nat) :
    (∃ b, sampleBytes d i = .ok b ∧ b.length = n) ↔
      (∀ f ∈ d.fields, ∃ v, cell d f.name i = some v ∧ HoldsNp f.type v) ∧ n = rowSize d.fields := by
  have each : ∀ f : FieldData, ∀ m, (∃ b, (match d.data.get? f.name with
      | none => Except.error PyErr.keyError
      | some col => (do
        let v ← pyIndex col i
        packNp f.type v : Except PyErr Bytes)) = .ok b ∧ b.length = m) ↔
      (∃ v, cell d f.name i = some v ∧ HoldsNp f.type v) ∧ m = width f.type := by
    intro f m
    unfold cell
    cases hg : d.data.get? f.name with
    | none => exact ⟨fun ⟨_, h, _⟩ => (by cases h), fun ⟨⟨_, h, _⟩, _⟩ => (by cases h)⟩
    | some col =>
      dsimp only [Option.bind]
      constructor
      · rintro ⟨b, hb, hl⟩
        obtain ⟨v, h1, h2⟩ := except_bind_ok.mp hb
        exact ⟨⟨v, pyIndex_some.mp h1, (packNp_iff _ _).mp ⟨b, h2⟩⟩, by rw [← hl]; exact packNp_length h2⟩
      · rintro ⟨⟨v, h1, h2⟩, hm⟩
        obtain ⟨b, hb⟩ := (packNp_iff _ _).mpr h2
        exact ⟨b, except_bind_ok.mpr ⟨v, pyIndex_some.mpr h1, hb⟩, by rw [hm]; exact packNp_length hb⟩
  unfold sampleBytes
  generalize hfs : d.fields = fs
  clear hfs
  induction fs generalizing n with
  | nil =>
    constructor
    · rintro ⟨b, hb, hl⟩
      injection hb with hb
      exact ⟨fun f hf => (by cases hf), by rw [← hl, ← hb]; rfl⟩
    · rintro ⟨_, h⟩
      exact ⟨[], rfl, h.symm⟩
  | cons f fs ih =>
    rw [List.map_cons]
    constructor
    · rintro ⟨b, hb, hl⟩
      obtain ⟨x, y, h1, h2, rfl⟩ := concatM_cons_ok.mp hb
      obtain ⟨k1, k2⟩ := (each f x.length).mp ⟨x, h1, rfl⟩
      obtain ⟨k3, k4⟩ := (ih y.length).mp ⟨y, h2, rfl⟩
      refine ⟨List.forall_mem_cons.mpr ⟨k1, k3⟩, ?_⟩
      rw [← hl, List.length_append, k2, k4]
      simp [rowSize]
    · rintro ⟨h1, hn⟩
      obtain ⟨k1, k3⟩ := List.forall_mem_cons.mp h1
      obtain ⟨x, hx, hxl⟩ := (each f (width f.type)).mpr ⟨k1, rfl⟩
      obtain ⟨y, hy, hyl⟩ := (ih (rowSize fs)).mpr ⟨k3, rfl⟩
      refine ⟨x ++ y, concatM_cons_ok.mpr ⟨x, y, hx, hy, rfl⟩, ?_⟩
      rw [hn, List.length_append, hxl, hyl]
      simp [rowSize]

theorem sampleItem_iff (d : Dataset) (i : Nat) (hid : d.msgId < 2 ^ 16)
    (ht : ∀ col, d.data.get? (py! "timestamp") = some col → ∀ v ∈ col, ∃ n, v = .int n) :
    (∃ x, sampleItem d i = .ok x) ↔ RowFits d i := by
  unfold sampleItem
  constructor
  · rintro ⟨x, hx⟩
    cases hg : d.data.get? (py! "timestamp") with
    | none => rw [hg] at hx; cases hx
    | some col =>
      rw [hg] at hx
      obtain ⟨v, h1, hx⟩ := except_bind_ok.mp hx
      obtain ⟨id, h2, hx⟩ := except_bind_ok.mp hx
      obtain ⟨b, h3, hx⟩ := except_bind_ok.mp hx
      obtain ⟨m, h4, hx⟩ := except_bind_ok.mp hx
      obtain ⟨_, rfl⟩ := packU_eq_ok h2
      obtain ⟨k1, k2⟩ := (sampleBytes_iff d i b.length).mp ⟨b, h3, rfl⟩
      have k3 := ((frame_ok_iff _ _ _).mp h4).2.1
      rw [List.length_append, leEnc_length] at k3
      exact ⟨⟨v, by unfold cell; rw [hg]; exact pyIndex_some.mp h1⟩, k1, by omega⟩
  · rintro ⟨⟨v, h1⟩, h2, h3⟩
    obtain ⟨b, hb, hbl⟩ := (sampleBytes_iff d i (rowSize d.fields)).mpr ⟨h2, rfl⟩
    unfold cell at h1
    cases hg : d.data.get? (py! "timestamp") with
    | none => rw [hg] at h1; cases h1
    | some col =>
      rw [hg] at h1
      have h1 : col[i]? = some v := h1
      obtain ⟨n, rfl⟩ := ht col hg v (List.mem_of_getElem? h1)
      obtain ⟨m, hm⟩ := frame_total (ty := MSG_TYPE_DATA) (d := leEnc 2 d.msgId ++ b) (by decide) (by
        rw [List.length_append, leEnc_length, hbl]; omega)
      exact ⟨(n, m), except_bind_ok.mpr ⟨_, pyIndex_some.mpr h1, except_bind_ok.mpr ⟨_, packU_ok hid,
        except_bind_ok.mpr ⟨b, hb, except_bind_ok.mpr ⟨m, hm, rfl⟩⟩⟩⟩⟩

theorem datasetItems_iff (d : Dataset) (hid : d.msgId < 2 ^ 16)
    (ht : ∀ col, d.data.get? (py! "timestamp") = some col → ∀ v ∈ col, ∃ n, v = .int n) :
    (∃ x, datasetItems d = .ok x) ↔ ∃ f rest col, d.fields = f :: rest ∧ d.data.get? f.name = some col ∧
      ∀ i < col.length, RowFits d i := by
  unfold datasetItems
  rw [can_bind]
  constructor
  · rintro ⟨f, h1, h2⟩
    have h1 := pyIndex_some.mp h1
    cases hf : d.fields with
    | nil => rw [hf] at h1; cases h1
    | cons f' rest =>
      rw [hf] at h1
      injection h1 with h1
      subst h1
      cases hg : d.data.get? f'.name with
      | none => rw [hg] at h2; obtain ⟨_, h2⟩ := h2; cases h2
      | some col =>
        rw [hg] at h2
        refine ⟨f', rest, col, rfl, hg, fun i hi => ?_⟩
        exact (sampleItem_iff d i hid ht).mp (mapM_can.mp h2 i (List.mem_range.mpr hi))
  · rintro ⟨f, rest, col, h1, h2, h3⟩
    refine ⟨f, pyIndex_some.mpr (by rw [h1]; rfl), ?_⟩
    rw [h2]
    exact mapM_can.mpr fun i hi => (sampleItem_iff d i hid ht).mpr (h3 i (List.mem_range.mp hi))

theorem loggedItem_iff (m : LogMsg) : (∃ x, loggedItem m = .ok x) ↔
    m.level < 2 ^ 8 ∧ m.ts < 2 ^ 64 ∧ utf8Size m.msg + 9 < 65536 := by
  unfold loggedItem
  rw [can_pack, can_pack, can_frame_bind (by decide), List.length_append, List.length_append, leEnc_length,
    leEnc_length]
  refine and_congr Iff.rfl (and_congr Iff.rfl ?_)
  show 1 + 8 + utf8Size m.msg < 65536 ↔ _
  omega

theorem taggedItem_iff (m : TagMsg) : (∃ x, taggedItem m = .ok x) ↔
    m.level < 2 ^ 8 ∧ m.tag < 2 ^ 16 ∧ m.ts < 2 ^ 64 ∧ utf8Size m.msg + 11 < 65536 := by
  unfold taggedItem
  rw [can_pack, can_pack, can_pack, can_frame_bind (by decide), List.length_append, List.length_append,
    List.length_append, leEnc_length, leEnc_length, leEnc_length]
  refine and_congr Iff.rfl (and_congr Iff.rfl (and_congr Iff.rfl ?_))
  show 1 + 2 + 8 + utf8Size m.msg < 65536 ↔ _
  omega

theorem dropoutItem_iff (m : Dropout) : (∃ x, dropoutItem m = .ok x) ↔ m.duration < 2 ^ 16 := by
  unfold dropoutItem
  rw [can_pack, can_frame_bind (by decide), leEnc_length]
  exact ⟨fun h => h.1, fun h => ⟨h, by decide⟩⟩

theorem changedItem_iff (p : Nat × Str × Value) : (∃ x, changedItem p = .ok x) ↔ ParamFits p.2.1 p.2.2 := by
  unfold changedItem
  rw [can_bind, ← paramData_can]
  constructor
  · rintro ⟨d, h, _⟩; exact ⟨d, h⟩
  · rintro ⟨d, h⟩
    have := paramData_short h
    exact ⟨d, h, (can_frame_bind (by decide)).mpr (by omega)⟩

theorem writeData_parts (u : ULog) : (∃ b, writeDataSection u = .ok b) ↔
    (∃ l, (byMsgId u.dataList).mapM datasetItems = .ok l) ∧ (∃ l, u.logged.mapM loggedItem = .ok l) ∧
      (∃ l, (u.tagged.map (·.2)).flatten.mapM taggedItem = .ok l) ∧ (∃ l, u.dropouts.mapM dropoutItem = .ok l) ∧
      ∃ l, u.changedParams.mapM changedItem = .ok l := by
  unfold writeDataSection allItems dataItems
  constructor
  · rintro ⟨b, hb⟩
    obtain ⟨items, hb, _⟩ := except_bind_ok.mp hb
    obtain ⟨a, h1, hb⟩ := except_bind_ok.mp hb
    obtain ⟨l, h1, _⟩ := except_bind_ok.mp h1
    obtain ⟨b, h2, hb⟩ := except_bind_ok.mp hb
    obtain ⟨c, h3, hb⟩ := except_bind_ok.mp hb
    obtain ⟨d, h4, hb⟩ := except_bind_ok.mp hb
    obtain ⟨e, h5, hb⟩ := except_bind_ok.mp hb
    exact ⟨⟨l, h1⟩, ⟨b, h2⟩, ⟨c, h3⟩, ⟨d, h4⟩, e, h5⟩
  · rintro ⟨⟨l, h1⟩, ⟨b, h2⟩, ⟨c, h3⟩, ⟨d, h4⟩, e, h5⟩
    exact ⟨_, except_bind_ok.mpr ⟨_, except_bind_ok.mpr ⟨_, except_bind_ok.mpr ⟨l, h1, rfl⟩,
      except_bind_ok.mpr ⟨b, h2, except_bind_ok.mpr ⟨c, h3, except_bind_ok.mpr ⟨d, h4,
        except_bind_ok.mpr ⟨e, h5, rfl⟩⟩⟩⟩⟩, rfl⟩⟩

theorem writeData_iff (u : ULog) (hid : ∀ d ∈ u.dataList, d.msgId < 2 ^ 16) (ht : IntegerTimes u) :
    (∃ b, writeDataSection u = .ok b) ↔
      (∀ d ∈ u.dataList, ∃ f rest col, d.fields = f :: rest ∧ d.data.get? f.name = some col ∧
        ∀ i < col.length, RowFits d i) ∧
      (∀ m ∈ u.logged, m.level < 2 ^ 8 ∧ m.ts < 2 ^ 64 ∧ utf8Size m.msg + 9 < 65536) ∧
      (∀ m ∈ (u.tagged.map (·.2)).flatten, m.level < 2 ^ 8 ∧ m.tag < 2 ^ 16 ∧ m.ts < 2 ^ 64 ∧
        utf8Size m.msg + 11 < 65536) ∧
      (∀ m ∈ u.dropouts, m.duration < 2 ^ 16) ∧
      (∀ p ∈ u.changedParams, ParamFits p.2.1 p.2.2) := by
  have hsets : (∃ l, (byMsgId u.dataList).mapM datasetItems = .ok l) ↔
      ∀ d ∈ u.dataList, ∃ f rest col, d.fields = f :: rest ∧ d.data.get? f.name = some col ∧
        ∀ i < col.length, RowFits d i := by
    rw [mapM_can]
    refine forall_congr' fun d => ?_
    rw [show d ∈ byMsgId u.dataList ↔ d ∈ u.dataList from mem_ssort _ _ _]
    exact forall_congr' fun hd => datasetItems_iff d (hid d hd) (ht d hd)
  have hlog : (∃ l, u.logged.mapM loggedItem = .ok l) ↔ _ :=
    mapM_can.trans (forall_congr' fun m => forall_congr' fun _ => loggedItem_iff m)
  have htag : (∃ l, (u.tagged.map (·.2)).flatten.mapM taggedItem = .ok l) ↔ _ :=
    mapM_can.trans (forall_congr' fun m => forall_congr' fun _ => taggedItem_iff m)
  have hdrop : (∃ l, u.dropouts.mapM dropoutItem = .ok l) ↔ _ :=
    mapM_can.trans (forall_congr' fun m => forall_congr' fun _ => dropoutItem_iff m)
  have hpar : (∃ l, u.changedParams.mapM changedItem = .ok l) ↔ _ :=
    mapM_can.trans (forall_congr' fun m => forall_congr' fun _ => changedItem_iff m)
  rw [← hsets, ← hlog, ← htag, ← hdrop, ← hpar]
  exact writeData_parts u

theorem writeUlog_parts (u : ULog) : (∃ b, writeUlog u = .ok b) ↔
    (∃ b, writeHeader u = .ok b) ∧ (∃ b, writeFlags u = .ok b) ∧ (∃ b, writeFormats u = .ok b) ∧
    (∃ b, writeInfos u = .ok b) ∧ (∃ b, writeInfoMulti u = .ok b) ∧ (∃ b, writeInitialParams u = .ok b) ∧
    (∃ b, writeDefaultParams u = .ok b) ∧ (∃ b, writeSubs u = .ok b) ∧ ∃ b, writeDataSection u = .ok b := by
  have h := concatM_iff (f := id) (l := [writeHeader u, writeFlags u, writeFormats u, writeInfos u,
    writeInfoMulti u, writeInitialParams u, writeDefaultParams u, writeSubs u, writeDataSection u])
  rw [List.map_id] at h
  refine Iff.trans h ?_
  simp only [List.forall_mem_cons, id]
  exact ⟨fun ⟨a, b, c, d, e, f, g, h, i, _⟩ => ⟨a, b, c, d, e, f, g, h, i⟩,
    fun ⟨a, b, c, d, e, f, g, h, i⟩ => ⟨a, b, c, d, e, f, g, h, i, fun _ h => (by cases h)⟩⟩

theorem canWrite_iff (u : ULog) (ht : IntegerTimes u) : (∃ b, writeUlog u = .ok b) ↔ CanWrite u := by
  rw [writeUlog_parts, writeHeader_iff, writeFlags_iff, writeFormats_iff, writeInfos_iff, writeInfoMulti_iff,
    writeInitial_iff, writeDefault_iff, writeSubs_iff]
  constructor
  · rintro ⟨⟨h1, h2⟩, ⟨h3, h4⟩, h5, h6, h7, h8, h9, h10, h11⟩
    obtain ⟨k1, k2, k3, k4, k5⟩ := (writeData_iff u (fun d hd => (h10 d hd).2.1) ht).mp h11
    exact ⟨h1, h2, h3, h4, h5, h6, h7, h8, h9, k5, h10, k1, k2, k3, k4⟩
  · intro h
    exact ⟨⟨h.version, h.start⟩, ⟨h.compat, h.incompat⟩, h.formats, h.info, h.multi, h.initial, h.defaults,
      h.subs, (writeData_iff u (fun d hd => (h.subs d hd).2.1) ht).mpr
        ⟨h.data, h.logged, h.tagged, h.dropouts, h.changed⟩⟩

end PyULog
