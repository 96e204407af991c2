import Verif.Lemmas.CanWrite
import Verif.Lemmas.Values
import Verif.Lemmas.Loaded
import Verif.Lemmas.DbRegular
import Verif.Props.Text
/-
What is read from a file fits into a file.
-/
namespace PyULog
open Spec

/-! ### decoded text is not longer than its bytes -/

theorem decIgnoreF_size (f : Nat) (b : Bytes) : (encStr (decIgnoreF f b)).length ≤ b.length := by
  induction f generalizing b with
  | zero => exact Nat.zero_le _
  | succ f ih =>
    cases b with
    | nil => exact Nat.zero_le _
    | cons x t =>
      rw [decIgnoreF]
      cases hd : dec1 x t with
      | char c r =>
        have hl := congrArg List.length (dec1_char hd)
        have := ih r
        show (encStr (c :: decIgnoreF f r)).length ≤ _
        rw [encStr, List.flatMap_cons, List.length_append]
        rw [List.length_append] at hl
        show (encChar c).length + (encStr (decIgnoreF f r)).length ≤ _
        omega
      | bad r =>
        obtain ⟨p, hp, _⟩ := dec1_bad hd
        have := ih r
        have hl := congrArg List.length hp
        rw [List.length_append] at hl
        rw [List.length_cons]
        show (encStr (decIgnoreF f r)).length ≤ _
        omega

theorem parseString_size {ign : Bool} {b : Bytes} {s : Str} (h : parseString ign b = .ok s) :
    utf8Size s ≤ b.length := by
  unfold parseString at h
  split at h
  · injection h with h
    rw [← h]
    exact decIgnoreF_size _ _
  · have := decStrictF_ok (Nat.le_refl _) h
    unfold utf8Size
    rw [this]
    exact Nat.le_refl _

theorem pySplit_cases (c : Char) (s : Str) :
    pySplit c s = [s] ∨ ∃ a t, s = a ++ c :: t ∧ pySplit c s = a :: pySplit c t := by
  induction s with
  | nil => exact Or.inl rfl
  | cons x xs ih =>
    rw [pySplit]
    split
    · rename_i hx
      exact Or.inr ⟨[], xs, by rw [hx]; rfl, rfl⟩
    · rcases ih with h | ⟨a, t, h1, h2⟩
      · rw [h]; exact Or.inl rfl
      · rw [h2]; exact Or.inr ⟨x :: a, t, by rw [h1]; rfl, rfl⟩

theorem pySplit_head_le (c : Char) (s : Str) {a : Str} (h : (pySplit c s)[0]? = some a) : utf8Size a ≤ utf8Size s := by
  rcases pySplit_cases c s with h1 | ⟨a', t, h1, h2⟩
  · rw [h1] at h; injection h with h; rw [← h]; exact Nat.le_refl _
  · rw [h2] at h; injection h with h
    rw [← h, h1, textSize_append]; omega

theorem typeKey_size {s ty k : Str} (h0 : (pySplit ' ' s)[0]? = some ty) (h1 : (pySplit ' ' s)[1]? = some k) :
    utf8Size ty + 1 + utf8Size k ≤ utf8Size s := by
  rcases pySplit_cases ' ' s with h | ⟨a, t, h, h2⟩
  · rw [h] at h1; cases h1
  · rw [h2] at h0 h1
    injection h0 with h0
    have := pySplit_head_le ' ' t (by simpa using h1)
    have e : utf8Size (' ' :: t) = 1 + utf8Size t := by
      show utf8Size ([' '] ++ t) = _
      rw [textSize_append]; rfl
    rw [h, textSize_append, e, ← h0]
    omega

/-! ### parsed values -/

theorem unpackScalar_holds {t : BT} {b : Bytes} {v : Value} (h : unpackScalar t b = .ok v) :
    Holds t v ∧ b.length = width t := by
  unfold unpackScalar at h
  split at h
  · cases h
  · rename_i hb
    have hb : b.length = t.size := Decidable.not_not.mp hb
    have hi := intFits_leNat hb
    refine ⟨?_, by rw [width_eq]; exact hb⟩
    cases t <;> injection h with h <;> subst h
    case f32 => exact widen_fits _
    case f64 => trivial
    case bool => trivial
    case char => exact hb
    all_goals exact (within_iff rfl _).mpr hi

theorem parseInfo_parts {ign : Bool} {d : Bytes} {m : InfoMsg} (h : parseInfo ign d = .ok m) :
    ∃ keyLen, keyLen < 256 ∧ 1 ≤ d.length ∧ utf8Size m.type + 1 + utf8Size m.key ≤ (slice 1 (1 + keyLen) d).length ∧
      parseInfoValue ign m.type (d.drop (1 + keyLen)) = .ok m.value := by
  unfold parseInfo at h
  obtain ⟨keyLen, h1, h⟩ := except_bind_ok.mp h
  obtain ⟨tk, h2, h⟩ := except_bind_ok.mp h
  dsimp only at h
  obtain ⟨type, h3, h⟩ := except_bind_ok.mp h
  obtain ⟨key, h4, h⟩ := except_bind_ok.mp h
  obtain ⟨value, h5, h⟩ := except_bind_ok.mp h
  injection h with h
  subst h
  obtain ⟨k1, k2⟩ := unpackU_eq_ok h1
  have k3 := leNat_lt (slice 0 1 d)
  rw [k1, ← k2] at k3
  have k4 : 1 ≤ d.length := by
    rw [← k1]; unfold slice
    rw [List.length_drop, List.length_take]; omega
  exact ⟨keyLen, k3, k4, Nat.le_trans (typeKey_size (pyIndex_some.mp h3) (pyIndex_some.mp h4)) (parseString_size h2), h5⟩

theorem parseInfo_fits {ign : Bool} {d : Bytes} {m : InfoMsg} (h : parseInfo ign d = .ok m)
    (hd : d.length < 65536) (hw : WritableType m.type) : InfoFits 0 m.type m.key m.value := by
  obtain ⟨keyLen, h1, h2, h3, h4⟩ := parseInfo_parts h
  have hs : (slice 1 (1 + keyLen) d).length = min (1 + keyLen) d.length - 1 := by
    unfold slice; rw [List.length_drop, List.length_take]
  have hr : (d.drop (1 + keyLen)).length = d.length - (1 + keyLen) := List.length_drop ..
  have hpc : (py! "char[" <+: m.type) ↔ startsWith (py! "char[") m.type = true := List.isPrefixOf_iff_prefix.symm
  have hsize : ∃ n, WrittenIn m.type m.value n ∧ n ≤ (d.drop (1 + keyLen)).length := by
    unfold parseInfoValue at h4
    by_cases hc : startsWith (py! "char[") m.type = true
    · rw [if_pos hc] at h4
      cases hp : parseString ign (d.drop (1 + keyLen)) with
      | error e => rw [hp] at h4; cases h4
      | ok s =>
        rw [hp] at h4
        injection h4 with h4
        exact ⟨utf8Size s, Or.inl ⟨hpc.mpr hc, s, h4.symm, rfl⟩, parseString_size hp⟩
    · rw [if_neg hc] at h4
      rcases hw with hw | hw | ⟨t, hw⟩
      · exact absurd (hpc.mp hw) hc
      · have hn : BT.ofName m.type = none := ofName_uint8arr (List.isPrefixOf_iff_prefix.mpr hw)
        rw [hn] at h4
        injection h4 with h4
        exact ⟨_, Or.inr (Or.inl ⟨hw, Or.inl ⟨_, h4.symm, rfl⟩⟩), Nat.le_refl _⟩
      · rw [basicType_eq] at hw
        rw [hw] at h4
        obtain ⟨k1, k2⟩ := unpackScalar_holds h4
        exact ⟨width t, Or.inr (Or.inr ⟨t, by rw [basicType_eq]; exact hw, k1, rfl⟩), Nat.le_of_eq k2.symm⟩
  obtain ⟨n, k1, k2⟩ := hsize
  exact ⟨by omega, n, k1, by omega⟩

theorem infoFits_writable {n : Nat} {ty k : Str} {v : Value} (h : InfoFits n ty k v) : WritableType ty := by
  obtain ⟨_, m, h | h | ⟨t, h, _⟩, _⟩ := h
  · exact Or.inl h.1
  · exact Or.inr (Or.inl h.1)
  · exact Or.inr (Or.inr ⟨t, h⟩)

/-! ### payloads -/

theorem payload_short (bs : Bytes) (p q : Nat) : ((bs.drop p).take (leAt bs q 2)).length < 65536 := by
  have := leAt_lt bs q 2
  rw [List.length_take]
  have e : (256 : Nat) ^ 2 = 65536 := rfl
  omega

theorem dataTrace_short (cfg : Cfg) (bs : Bytes) (ru n : Nat) (s : RS) :
    ∀ x ∈ dataTrace cfg bs ru n s, x.2.2.length < 65536 := by
  induction n generalizing s with
  | zero => intro x hx; cases hx
  | succ n ih =>
    intro x hx
    rw [dataTrace] at hx
    rcases List.mem_append.mp hx with hx | hx
    · unfold msgAt at hx
      split at hx
      · rw [List.mem_singleton] at hx
        rw [hx]; exact payload_short _ _ _
      · cases hx
    · split at hx
      · exact ih _ x hx
      · cases hx

theorem defsTrace_short (cfg : Cfg) (bs : Bytes) (n : Nat) (s : RS) :
    ∀ x ∈ defsTrace cfg bs n s, x.2.2.length < 65536 := by
  induction n generalizing s with
  | zero => intro x hx; cases hx
  | succ n ih =>
    intro x hx
    rw [defsTrace] at hx
    rcases List.mem_append.mp hx with hx | hx
    · unfold defAt at hx
      split at hx
      · rw [List.mem_singleton] at hx
        rw [hx]; exact payload_short _ _ _
      · cases hx
    · split at hx
      · exact ih _ x hx
      · cases hx

theorem sectionsTrace_short (cfg : Cfg) (bs : Bytes) (offs : List Nat) (pos : Nat) (u : ULog) :
    ∀ t ∈ sectionsTrace cfg bs offs pos u, ∀ x ∈ t, x.2.2.length < 65536 := by
  induction offs generalizing pos u with
  | nil =>
    intro t ht
    rw [sectionsTrace, List.mem_singleton] at ht
    rw [ht]; exact dataTrace_short _ _ _ _ _
  | cons off offs ih =>
    intro t ht
    rw [sectionsTrace] at ht
    rcases List.mem_cons.mp ht with ht | ht
    · rw [ht]; exact dataTrace_short _ _ _ _ _
    · split at ht
      · exact ih _ _ t ht
      · cases ht

theorem fileTrace_short (fuel : Nat) (cfg : Cfg) (bs : Bytes) :
    ∀ t ∈ fileTrace fuel cfg bs, ∀ x ∈ t, x.2.2.length < 65536 := by
  intro t ht
  unfold fileTrace at ht
  split at ht
  · cases ht
  · split at ht
    · cases ht
    · exact sectionsTrace_short _ _ _ _ _ t ht

theorem defTrace_short (fuel : Nat) (cfg : Cfg) (bs : Bytes) :
    ∀ x ∈ defTrace fuel cfg bs, x.2.2.length < 65536 := by
  intro x hx
  unfold defTrace at hx
  split at hx
  · cases hx
  · exact defsTrace_short _ _ _ _ x hx

/-! ### the parts that always fit -/

/-- sizes of what was read -/
structure ReadSizes (u : ULog) : Prop where
  version : u.fileVersion < 256
  start : u.startTs < 2 ^ 64
  compat : u.compat.length = 8 ∧ ∀ x ∈ u.compat, x < 256
  incompat : u.incompat.length = 8 ∧ ∀ x ∈ u.incompat, x < 256
  info : ∀ k v, u.info.get? k = some v → ∃ ty, u.infoTypes.get? k = some ty ∧ utf8Size ty + 1 + utf8Size k < 256 ∧
    (WritableType ty → InfoFits 0 ty k v)
  logged : ∀ m ∈ u.logged, m.level < 2 ^ 8 ∧ m.ts < 2 ^ 64 ∧ utf8Size m.msg + 9 < 65536
  tagged : ∀ p ∈ u.tagged, ∀ m ∈ p.2, m.level < 2 ^ 8 ∧ m.tag < 2 ^ 16 ∧ m.ts < 2 ^ 64 ∧
    utf8Size m.msg + 11 < 65536
  dropouts : ∀ m ∈ u.dropouts, m.duration < 2 ^ 16

/-- the attributes of `ReadSizes` -/
def sizesOf (u : ULog) :=
  (u.fileVersion, u.startTs, u.compat, u.incompat, u.info, u.infoTypes, u.logged, u.tagged, u.dropouts)

theorem ReadSizes.of_eq {u v : ULog} (h : ReadSizes u) (he : sizesOf v = sizesOf u) : ReadSizes v := by
  unfold sizesOf at he
  injection he with h1 he
  injection he with h2 he
  injection he with h3 he
  injection he with h4 he
  injection he with h5 he
  injection he with h6 he
  injection he with h7 he
  injection he with h8 h9
  exact ⟨h1 ▸ h.version, h2 ▸ h.start, h3 ▸ h.compat, h4 ▸ h.incompat, h5 ▸ h6 ▸ h.info, h7 ▸ h.logged,
    h8 ▸ h.tagged, h9 ▸ h.dropouts⟩

theorem bind_sizes {α : Type} {u : ULog} (h : ReadSizes u) {r : Except PyErr α} {f : α → ULog}
    (hf : ∀ a, r = .ok a → ReadSizes (f a)) : ReadSizes (Out.bind r u f).state := by
  cases r with
  | error e => exact h
  | ok a => exact hf a rfl

theorem addInfo_sizes {u : ULog} (h : ReadSizes u) {ign : Bool} {d : Bytes} {m : InfoMsg}
    (hm : parseInfo ign d = .ok m) (hd : d.length < 65536) : ReadSizes (addInfo u m) := by
  refine { h with info := ?_ }
  intro k v hk
  have hk : (u.info.set m.key m.value).get? k = some v := hk
  show ∃ ty, (u.infoTypes.set m.key m.type).get? k = some ty ∧ _
  by_cases he : m.key = k
  · subst he
    rw [Dict.get?_set_self] at hk ⊢
    injection hk with hk
    subst hk
    obtain ⟨keyLen, h1, _, h3, _⟩ := parseInfo_parts hm
    have hs : (slice 1 (1 + keyLen) d).length = min (1 + keyLen) d.length - 1 := by
      unfold slice; rw [List.length_drop, List.length_take]
    exact ⟨m.type, rfl, by omega, fun hw => parseInfo_fits hm hd hw⟩
  · rw [Dict.get?_set_ne _ _ he] at hk ⊢
    exact h.info k v hk

theorem unpackU_lt {n v : Nat} {b : Bytes} (h : unpackU n b = .ok v) : v < 256 ^ n := by
  obtain ⟨h1, h2⟩ := unpackU_eq_ok h
  have := leNat_lt b
  rw [h1] at this
  rw [h2]; exact this

theorem unpackU_slice {n v a e : Nat} {b : Bytes} (h : unpackU n (slice a e b) = .ok v) : n + a ≤ b.length ∨ n = 0 := by
  obtain ⟨h1, _⟩ := unpackU_eq_ok h
  unfold slice at h1
  rw [List.length_drop, List.length_take] at h1
  omega

theorem parseLogging_sizes {ign : Bool} {d : Bytes} {m : LogMsg} (h : parseLogging ign d = .ok m)
    (hd : d.length < 65536) : m.level < 2 ^ 8 ∧ m.ts < 2 ^ 64 ∧ utf8Size m.msg + 9 < 65536 := by
  unfold parseLogging at h
  obtain ⟨l, h1, h⟩ := except_bind_ok.mp h
  obtain ⟨t, h2, h⟩ := except_bind_ok.mp h
  obtain ⟨s, h3, h⟩ := except_bind_ok.mp h
  injection h with h
  subst h
  have k := parseString_size h3
  rw [List.length_drop] at k
  have k2 := unpackU_slice h2
  exact ⟨unpackU_lt h1, unpackU_lt h2, by show utf8Size s + 9 < _; omega⟩

theorem parseLoggingTagged_sizes {ign : Bool} {d : Bytes} {m : TagMsg} (h : parseLoggingTagged ign d = .ok m)
    (hd : d.length < 65536) : m.level < 2 ^ 8 ∧ m.tag < 2 ^ 16 ∧ m.ts < 2 ^ 64 ∧ utf8Size m.msg + 11 < 65536 := by
  unfold parseLoggingTagged at h
  obtain ⟨l, h1, h⟩ := except_bind_ok.mp h
  obtain ⟨g, h4, h⟩ := except_bind_ok.mp h
  obtain ⟨t, h2, h⟩ := except_bind_ok.mp h
  obtain ⟨s, h3, h⟩ := except_bind_ok.mp h
  injection h with h
  subst h
  have k := parseString_size h3
  rw [List.length_drop] at k
  have k2 := unpackU_slice h2
  exact ⟨unpackU_lt h1, unpackU_lt h4, unpackU_lt h2, by show utf8Size s + 11 < _; omega⟩

theorem handleData_sizes {cfg : Cfg} {u : ULog} {ty : Nat} {d : Bytes} {o : Out} (hd : d.length < 65536)
    (hu : ReadSizes u) (h : handleData cfg u ty d = some o) : ReadSizes o.state := by
  by_cases hI : ty = tyI
  · subst hI
    rw [show tyI = MSG_TYPE_INFO from rfl, handleData_I] at h
    cases h
    exact bind_sizes hu fun m hm => addInfo_sizes hu hm hd
  by_cases hL : ty = tyL
  · subst hL
    rw [show tyL = MSG_TYPE_LOGGING from rfl, handleData_L] at h
    cases h
    refine bind_sizes hu fun m hm => { hu with logged := ?_ }
    intro x hx
    rcases List.mem_append.mp hx with hx | hx
    · exact hu.logged x hx
    · rw [List.mem_singleton] at hx
      rw [hx]; exact parseLogging_sizes hm hd
  by_cases hC : ty = tyC
  · subst hC
    rw [show tyC = MSG_TYPE_LOGGING_TAGGED from rfl, handleData_C] at h
    cases h
    refine bind_sizes hu fun m hm => { hu with tagged := ?_ }
    refine set_all (Q := fun l : List TagMsg => ∀ m ∈ l, m.level < 2 ^ 8 ∧ m.tag < 2 ^ 16 ∧ m.ts < 2 ^ 64 ∧
      utf8Size m.msg + 11 < 65536) hu.tagged ?_
    intro x hx
    rcases List.mem_append.mp hx with hx | hx
    · exact getD_all (Q := fun l : List TagMsg => ∀ m ∈ l, m.level < 2 ^ 8 ∧ m.tag < 2 ^ 16 ∧ m.ts < 2 ^ 64 ∧
        utf8Size m.msg + 11 < 65536) hu.tagged (fun x hx => (List.not_mem_nil hx).elim) x hx
    · rw [List.mem_singleton] at hx
      rw [hx]; exact parseLoggingTagged_sizes hm hd
  by_cases hO : ty = tyO
  · subst hO
    rw [show tyO = MSG_TYPE_DROPOUT from rfl, handleData_O] at h
    cases h
    refine bind_sizes hu fun m hm => { hu with dropouts := ?_ }
    intro x hx
    rcases List.mem_append.mp hx with hx | hx
    · exact hu.dropouts x hx
    · rw [List.mem_singleton] at hx
      rw [hx]
      unfold parseDropout at hm
      obtain ⟨n, h1, hm⟩ := except_bind_ok.mp hm
      injection hm with hm
      subst hm
      exact unpackU_lt h1
  exact hu.of_eq (handleData_frame sizesOf h (hI := fun e => absurd e hI) (hL := fun e => absurd e hL)
    (hC := fun e => absurd e hC) (hO := fun e => absurd e hO))

theorem unpackBytes_ok {n : Nat} {b : Bytes} {l : List Nat} (h : unpackBytes n b = .ok l) :
    l.length = n ∧ ∀ x ∈ l, x < 256 := by
  unfold unpackBytes at h
  split at h
  · injection h with h
    subst h
    refine ⟨by rw [List.length_map]; assumption, fun x hx => ?_⟩
    obtain ⟨y, _, rfl⟩ := List.mem_map.mp hx
    exact UInt8.toNat_lt _
  · cases h

theorem handleDef_sizes {cfg : Cfg} {u : ULog} {ty : Nat} {d : Bytes} {o : Out} (hd : d.length < 65536)
    (hu : ReadSizes u) (h : handleDef cfg u ty d = some o) : ReadSizes o.state := by
  by_cases hI : ty = tyI
  · subst hI
    rw [show tyI = MSG_TYPE_INFO from rfl, handleDef_I] at h
    cases h
    exact bind_sizes hu fun m hm => addInfo_sizes hu hm hd
  by_cases hB : ty = tyB
  · subst hB
    rw [show tyB = MSG_TYPE_FLAG_BITS from rfl, handleDef_B] at h
    cases h
    cases hp : parseFlagBits d with
    | error e => exact hu
    | ok f =>
      unfold parseFlagBits at hp
      obtain ⟨c, h1, hp⟩ := except_bind_ok.mp hp
      obtain ⟨i, h2, hp⟩ := except_bind_ok.mp hp
      obtain ⟨q, h3, hp⟩ := except_bind_ok.mp hp
      injection hp with hp
      subst hp
      have hn : ReadSizes { u with compat := c, incompat := i, appendedOffsets := dropTrailingZeros q } :=
        { hu with compat := unpackBytes_ok h1, incompat := unpackBytes_ok h2 }
      show ReadSizes (applyFlagBits u _).state
      unfold applyFlagBits
      dsimp only
      split
      · exact hn
      · split <;> exact hn
  exact hu.of_eq (handleDef_frame sizesOf h (hI := fun e => absurd e hI) (hB := fun e => absurd e hB))

theorem load_sizes {fuel : Nat} {cfg : Cfg} {bs : Bytes} {u : ULog} (h : load fuel cfg bs = .ok u) : ReadSizes u := by
  have key := load_inv_all (P := fun t v => (∀ x ∈ t, x.2.2.length < 65536) → ReadSizes v)
    (fun t v c hh hp ht => (hp ht).of_eq rfl) (fun t v d hp ht => (hp ht).of_eq rfl)
    (fun t v ty d o hp hd ht => handleDef_sizes (ht (v, ty, d) (by simp)) (hp fun x hx => ht x (by simp [hx])) hd)
    (fun t v ty d o hp hd ht => handleData_sizes (ht (v, ty, d) (by simp)) (hp fun x hx => ht x (by simp [hx])) hd)
    ?_ h
  · apply key
    intro x hx
    rcases List.mem_append.mp hx with hx | hx
    · exact defTrace_short _ _ _ x hx
    · obtain ⟨t, ht, hx⟩ := List.mem_flatten.mp hx
      exact fileTrace_short _ _ _ t ht x hx
  intro v hv _
  unfold readHeader at hv
  dsimp only at hv
  split at hv
  · cases hv
  · rename_i h16
    have h16 : (readAt bs 0 16).length = 16 := Decidable.not_not.mp h16
    split at hv
    · cases hv
    · injection hv with hv
      subst hv
      have l1 := leNat_lt (slice 7 8 (readAt bs 0 16))
      have l2 := leNat_lt ((readAt bs 0 16).drop 8)
      have e1 : (slice 7 8 (readAt bs 0 16)).length = 1 := by
        unfold slice; rw [List.length_drop, List.length_take, h16]; rfl
      have e2 : ((readAt bs 0 16).drop 8).length = 8 := by rw [List.length_drop, h16]
      rw [e1] at l1
      rw [e2] at l2
      have h8 : (List.replicate 8 0).length = 8 ∧ ∀ x ∈ List.replicate 8 0, x < 256 := by decide
      exact ⟨l1, l2, h8, h8, fun k v hk => (by cases hk),
        fun p hp => (List.not_mem_nil hp).elim, fun p hp => (List.not_mem_nil hp).elim,
        fun p hp => (List.not_mem_nil hp).elim⟩

/-! ### datasets -/

theorem mem_lastSub {cfg : Cfg} {id : Nat} {t : List Tr} {tp : Topic} {post : List Tr}
    (h : lastSub cfg id t = some (tp, post)) : tp.msgId = id ∧ (∃ x ∈ t, subscribed cfg x = some tp) ∧
      ∀ x ∈ post, x ∈ t := by
  induction t with
  | nil => cases h
  | cons x xs ih =>
    unfold lastSub at h
    split at h
    · rename_i r hr
      injection h with h
      subst h
      obtain ⟨h1, ⟨y, h2, h3⟩, h4⟩ := ih hr
      exact ⟨h1, ⟨y, List.mem_cons_of_mem _ h2, h3⟩, fun z hz => List.mem_cons_of_mem _ (h4 z hz)⟩
    · split at h
      · rename_i tp' hs
        split at h
        · rename_i hid
          injection h with h
          injection h with h1 h2
          subst h1
          subst h2
          exact ⟨hid, ⟨x, List.mem_cons_self, hs⟩, fun z hz => List.mem_cons_of_mem _ hz⟩
        · cases h
      · cases h

theorem subscribed_sizes {cfg : Cfg} {x : Tr} {tp : Topic} (h : subscribed cfg x = some tp) (hx : x.2.2.length < 65536) :
    tp.multiId < 2 ^ 8 ∧ tp.msgId < 2 ^ 16 ∧ utf8Size tp.name + 3 < 65536 := by
  unfold subscribed at h
  split at h
  · rename_i hc
    split at h
    · cases h
    · rename_i name hn
      split at h
      · split at h
        · cases h
        · split at h
          · injection h with h
            subst h
            have := parseString_size (ok_of_toOption hn)
            rw [List.length_drop] at this
            exact ⟨UInt8.toNat_lt _, leAt_lt _ _ _, by show utf8Size name + 3 < _; omega⟩
          · cases h
      · cases h
  · cases h

theorem leAt_holds (t : BT) (b : Bytes) (off : Nat) (ht : t ≠ .char) : HoldsNp t (valueAt t b off) := by
  have l1 := leAt_lt b off 1
  have l2 := leAt_lt b off 2
  have l4 := leAt_lt b off 4
  have l8 := leAt_lt b off 8
  have s : ∀ bits v, 0 < bits → v < 2 ^ bits → -(2 : Int) ^ (bits - 1) ≤ signed bits v ∧ signed bits v < 2 ^ (bits - 1) := by
    intro bits v hb hv
    unfold signed
    have e : (2 : Nat) ^ bits = 2 * 2 ^ (bits - 1) := by
      rw [← Nat.pow_succ']; congr 1; omega
    have e' : (2 : Int) ^ bits = 2 * 2 ^ (bits - 1) := by exact_mod_cast e
    have c : ((2 ^ (bits - 1) : Nat) : Int) = 2 ^ (bits - 1) := by norm_cast
    rw [e] at hv
    rw [e', ← c]
    generalize 2 ^ (bits - 1) = P at *
    split <;> omega
  cases t
  case f32 => trivial
  case f64 => trivial
  case bool => trivial
  case char => exact absurd rfl ht
  case i8 => have := s 8 (leAt b off 1) (by decide) l1; exact ⟨_, rfl, by simp only; omega, by simp only; omega⟩
  case i16 => have := s 16 (leAt b off 2) (by decide) l2; exact ⟨_, rfl, by simp only; omega, by simp only; omega⟩
  case i32 => have := s 32 (leAt b off 4) (by decide) l4; exact ⟨_, rfl, by simp only; omega, by simp only; omega⟩
  case i64 => have := s 64 (leAt b off 8) (by decide) l8; exact ⟨_, rfl, by simp only; omega, by simp only; omega⟩
  case u8 => exact ⟨_, rfl, by simp only; omega, by simp only; omega⟩
  case u16 => exact ⟨_, rfl, by simp only; omega, by simp only; omega⟩
  case u32 => exact ⟨_, rfl, by simp only; omega, by simp only; omega⟩
  case u64 => exact ⟨_, rfl, by simp only; omega, by simp only; omega⟩

/-- what a dataset of a loaded log is -/
structure LoadedData (d : Dataset) : Prop where
  ids : d.multiId < 2 ^ 8 ∧ d.msgId < 2 ^ 16 ∧ utf8Size d.name + 3 < 65536
  size : rowSize d.fields + 2 < 65536
  first : ∃ f rest, d.fields = f :: rest
  rows : ∃ n, 0 < n ∧ (∀ c ∈ d.data, c.2.length = n) ∧ ∀ f ∈ d.fields, f.name ≠ [] → ∃ col, d.data.get? f.name = some col ∧ col.length = n ∧
    ∀ v ∈ col, if f.type = .char then ∃ k : Int, v = .int k ∧ k < 128 else HoldsNp f.type v
  named : ∀ k col, d.data.get? k = some col → ∃ (i : Nat) (f : FieldData), d.fields[i]? = some f ∧
    columnName i f.name = k ∧ ∀ v ∈ col, Typed f.type v
  unique : (columnNames d.fields).Nodup

theorem loaded_data {fuel : Nat} {cfg : Cfg} {bs : Bytes} {u : ULog} (h : load fuel cfg bs = .ok u) {d : Dataset}
    (hd : d ∈ u.dataList) : LoadedData d := by
  obtain ⟨hfo, -, hnd, -⟩ := loaded_dataset h hd
  obtain ⟨t, ht, tp, post, hl, hpos, hne, he⟩ := (C06_datasets h d).mp hd
  have hshort := fileTrace_short fuel cfg bs t ht
  obtain ⟨k1, ⟨x, hx, k2⟩, k3⟩ := mem_lastSub hl
  have hsz := subscribed_sizes k2 (hshort x hx)
  have hf : d.fields = tp.fields := by rw [he]; rfl
  have hdat : d.data = columnsOf tp.fields (post.filterMap (sampleOf d.msgId (rowSize tp.fields))) := by
    rw (occs := .pos [1]) [he]; rfl
  have hkeys : (Dict.keys d.data).Nodup := by
    show (d.data.map (·.1)).Nodup
    rw [show d.data.map (·.1) = columnNames d.fields from hfo]
    exact hnd
  refine ⟨?_, ?_, ?_, ⟨(post.filterMap (sampleOf d.msgId (rowSize tp.fields))).length, List.length_pos_iff.mpr hne, ?_, ?_⟩, ?_, hnd⟩
  · rw [he]; exact hsz
  · rw [hf]
    obtain ⟨b, hb⟩ := List.exists_mem_of_ne_nil _ hne
    obtain ⟨y, hy, hb⟩ := List.mem_filterMap.mp hb
    unfold sampleOf at hb
    split at hb
    · rename_i hc
      have := hshort y (k3 y hy)
      omega
    · cases hb
  · rw [hf]
    cases hfs : tp.fields with
    | nil => rw [hfs] at hpos; exact absurd hpos (by decide)
    | cons f rest => exact ⟨f, rest, rfl⟩
  · intro c hc
    rw [hdat] at hc
    obtain ⟨p, _, rfl⟩ := List.mem_map.mp hc
    simp
  · intro f hf' hfn
    rw [hf] at hf'
    obtain ⟨k, hk, rfl⟩ := List.mem_iff_getElem.mp hf'
    refine ⟨(post.filterMap (sampleOf d.msgId (rowSize tp.fields))).map fun b =>
      valueAt tp.fields[k].type b (rowSize (tp.fields.take k)), Dict.get?_of_mem _ _ _ hkeys ?_,
      by rw [List.length_map], ?_⟩
    · rw [hdat]
      exact List.mem_map.mpr ⟨(tp.fields[k], k), List.mem_zipIdx_iff_getElem?.mpr (List.getElem?_eq_getElem hk), by
        rw [columnName_named _ hfn]⟩
    · intro v hv
      obtain ⟨b, _, rfl⟩ := List.mem_map.mp hv
      split
      · rename_i hc
        rw [hc]
        refine ⟨_, rfl, ?_⟩
        unfold signed
        have := leAt_lt b (rowSize (tp.fields.take k)) 1
        split <;> omega
      · exact leAt_holds _ _ _ (by assumption)
  · intro k col hc
    have hm := Dict.mem_of_get? _ _ _ hc
    rw [hdat] at hm
    obtain ⟨⟨f, i⟩, h1, h2⟩ := List.mem_map.mp hm
    injection h2 with h2 h3
    subst h3
    rw [hf]
    refine ⟨i, f, List.mem_zipIdx_iff_getElem?.mp h1, h2, ?_⟩
    intro v hv
    obtain ⟨b, _, rfl⟩ := List.mem_map.mp hv
    exact valueAt_typed _ _ _

theorem LoadedData.time {d : Dataset} (h : LoadedData d) {col : List NpVal}
    (hc : d.data.get? (py! "timestamp") = some col) : ∃ f ∈ d.fields, f.name = py! "timestamp" := by
  obtain ⟨i, f, h1, h2, _⟩ := h.named _ _ hc
  exact ⟨f, List.mem_of_getElem? h1, columnName_of h2 (by decide)⟩

theorem loaded_rows {d : Dataset} (h : LoadedData d) (ht : ∃ f ∈ d.fields, f.name = py! "timestamp")
    (hnm : ∀ f ∈ d.fields, f.name ≠ [])
    (hc : ∀ f ∈ d.fields, f.type = .char → ∀ col, d.data.get? f.name = some col → ∀ v ∈ col, ∃ n : Nat, v = .int n) :
    ∃ f rest col, d.fields = f :: rest ∧ d.data.get? f.name = some col ∧ ∀ i < col.length, RowFits d i := by
  obtain ⟨n, hn, -, hrows'⟩ := h.rows
  have hrows := fun f hf => hrows' f hf (hnm f hf)
  obtain ⟨f, rest, hf⟩ := h.first
  obtain ⟨col, h1, h2, _⟩ := hrows f (by rw [hf]; exact List.mem_cons_self)
  have hcell : ∀ i < n, ∀ g ∈ d.fields, ∃ v, cell d g.name i = some v ∧ HoldsNp g.type v := by
    intro i hi g hg
    obtain ⟨c, k1, k2, k3⟩ := hrows g hg
    have hi' : i < c.length := by omega
    refine ⟨c[i], ?_, ?_⟩
    · unfold cell; rw [k1]; exact List.getElem?_eq_getElem hi'
    · have k4 := k3 c[i] (List.getElem_mem hi')
      split at k4
      · rename_i hch
        obtain ⟨k, e1, e2⟩ := k4
        obtain ⟨m, e3⟩ := hc g hg hch c k1 c[i] (List.getElem_mem hi')
        rw [hch, e3]
        rw [e1] at e3
        injection e3 with e3
        exact ⟨by omega, by omega⟩
      · exact k4
  refine ⟨f, rest, col, hf, h1, fun i hi => ⟨?_, hcell i (by omega), h.size⟩⟩
  obtain ⟨g, hg, hgn⟩ := ht
  obtain ⟨v, hv, _⟩ := hcell i (by omega) g hg
  rw [hgn] at hv
  exact ⟨v, hv⟩

theorem loaded_canWrite {fuel : Nat} {cfg : Cfg} {bs : Bytes} {u : ULog} (h : load fuel cfg bs = .ok u) :
    CanWrite u ↔ LoadedFits u := by
  have hs := load_sizes h
  have hd := load_dicts h
  have ha := load_aligned h
  constructor
  · intro hw
    have hrow : ∀ d ∈ u.dataList, ∃ n, 0 < n ∧ (∀ i < n, RowFits d i) ∧ ∀ c ∈ d.data, c.2.length = n := by
      intro d hdl
      obtain ⟨n, hn, hall, hrows⟩ := (loaded_data h hdl).rows
      obtain ⟨f, rest, col, h1, h2, h3⟩ := hw.data d hdl
      refine ⟨n, hn, ?_, hall⟩
      rw [← hall _ (Dict.mem_of_get? _ _ _ h2)]
      exact h3
    have hnm : ∀ d ∈ u.dataList, ∀ f ∈ d.fields, f.name ≠ [] := by
      intro d hdl f hf hn
      obtain ⟨n, hn0, hfit, _⟩ := hrow d hdl
      obtain ⟨v, hv, _⟩ := (hfit 0 hn0).values f hf
      unfold cell at hv
      cases hg : d.data.get? f.name with
      | none => rw [hg] at hv; cases hv
      | some col =>
        obtain ⟨i, g, _, hk, _⟩ := (loaded_data h hdl).named _ _ hg
        exact columnName_ne _ _ (hk.trans hn)
    refine ⟨hw.formats, ?_, ?_, hw.initial, ?_, hw.changed, ?_, hnm, ?_⟩
    · rintro ⟨k, ty⟩ hp
      have hk : k ∈ u.info.keys := by
        rw [← ha.infoTypes]; exact List.mem_map.mpr ⟨_, hp, rfl⟩
      obtain ⟨⟨k', v⟩, hv, rfl⟩ := List.mem_map.mp hk
      obtain ⟨ty', h1, h2⟩ := hw.info _ hv
      have := Dict.get?_of_mem _ _ _ hd.infoTypes hp
      rw [this] at h1
      injection h1 with h1
      rw [← h1] at h2
      exact infoFits_writable h2
    · rintro ⟨k, ty⟩ hp sets hsets
      obtain ⟨ty', h1, h2⟩ := hw.multi _ (Dict.mem_of_get? _ _ _ hsets)
      have := Dict.get?_of_mem _ _ _ hd.infoMultiTypes hp
      rw [this] at h1
      injection h1 with h1
      rw [← h1] at h2
      exact h2
    · intro p hp
      refine ⟨?_, fun q hq => (hw.defaults p hp q hq).2⟩
      obtain ⟨q, hq⟩ := List.exists_mem_of_ne_nil _ (ha.default p hp)
      exact (hw.defaults p hp q hq).1
    · intro d hdl
      have hld := loaded_data h hdl
      obtain ⟨n, hn, hfit, _⟩ := hrow d hdl
      obtain ⟨v, hv⟩ := (hfit 0 hn).time
      unfold cell at hv
      cases hg : d.data.get? (py! "timestamp") with
      | none => rw [hg] at hv; cases hv
      | some col => exact hld.time hg
    · intro d hdl f hf hch c hc v hv
      obtain ⟨n, hn, hfit, hall⟩ := hrow d hdl
      obtain ⟨i, hi, rfl⟩ := List.mem_iff_getElem.mp hv
      obtain ⟨w, hw1, hw2⟩ := (hfit i (by rw [← hall _ (Dict.mem_of_get? _ _ _ hc)]; exact hi)).values f hf
      unfold cell at hw1
      rw [hc] at hw1
      have hw1 : c[i]? = some w := hw1
      rw [List.getElem?_eq_getElem hi] at hw1
      injection hw1 with hw1
      rw [hw1]
      rw [hch] at hw2
      cases w with
      | int k =>
        have hw2 : 0 ≤ k ∧ k < 128 := hw2
        exact ⟨k.toNat, by rw [Int.toNat_of_nonneg hw2.1]⟩
      | f32 x => exact False.elim hw2
      | f64 x => exact False.elim hw2
  · intro hl
    refine ⟨hs.version, hs.start, hs.compat, ⟨hs.incompat.1, fun x hx => hs.incompat.2 x (List.mem_of_mem_drop hx)⟩,
      hl.formats, ?_, ?_, hl.initial, fun p hp q hq => ⟨(hl.defaults p hp).1, (hl.defaults p hp).2 q hq⟩, hl.changed,
      fun d hdl => (loaded_data h hdl).ids, fun d hdl => loaded_rows (loaded_data h hdl) (hl.times d hdl) (hl.named d hdl)
        (hl.chars d hdl),
      hs.logged, ?_, hs.dropouts⟩
    · rintro ⟨k, v⟩ hp
      obtain ⟨ty, h1, -, h2⟩ := hs.info k v (Dict.get?_of_mem _ _ _ hd.info hp)
      exact ⟨ty, h1, h2 (hl.info _ (Dict.mem_of_get? _ _ _ h1))⟩
    · rintro ⟨k, sets⟩ hp
      have hk : k ∈ u.infoMultiTypes.keys := by
        rw [ha.multiTypes]; exact List.mem_map.mpr ⟨_, hp, rfl⟩
      obtain ⟨⟨k', ty⟩, ht, rfl⟩ := List.mem_map.mp hk
      exact ⟨ty, Dict.get?_of_mem _ _ _ hd.infoMultiTypes ht,
        hl.multi _ ht sets (Dict.get?_of_mem _ _ _ hd.infoMulti hp)⟩
    · intro m hm
      obtain ⟨l, hl, hm⟩ := List.mem_flatten.mp hm
      obtain ⟨p, hp, rfl⟩ := List.mem_map.mp hl
      exact hs.tagged p hp m hm

end PyULog
