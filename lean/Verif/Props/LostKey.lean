import Verif.Lemmas.LostKey
import Verif.Props.Lost
/-
Property theorems: C112 (a lost or damaged info message or parameter changes the entries with its key only).
-/
namespace PyULog
open Spec

theorem Spec.SameLoad.mono {R S : ULog → ULog → Prop} {r s : LoadRes} (h : SameLoad R r s) (hs : ∀ v v', R v v' → S v v') :
    SameLoad S r s := by
  rcases h with h | ⟨v, v', h1, h2, h3⟩
  · exact .inl h
  · exact .inr ⟨v, v', h1, h2, hs v v' h3⟩

theorem Spec.OnlyKey.symm {ty : Nat} {k : Str} {v w : ULog} (h : OnlyKey ty k v w) : OnlyKey ty k w v :=
  ⟨h.rest.symm, h.info.symm, h.infoTypes.symm, h.infoMulti.symm, h.infoMultiTypes.symm, h.initial.symm,
    fun i => (h.defaults.1 i).symm, fun hn => (h.defaults.2 hn).symm⟩

theorem Spec.OnlyKey.trans {ty : Nat} {k : Str} {v w x : ULog} (h : OnlyKey ty k v w) (h' : OnlyKey ty k w x) :
    OnlyKey ty k v x :=
  ⟨h'.rest.trans h.rest, h.info.trans h'.info, h.infoTypes.trans h'.infoTypes, h.infoMulti.trans h'.infoMulti,
    h.infoMultiTypes.trans h'.infoMultiTypes, h.initial.trans h'.initial,
    fun i => (h'.defaults.1 i).trans (h.defaults.1 i), fun hn => (h'.defaults.2 hn).trans (h.defaults.2 hn)⟩

/-- the file without the definition is as regular as the one with it -/
theorem plain_lostDef {fuel : Nat} {cfg : Cfg} {hdr : Bytes} {pre post msgs : List (Nat × Bytes)} {ty : Nat} {p : Bytes}
    {k : Str} {u0 : ULog} (hf : PlainFile fuel cfg hdr (pre ++ (ty, p) :: post) msgs u0)
    (hk : keyOf cfg.ign (ty, p) = some k) : PlainFile fuel cfg hdr (pre ++ post) msgs u0 := by
  refine { hf with hdefs := ?_, notAppended := ?_, hfuel := ?_, size := ?_ }
  · intro x hx
    refine hf.hdefs x ?_
    rw [List.mem_append, List.mem_cons]
    rcases List.mem_append.mp hx with h | h
    · exact .inl h
    · exact .inr (.inr h)
  · intro u hu
    have h := ksim_lost_defs hk pre post u0
    rw [hu] at h
    have hna := hf.notAppended
    generalize runDefs cfg (pre ++ (ty, p) :: post) u0 = r at h hna
    cases h with
    | @done w _ hs =>
      obtain ⟨a, b, c, d, e, f, rfl, _⟩ := hs
      exact hna w rfl
  · have := hf.hfuel
    rw [List.length_append, List.length_cons] at this
    rw [List.length_append]
    omega
  · have := hf.size
    rw [encMsgs_append, List.length_append] at this ⊢
    have h2 : (encMsgs post).length ≤ (encMsgs ((ty, p) :: post)).length := by
      simp [encMsgs]
    omega

/-- **C112**: a file of whose definitions one info message, multi info message, parameter or default
parameter is missing raises the same exception, or loads with the same contents, but for the entries with
the key of this message. -/
theorem C112_definition {fuel : Nat} {cfg : Cfg} {hdr : Bytes} {pre post msgs : List (Nat × Bytes)} {ty : Nat} {p : Bytes}
    {k : Str} {u0 : ULog} (hf : PlainFile fuel cfg hdr (pre ++ (ty, p) :: post) msgs u0)
    (hk : keyOf cfg.ign (ty, p) = some k) :
    SameLoad (OnlyKey ty k) (load fuel cfg (fileDef hdr pre (ty, p) post msgs))
      (load fuel cfg (hdr ++ encMsgs (pre ++ post) ++ encMsgs msgs)) := by
  unfold fileDef
  rw [plain_load hf, plain_load (plain_lostDef hf hk)]
  exact (ksim_load (ksim_lost_defs hk pre post u0) fun u v h => ksim_run cfg msgs h).mono fun v v' h => h.only

/-- **C112** for a message in the data section (where a parameter is a parameter change, see C109) -/
theorem C112_data {fuel : Nat} {cfg : Cfg} {hdr : Bytes} {defs pre post : List (Nat × Bytes)} {ty : Nat} {p : Bytes}
    {k : Str} {u0 : ULog} (hf : PlainFile fuel cfg hdr defs (pre ++ (ty, p) :: post) u0) (hne : pre ≠ [])
    (hk : keyOf cfg.ign (ty, p) = some k) (hp : ty ≠ tyP) :
    SameLoad (OnlyKey ty k) (load fuel cfg (fileWith hdr defs pre (ty, p) post))
      (load fuel cfg (hdr ++ encMsgs defs ++ encMsgs (pre ++ post))) := by
  unfold fileWith
  rw [plain_load hf, plain_load (plain_lost hf hne)]
  refine SameLoad.mono ?_ fun v v' h => KSim.only h
  unfold loadMsgs
  cases runDefs cfg defs u0 with
  | stopped u => exact .inr ⟨_, _, rfl, rfl, .refl _ _ _⟩
  | raised e => exact .inl ⟨_, rfl, rfl⟩
  | done u =>
    simp only
    split
    · exact .inr ⟨_, _, rfl, rfl, .refl _ _ _⟩
    · exact ksim_finish (ksim_lost_data hk hp pre post u)

theorem sameLoad_join {ty : Nat} {k k' : Str} {r s t : LoadRes} (h : SameLoad (OnlyKey ty k) r t)
    (h' : SameLoad (OnlyKey ty k') s t) :
    SameLoad (fun v v' => ∃ w, t = .ok w ∧ OnlyKey ty k v w ∧ OnlyKey ty k' w v') r s := by
  rcases h with ⟨e, h1, h2⟩ | ⟨v, w, h1, h2, h3⟩
  · rcases h' with ⟨e', h4, h5⟩ | ⟨v', w', h4, h5, h6⟩
    · rw [h2] at h5
      injection h5 with h5
      subst h5
      exact .inl ⟨e, h1, h4⟩
    · rw [h2] at h5; cases h5
  · rcases h' with ⟨e', h4, h5⟩ | ⟨v', w', h4, h5, h6⟩
    · rw [h2] at h5; cases h5
    · rw [h2] at h5
      injection h5 with h5
      subst h5
      exact .inr ⟨v, v', h1, h4, w, h2, h3, h6.symm⟩

/-- the file with the damaged definition is as regular as the original one -/
theorem plain_damagedDef {fuel : Nat} {cfg : Cfg} {hdr : Bytes} {pre post msgs : List (Nat × Bytes)} {ty : Nat}
    {p p' : Bytes} {k k' : Str} {u0 : ULog} (hf : PlainFile fuel cfg hdr (pre ++ (ty, p) :: post) msgs u0)
    (hl : p'.length = p.length) (hk : keyOf cfg.ign (ty, p) = some k) (hk' : keyOf cfg.ign (ty, p') = some k') :
    PlainFile fuel cfg hdr (pre ++ (ty, p') :: post) msgs u0 := by
  refine { hf with hdefs := ?_, notAppended := ?_, hfuel := ?_, size := ?_ }
  · intro x hx
    rw [List.mem_append, List.mem_cons] at hx
    rcases hx with h | rfl | h
    · exact hf.hdefs x (List.mem_append.mpr (.inl h))
    · have := hf.hdefs (ty, p) (List.mem_append.mpr (.inr (.head _)))
      unfold DefFrame Fits at this ⊢
      dsimp only at this ⊢
      rw [hl]
      exact this
    · exact hf.hdefs x (List.mem_append.mpr (.inr (.tail _ h)))
  · intro u hu
    have h := ksim_lost_defs hk' pre post u0
    rw [hu] at h
    have hna := (plain_lostDef hf hk).notAppended
    generalize runDefs cfg (pre ++ post) u0 = r at h hna
    cases h with
    | @done _ w hs =>
      have := hna w rfl
      obtain ⟨a, b, c, d, e, f, rfl, _⟩ := hs
      exact this
  · have := hf.hfuel
    simp only [List.length_append, List.length_cons] at this ⊢
    exact this
  · have := hf.size
    simpa [encMsgs, encMsg, hl] using this

/-- **C112** for a damaged definition that can still be read: nothing but the entries with its former and its
present key differ. -/
theorem C112_damaged {fuel : Nat} {cfg : Cfg} {hdr : Bytes} {pre post msgs : List (Nat × Bytes)} {ty : Nat}
    {p p' : Bytes} {k k' : Str} {u0 : ULog} (hf : PlainFile fuel cfg hdr (pre ++ (ty, p) :: post) msgs u0)
    (hl : p'.length = p.length) (hk : keyOf cfg.ign (ty, p) = some k) (hk' : keyOf cfg.ign (ty, p') = some k') :
    SameLoad (fun v v' => ∃ w, load fuel cfg (hdr ++ encMsgs (pre ++ post) ++ encMsgs msgs) = .ok w ∧
        OnlyKey ty k v w ∧ OnlyKey ty k' w v')
      (load fuel cfg (fileDef hdr pre (ty, p) post msgs)) (load fuel cfg (fileDef hdr pre (ty, p') post msgs)) :=
  sameLoad_join (C112_definition hf hk) (C112_definition (plain_damagedDef hf hl hk hk') hk')

/-- **C112** for a definition whose value is damaged -/
theorem C112_value {fuel : Nat} {cfg : Cfg} {hdr : Bytes} {pre post msgs : List (Nat × Bytes)} {ty : Nat}
    {p p' : Bytes} {k : Str} {u0 : ULog} (hf : PlainFile fuel cfg hdr (pre ++ (ty, p) :: post) msgs u0)
    (hl : p'.length = p.length) (hk : keyOf cfg.ign (ty, p) = some k) (hk' : keyOf cfg.ign (ty, p') = some k) :
    SameLoad (OnlyKey ty k) (load fuel cfg (fileDef hdr pre (ty, p) post msgs))
      (load fuel cfg (fileDef hdr pre (ty, p') post msgs)) :=
  (C112_damaged hf hl hk hk').mono fun _ _ ⟨_, _, h1, h2⟩ => h1.trans h2

namespace Sample

/-- the sample file without one of its definitions -/
def withoutDef (i : Nat) : Bytes := header ++ encMsgs (defs.take i ++ defs.drop (i + 1)) ++ encMsgs msgs

end Sample

open Sample in
/-- lost definitions of the sample file: the info message, the multi info message, the later of two values of a
parameter, the default parameter (for both indices) -/
example : keyOf false (defs[2]) = some (py! "sys") ∧ keyOf false (defs[3]) = some (py! "m") ∧
    keyOf false (defs[5]) = some (py! "K") ∧ keyOf false (defs[6]) = some (py! "K") ∧
    load 20 {} (withoutDef 2) = .ok { get (load 20 {} file) with info := [], infoTypes := [] } ∧
    (get (load 20 {} file)).info.length = 1 ∧
    load 20 {} (withoutDef 5) = .ok { get (load 20 {} file) with initialParams := [(py! "K", .int 5)] } ∧
    (get (load 20 {} file)).initialParams = [(py! "K", .int 6)] ∧
    (get (load 20 {} (withoutDef 6))).defaultParams.length < (get (load 20 {} file)).defaultParams.length ∧
    (get (load 20 {} (withoutDef 6))).initialParams = (get (load 20 {} file)).initialParams := by
  refine ⟨by decide +kernel, by decide +kernel, by decide +kernel, by decide +kernel, by decide +kernel,
    by decide +kernel, by decide +kernel, by decide +kernel, by decide +kernel, by decide +kernel⟩

open Sample in
/-- the sample file satisfies the hypotheses of C112_definition for the info message -/
theorem sample_plainDef : ∃ u0, PlainFile 20 {} header (defs.take 2 ++ (tyI, kv (py! "char[3] sys") (asc (py! "PX4"))) :: defs.drop 3)
    msgs u0 := by
  refine ⟨_, ⟨by decide, rfl, ?_, ?_, ?_, ?_, by decide, by decide +kernel⟩⟩
  · have : ∀ m ∈ Sample.defs, Fits m ∧ isPureDefType m.1 := by decide +kernel
    exact fun m h => ⟨(this m h).1, Or.inl (this m h).2⟩
  · have : ∀ m ∈ Sample.msgs, Fits m ∧ isDataType m.1 := by decide +kernel
    exact fun m h => ⟨(this m h).1, Or.inl (this m h).2⟩
  · intro m h
    cases h
    exact Or.inl rfl
  · intro u h
    have : (match runDefs {} Sample.defs { fileVersion := 1, startTs := 100, lastTs := 100 } with
      | .done u => hasDataAppended u
      | _ => false) = false := by decide +kernel
    rw [show runDefs {} Sample.defs { fileVersion := 1, startTs := 100, lastTs := 100 } = .done u from h]
      at this
    exact this

end PyULog
