import Verif.Lemmas.LostFormat
import Verif.Props.LostKey
/-
Property theorems: C117 (a lost format makes no difference, or raises).
-/
namespace PyULog
open Spec

theorem plain_lostFormat {fuel : Nat} {cfg : Cfg} {hdr : Bytes} {pre post msgs : List (Nat × Bytes)} {p : Bytes}
    {f : MsgFormat} {u0 : ULog} (hf : PlainFile fuel cfg hdr (pre ++ (tyF, p) :: post) msgs u0)
    (hr : runDefs cfg (pre ++ post) u0 = (runDefs cfg (pre ++ (tyF, p) :: post) u0).on (dropFormat f.name)) :
    PlainFile fuel cfg hdr (pre ++ post) msgs u0 := by
  refine { hf with hdefs := ?_, notAppended := ?_, hfuel := ?_, size := ?_ }
  · intro x hx
    refine hf.hdefs x ?_
    rw [List.mem_append, List.mem_cons]
    rcases List.mem_append.mp hx with h | h
    · exact .inl h
    · exact .inr (.inr h)
  · intro u hu
    have hna := hf.notAppended
    rw [hu] at hr
    generalize runDefs cfg (pre ++ (tyF, p) :: post) u0 = r at hr hna
    cases r with
    | done w =>
      injection hr with hr
      subst hr
      exact hna w rfl
    | stopped w => cases hr
    | raised e => cases hr
  · have := hf.hfuel
    rw [List.length_append, List.length_cons] at this
    rw [List.length_append]
    omega
  · have := hf.size
    rw [encMsgs_append, List.length_append] at this ⊢
    have h2 : (encMsgs post).length ≤ (encMsgs ((tyF, p) :: post)).length := by
      simp [encMsgs]
    omega

theorem finish_drop (n : Str) {F : Dict Str MsgFormat} {r : Run} (h : ∀ v, r = .done v ∨ r = .stopped v → v.formats = F) :
    SameLoad (WithoutFormat n) (finish r) (finish (r.on (withFormats (others n F)))) := by
  have hf : ∀ v : ULog, v.formats = F → SameLoad (WithoutFormat n) (.ofExcept (finalize v))
      (.ofExcept (finalize (withFormats (others n F) v))) := by
    intro v hv
    have e : finalize (withFormats (others n F) v) = (finalize v).map (withFormats (others n F)) := by
      unfold finalize withFormats
      dsimp only
      generalize List.mapM (fun p : Nat × Sub => mkData p.2) (List.filter (fun p => decide (p.2.buffer.length > 0)) v.subs.reverse) = x
      cases x <;> rfl
    have hk : ∀ w, finalize v = .ok w → w.formats = F := by
      intro w hw
      unfold finalize at hw
      generalize List.mapM (fun p : Nat × Sub => mkData p.2) (List.filter (fun p => decide (p.2.buffer.length > 0)) v.subs.reverse) = x at hw
      cases x with
      | error e => cases hw
      | ok l => injection hw with hw; subst hw; exact hv
    rw [e]
    cases hx : finalize v with
    | error e => exact .inl ⟨e, rfl, rfl⟩
    | ok w => exact .inr ⟨w, _, rfl, rfl, by unfold WithoutFormat withFormats; rw [hk w hx]⟩
  cases r with
  | done v => exact hf v (h v (.inl rfl))
  | stopped v => exact hf v (h v (.inr rfl))
  | raised e => exact .inl ⟨e, rfl, rfl⟩

theorem lostFormat_load {fuel : Nat} {cfg : Cfg} {hdr : Bytes} {pre post msgs : List (Nat × Bytes)} {p : Bytes}
    {f : MsgFormat} {u0 : ULog} (bad : Prop) (hf : PlainFile fuel cfg hdr (pre ++ (tyF, p) :: post) msgs u0)
    (hp : parseFormat cfg.ign p = .ok f) (hn : NoFormat cfg.ign f.name (pre ++ post))
    (h : ∀ u, runDefs cfg (pre ++ (tyF, p) :: post) u0 = .done u → ∀ m ∈ msgs, m.1 = tyA →
      parseAddLogged cfg.ign (others f.name u.formats) cfg.depth m.2 = parseAddLogged cfg.ign u.formats cfg.depth m.2 ∨
      (bad ∧ parseAddLogged cfg.ign (others f.name u.formats) cfg.depth m.2 = .error .keyError)) :
    SameLoad (WithoutFormat f.name) (load fuel cfg (fileDef hdr pre (tyF, p) post msgs))
      (load fuel cfg (hdr ++ encMsgs (pre ++ post) ++ encMsgs msgs)) ∨
    (bad ∧ load fuel cfg (hdr ++ encMsgs (pre ++ post) ++ encMsgs msgs) = .raised .keyError) := by
  have h0 : dropFormat f.name u0 = u0 := by
    rw [readHeader_init hf.header]
    rfl
  have hr := runDefs_lostFormat cfg hp pre post u0 hn
  rw [h0] at hr
  unfold fileDef
  rw [plain_load hf, plain_load (plain_lostFormat hf hr)]
  unfold loadMsgs
  rw [hr]
  cases hd : runDefs cfg (pre ++ (tyF, p) :: post) u0 with
  | raised e => exact .inl (.inl ⟨e, rfl, rfl⟩)
  | stopped u => exact .inl (.inr ⟨u, _, rfl, rfl, rfl⟩)
  | done u =>
    simp only [Run.on]
    by_cases hho : cfg.headerOnly = true
    · rw [if_pos hho, if_pos hho]
      exact .inl (.inr ⟨u, _, rfl, rfl, rfl⟩)
    · rw [if_neg hho, if_neg hho]
      rcases runData_withFormats cfg bad u.formats (others f.name u.formats) msgs u rfl (h u hd) with h1 | ⟨hb, h1⟩
      · left
        rw [show dropFormat f.name u = withFormats (others f.name u.formats) u from rfl, h1]
        refine finish_drop f.name fun v hv => ?_
        refine ((runData_state cfg msgs u v ?_).1).formats
        rcases hv with hv | hv <;> rw [hv] <;> rfl
      · right
        rw [show dropFormat f.name u = withFormats (others f.name u.formats) u from rfl, h1]
        exact ⟨hb, rfl⟩

/-- **C117**: when the only definition of a format is missing in a file, the file loads with the same contents
(without the format), or raises the same exception, or raises KeyError. Samples are never read with wrong fields. -/
theorem C117_format {fuel : Nat} {cfg : Cfg} {hdr : Bytes} {pre post msgs : List (Nat × Bytes)} {p : Bytes}
    {f : MsgFormat} {u0 : ULog} (hf : PlainFile fuel cfg hdr (pre ++ (tyF, p) :: post) msgs u0)
    (hp : parseFormat cfg.ign p = .ok f) (hn : NoFormat cfg.ign f.name (pre ++ post)) :
    SameLoad (WithoutFormat f.name) (load fuel cfg (fileDef hdr pre (tyF, p) post msgs))
      (load fuel cfg (hdr ++ encMsgs (pre ++ post) ++ encMsgs msgs)) ∨
    load fuel cfg (hdr ++ encMsgs (pre ++ post) ++ encMsgs msgs) = .raised .keyError :=
  (lostFormat_load True hf hp hn fun u _ m _ _ =>
    (parseAddLogged_lost cfg.ign u.formats f.name cfg.depth m.2).imp id fun h => ⟨trivial, h⟩).imp id And.right

/-- **C117**: when no subscribed topic contains the format, no KeyError is added: the file loads with the same
contents or raises the same exception -/
theorem C117_unused {fuel : Nat} {cfg : Cfg} {hdr : Bytes} {pre post msgs : List (Nat × Bytes)} {p : Bytes}
    {f : MsgFormat} {u0 : ULog} (hf : PlainFile fuel cfg hdr (pre ++ (tyF, p) :: post) msgs u0)
    (hp : parseFormat cfg.ign p = .ok f) (hn : NoFormat cfg.ign f.name (pre ++ post))
    (hu : ∀ u, runDefs cfg (pre ++ (tyF, p) :: post) u0 = .done u → NotSubscribed cfg.ign u.formats f.name msgs) :
    SameLoad (WithoutFormat f.name) (load fuel cfg (fileDef hdr pre (tyF, p) post msgs))
      (load fuel cfg (hdr ++ encMsgs (pre ++ post) ++ encMsgs msgs)) :=
  (lostFormat_load False hf hp hn fun u hd m hm ha =>
    .inl (parseAddLogged_unused cfg.ign u.formats f.name cfg.depth m.2 (hu u hd m hm ha))).resolve_right fun h => h.1

namespace Sample

/-- the definitions of the sample file and a format that is not used -/
def moreDefs : List (Nat × Bytes) := (tyF, asc (py! "c:a in;uint64_t timestamp;")) :: defs

end Sample

open Sample in
/-- without the format `a`, which is also a part of `b`, or without `b`, the sample file raises KeyError; without
the format `c` it loads as before -/
theorem C117_sample :
    load 20 {} (withoutDef 0) = .raised .keyError ∧ load 20 {} (withoutDef 1) = .raised .keyError ∧
    (get (load 20 {} (header ++ encMsgs moreDefs ++ encMsgs msgs))).formats.map (·.1) = [py! "c", py! "a", py! "b"] ∧
    load 20 {} file = .ok { get (load 20 {} (header ++ encMsgs moreDefs ++ encMsgs msgs)) with
      formats := others (py! "c") (get (load 20 {} (header ++ encMsgs moreDefs ++ encMsgs msgs))).formats } := by
  refine ⟨by decide +kernel, by decide +kernel, by decide +kernel, by decide +kernel⟩

open Sample in
/-- **C117 needs the format to be defined once**: when `a` is defined a second time with another field type, and this
definition is lost, the samples of `a` are read with the former type -/
theorem C117_twice :
    let again : Nat × Bytes := (tyF, asc (py! "a:uint64_t timestamp;uint16_t x;"))
    (get (load 20 {} (header ++ encMsgs (defs ++ [again]) ++ encMsgs msgs))).dataList
      ≠ (get (load 20 {} file)).dataList := by
  decide +kernel

theorem not_contains {fm : Dict Str MsgFormat} {n t : Str} (S : List Str) (hn : n ∉ S)
    (hS : ∀ x ∈ S, ∀ f, fm.get? x = some f → ∀ g ∈ f.fields, g.type ∈ S) (ht : t ∈ S) : ¬ Contains fm n t := by
  intro h
  induction h with
  | self => exact hn ht
  | field h1 h2 _ ih => exact ih (hS _ ht _ h1 _ h2)

open Sample in
/-- the sample file with the format `c` satisfies the hypotheses of C117_unused -/
example : ∃ u0, PlainFile 20 {} header ([] ++ (tyF, asc (py! "c:a in;uint64_t timestamp;")) :: defs) msgs u0 ∧
    (∃ f, parseFormat false (asc (py! "c:a in;uint64_t timestamp;")) = .ok f ∧ f.name = py! "c") ∧
    NoFormat false (py! "c") ([] ++ defs) ∧
    ∀ u, runDefs {} ([] ++ (tyF, asc (py! "c:a in;uint64_t timestamp;")) :: defs) u0 = .done u →
      NotSubscribed false u.formats (py! "c") msgs := by
  have hd : (match runDefs {} moreDefs { fileVersion := 1, startTs := 100, lastTs := 100 } with
      | .done u => !hasDataAppended u && [py! "a", py! "b", py! "uint64_t", py! "int16_t", py! "uint8_t"].all fun x =>
          match u.formats.get? x with
          | some f => f.fields.all fun g => decide (g.type ∈ [py! "a", py! "b", py! "uint64_t", py! "int16_t", py! "uint8_t"])
          | none => true
      | _ => false) = true := by decide +kernel
  refine ⟨_, ⟨by decide, rfl, ?_, ?_, ?_, ?_, by decide, by decide +kernel⟩, ⟨_, rfl, rfl⟩, ?_, ?_⟩
  · have : ∀ m ∈ moreDefs, Fits m ∧ isPureDefType m.1 := by decide +kernel
    exact fun m h => ⟨(this m h).1, Or.inl (this m h).2⟩
  · have : ∀ m ∈ Sample.msgs, Fits m ∧ isDataType m.1 := by decide +kernel
    exact fun m h => ⟨(this m h).1, Or.inl (this m h).2⟩
  · intro m h
    cases h
    exact Or.inl rfl
  · intro u h
    rw [show runDefs {} moreDefs { fileVersion := 1, startTs := 100, lastTs := 100 } = .done u from h] at hd
    simp only [Bool.and_eq_true] at hd
    exact by simpa using hd.1
  · have : ∀ m ∈ defs, m.1 = tyF → (match parseFormat false m.2 with
      | .ok f => decide (f.name ≠ py! "c")
      | .error _ => true) = true := by decide +kernel
    intro m hm ht f hf
    have h := this m hm ht
    rw [hf] at h
    exact of_decide_eq_true h
  · intro u h
    rw [show runDefs {} moreDefs { fileVersion := 1, startTs := 100, lastTs := 100 } = .done u from h] at hd
    simp only [Bool.and_eq_true, List.all_eq_true] at hd
    have hm : ∀ m ∈ msgs, m.1 = tyA → (match parseString false (m.2.drop 3) with
      | .ok t => decide (t ∈ [py! "a", py! "b", py! "uint64_t", py! "int16_t", py! "uint8_t"])
      | .error _ => true) = true := by decide +kernel
    intro m h1 h2 t ht
    have h3 := hm m h1 h2
    rw [ht] at h3
    refine not_contains _ (by decide) (fun x hx f hf g hg => ?_) (of_decide_eq_true h3)
    have h4 := hd.2 x hx
    rw [hf] at h4
    exact of_decide_eq_true (List.all_eq_true.mp h4 g hg)

end PyULog
