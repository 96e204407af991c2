import Verif.Lemmas.DamageMsg
import Verif.Props.Damage
/-
Property theorems: C108 (a damaged message stays in its message).
-/
namespace PyULog
open Spec

/-- the relations of the theorems: equality, but for one kind of lists -/
def relsEq : Rels := ⟨Eq, Eq, Eq, Eq⟩

theorem relsEq_ok : relsEq.Ok :=
  ⟨fun _ _ _ h => by cases h; rfl, fun _ _ _ h => by cases h; rfl, fun _ _ _ h => by cases h; rfl,
    fun _ _ _ h => by cases h; rfl⟩

theorem relsEq_refl : relsEq.Refl := ⟨fun _ => rfl, fun _ => rfl, fun _ => rfl, fun _ => rfl⟩

/-- the success of `unpack` depends on the length only -/
theorem unpackU_length {n : Nat} {b b' : Bytes} (h : b'.length = b.length) :
    (∃ x y, unpackU n b = .ok x ∧ unpackU n b' = .ok y) ∨
    (unpackU n b = .error .structError ∧ unpackU n b' = .error .structError) := by
  unfold unpackU
  rw [h]
  split
  · exact .inl ⟨_, _, rfl, rfl⟩
  · exact .inr ⟨rfl, rfl⟩

theorem slice_length' {α : Type} (a b : Nat) {l l' : List α} (h : l'.length = l.length) :
    (slice a b l').length = (slice a b l).length := by
  unfold slice
  rw [List.length_drop, List.length_take, List.length_drop, List.length_take, h]

/-- the text can be decoded in this mode -/
theorem text_ok {ign : Bool} {b : Bytes} (h : ign = true ∨ ¬ NoText b) : ∃ s, parseString ign b = .ok s := by
  cases hp : parseString ign b with
  | ok s => exact ⟨s, rfl⟩
  | error e =>
    obtain ⟨-, hi, hn⟩ := text_err hp
    rcases h with h | h
    · rw [h] at hi; cases hi
    · exact absurd hn h

/-- **C108**: when the bytes of a logged message are damaged but for its length, the file raises the same
exception as before, or it loads with the same contents but for this message. (With
`disable_str_exceptions=False` both texts must be UTF-8.) -/
theorem C108_text {fuel : Nat} {cfg : Cfg} {hdr : Bytes} {defs pre post : List (Nat × Bytes)} {p p' : Bytes} {u0 : ULog}
    (hf : PlainFile fuel cfg hdr defs (pre ++ (tyL, p) :: post) u0) (hl : p'.length = p.length)
    (ht : cfg.ign = true ∨ (¬ NoText (p.drop 9) ∧ ¬ NoText (p'.drop 9))) :
    (∀ e, load fuel cfg (fileWith hdr defs pre (tyL, p) post) = .raised e →
      load fuel cfg (fileWith hdr defs pre (tyL, p') post) = .raised e) ∧
    ∀ v, load fuel cfg (fileWith hdr defs pre (tyL, p) post) = .ok v →
      ∃ l, load fuel cfg (fileWith hdr defs pre (tyL, p') post) = .ok { v with logged := l } ∧
        OneDiffers (fun _ _ => True) v.logged l := by
  let R : Rels := { relsEq with L := OneDiffers fun _ _ => True }
  have hR : R.Ok := ⟨fun _ _ x h => oneDiffers_append h x, relsEq_ok.T, relsEq_ok.O, relsEq_ok.P⟩
  have hr : R.Refl := ⟨fun _ => .inl rfl, fun _ => rfl, fun _ => rfl, fun _ => rfl⟩
  have hstep : ∀ w, MOut R (handleData cfg w tyL p) (handleData cfg w tyL p') := by
    intro w
    rw [show tyL = MSG_TYPE_LOGGING from rfl, handleData_L, handleData_L]
    unfold parseLogging
    rcases unpackU_length (n := 1) (slice_length' 0 1 hl) with ⟨x1, y1, e1, f1⟩ | ⟨e1, f1⟩
    · rcases unpackU_length (n := 8) (slice_length' 1 9 hl) with ⟨x2, y2, e2, f2⟩ | ⟨e2, f2⟩
      · obtain ⟨s, hs⟩ := text_ok (ign := cfg.ign) (ht.imp_right (·.1))
        obtain ⟨s', hs'⟩ := text_ok (ign := cfg.ign) (ht.imp_right (·.2))
        rw [e1, f1]
        simp only [ok_bind]
        rw [e2, f2]
        simp only [ok_bind]
        rw [hs, hs']
        exact .ok ⟨_, _, _, _, rfl, oneDiffers_last _ trivial, rfl, rfl, rfl⟩
      · rw [e1, f1]
        simp only [ok_bind]
        rw [e2, f2]
        exact .err (.refl hr w)
    · rw [e1, f1]
      exact .err (.refl hr w)
  obtain ⟨h1, h2⟩ := damaged_file hR hr hf (by decide) hl hstep
  refine ⟨h1, fun v hv => ?_⟩
  obtain ⟨v', hv', a, b, c, d, rfl, hL, hT, hO, hP⟩ := h2 v hv
  refine ⟨a, ?_, hL⟩
  rw [hv']
  cases hT; cases hO; cases hP
  rfl

/-- **C108** for a tagged message whose tag is not damaged -/
theorem C108_tagged {fuel : Nat} {cfg : Cfg} {hdr : Bytes} {defs pre post : List (Nat × Bytes)} {p p' : Bytes} {u0 : ULog}
    (hf : PlainFile fuel cfg hdr defs (pre ++ (tyC, p) :: post) u0) (hl : p'.length = p.length)
    (htag : (p'.drop 1).take 2 = (p.drop 1).take 2)
    (ht : cfg.ign = true ∨ (¬ NoText (p.drop 11) ∧ ¬ NoText (p'.drop 11))) :
    (∀ e, load fuel cfg (fileWith hdr defs pre (tyC, p) post) = .raised e →
      load fuel cfg (fileWith hdr defs pre (tyC, p') post) = .raised e) ∧
    ∀ v, load fuel cfg (fileWith hdr defs pre (tyC, p) post) = .ok v →
      ∃ t, load fuel cfg (fileWith hdr defs pre (tyC, p') post) = .ok { v with tagged := t } ∧
        OneTagDiffers v.tagged t := by
  let R : Rels := { relsEq with T := OneTagDiffers }
  have hR : R.Ok := ⟨relsEq_ok.L, fun _ _ m h => oneTag_add h m, relsEq_ok.O, relsEq_ok.P⟩
  have hr : R.Refl := ⟨fun _ => rfl, fun _ => .inl rfl, fun _ => rfl, fun _ => rfl⟩
  have htag' : slice 1 3 p' = slice 1 3 p := by
    unfold slice
    rw [List.drop_take, List.drop_take]
    exact htag
  have hstep : ∀ w, MOut R (handleData cfg w tyC p) (handleData cfg w tyC p') := by
    intro w
    rw [show tyC = MSG_TYPE_LOGGING_TAGGED from rfl, handleData_C, handleData_C]
    unfold parseLoggingTagged
    rw [htag']
    rcases unpackU_length (n := 1) (slice_length' 0 1 hl) with ⟨x1, y1, e1, f1⟩ | ⟨e1, f1⟩
    · rw [e1, f1]
      simp only [ok_bind]
      cases unpackU 2 (slice 1 3 p) with
      | error e => exact .err (.refl hr w)
      | ok tag =>
        simp only [ok_bind]
        rcases unpackU_length (n := 8) (slice_length' 3 11 hl) with ⟨x2, y2, e2, f2⟩ | ⟨e2, f2⟩
        · obtain ⟨s, hs⟩ := text_ok (ign := cfg.ign) (ht.imp_right (·.1))
          obtain ⟨s', hs'⟩ := text_ok (ign := cfg.ign) (ht.imp_right (·.2))
          rw [e2, f2]
          simp only [ok_bind]
          rw [hs, hs']
          refine .ok ⟨_, _, _, _, rfl, rfl, ?_, rfl, rfl⟩
          refine .inr ⟨tag, _, _, Dict.get?_set_self .., oneDiffers_last ((w.tagged.get? tag).getD [])
            (show (⟨y1, tag, y2, s'⟩ : TagMsg).tag = (⟨x1, tag, x2, s⟩ : TagMsg).tag from rfl), ?_⟩
          exact (set_set _ _ _ _).symm
        · rw [e2, f2]
          exact .err (.refl hr w)
    · rw [e1, f1]
      exact .err (.refl hr w)
  obtain ⟨h1, h2⟩ := damaged_file hR hr hf (by decide) hl hstep
  refine ⟨h1, fun v hv => ?_⟩
  obtain ⟨v', hv', a, b, c, d, rfl, hL, hT, hO, hP⟩ := h2 v hv
  refine ⟨b, ?_, hT⟩
  rw [hv']
  cases hL; cases hO; cases hP
  rfl

/-- **C108** for a dropout: only its duration may change -/
theorem C108_dropout {fuel : Nat} {cfg : Cfg} {hdr : Bytes} {defs pre post : List (Nat × Bytes)} {p p' : Bytes} {u0 : ULog}
    (hf : PlainFile fuel cfg hdr defs (pre ++ (tyO, p) :: post) u0) (hl : p'.length = p.length) :
    (∀ e, load fuel cfg (fileWith hdr defs pre (tyO, p) post) = .raised e →
      load fuel cfg (fileWith hdr defs pre (tyO, p') post) = .raised e) ∧
    ∀ v, load fuel cfg (fileWith hdr defs pre (tyO, p) post) = .ok v →
      ∃ l, load fuel cfg (fileWith hdr defs pre (tyO, p') post) = .ok { v with dropouts := l } ∧
        OneDiffers (fun x y => y.ts = x.ts) v.dropouts l := by
  let R : Rels := { relsEq with O := OneDiffers fun x y => y.ts = x.ts }
  have hR : R.Ok := ⟨relsEq_ok.L, relsEq_ok.T, fun _ _ x h => oneDiffers_append h x, relsEq_ok.P⟩
  have hr : R.Refl := ⟨fun _ => rfl, fun _ => rfl, fun _ => .inl rfl, fun _ => rfl⟩
  have hstep : ∀ w, MOut R (handleData cfg w tyO p) (handleData cfg w tyO p') := by
    intro w
    rw [show tyO = MSG_TYPE_DROPOUT from rfl, handleData_O, handleData_O]
    unfold parseDropout
    rcases unpackU_length (n := 2) hl with ⟨x1, y1, e1, f1⟩ | ⟨e1, f1⟩
    · rw [e1, f1]
      exact .ok ⟨_, _, _, _, rfl, rfl, rfl,
        oneDiffers_last _ (show (⟨y1, w.lastTs⟩ : Dropout).ts = (⟨x1, w.lastTs⟩ : Dropout).ts from rfl), rfl⟩
    · rw [e1, f1]
      exact .err (.refl hr w)
  obtain ⟨h1, h2⟩ := damaged_file hR hr hf (by decide) hl hstep
  refine ⟨h1, fun v hv => ?_⟩
  obtain ⟨v', hv', a, b, c, d, rfl, hL, hT, hO, hP⟩ := h2 v hv
  refine ⟨c, ?_, hO⟩
  rw [hv']
  cases hL; cases hT; cases hP
  rfl

/-- the success of reading a value depends on its type and length only -/
theorem infoValue_length {type : Str} {d d' : Bytes} (h : d'.length = d.length) :
    (∃ x y, parseInfoValue true type d = .ok x ∧ parseInfoValue true type d' = .ok y) ∨
    (∃ e, parseInfoValue true type d = .error e ∧ parseInfoValue true type d' = .error e) := by
  unfold parseInfoValue
  split
  · obtain ⟨s, hs⟩ := text_ok (ign := true) (b := d) (.inl rfl)
    obtain ⟨s', hs'⟩ := text_ok (ign := true) (b := d') (.inl rfl)
    rw [hs, hs']
    exact .inl ⟨_, _, rfl, rfl⟩
  · split
    · rename_i t _
      unfold unpackScalar
      rw [h]
      split
      · exact .inr ⟨_, rfl, rfl⟩
      · cases t <;> exact .inl ⟨_, _, rfl, rfl⟩
    · exact .inl ⟨_, _, rfl, rfl⟩

/-- **C108** for a parameter change whose type and key are not damaged: only its value may change -/
theorem C108_parameter {fuel : Nat} {cfg : Cfg} {hdr : Bytes} {defs pre post : List (Nat × Bytes)} {p p' : Bytes} {u0 : ULog}
    (hf : PlainFile fuel cfg hdr defs (pre ++ (tyP, p) :: post) u0) (hl : p'.length = p.length)
    (hkey : p'.take (1 + leAt p 0 1) = p.take (1 + leAt p 0 1)) (hi : cfg.ign = true) :
    (∀ e, load fuel cfg (fileWith hdr defs pre (tyP, p) post) = .raised e →
      load fuel cfg (fileWith hdr defs pre (tyP, p') post) = .raised e) ∧
    ∀ v, load fuel cfg (fileWith hdr defs pre (tyP, p) post) = .ok v →
      ∃ l, load fuel cfg (fileWith hdr defs pre (tyP, p') post) = .ok { v with changedParams := l } ∧
        OneDiffers (fun x y => y.1 = x.1 ∧ y.2.1 = x.2.1) v.changedParams l := by
  let R : Rels := { relsEq with P := OneDiffers fun x y => y.1 = x.1 ∧ y.2.1 = x.2.1 }
  have hR : R.Ok := ⟨relsEq_ok.L, relsEq_ok.T, relsEq_ok.O, fun _ _ x h => oneDiffers_append h x⟩
  have hr : R.Refl := ⟨fun _ => rfl, fun _ => rfl, fun _ => rfl, fun _ => .inl rfl⟩
  have h01 : slice 0 1 p' = slice 0 1 p := by
    have := congrArg (List.take 1) hkey
    rw [List.take_take, List.take_take, Nat.min_eq_left (by omega)] at this
    unfold slice
    rw [List.drop_zero, List.drop_zero]
    exact this
  have hstep : ∀ w, MOut R (handleData cfg w tyP p) (handleData cfg w tyP p') := by
    intro w
    rw [show tyP = MSG_TYPE_PARAMETER from rfl, handleData_P, handleData_P, hi]
    unfold parseInfo
    rw [h01]
    cases hk : unpackU 1 (slice 0 1 p) with
    | error e => exact .err (.refl hr w)
    | ok k =>
      simp only [ok_bind]
      obtain ⟨hlen, hkv⟩ := unpackU_eq_ok hk
      have hk1 : k = leAt p 0 1 := by
        have h1 : 1 ≤ p.length := by
          unfold slice at hlen
          rw [List.length_drop, List.length_take] at hlen
          omega
        rw [leAt_eq _ _ _ (by omega), hkv]
        rfl
      have hs : slice 1 (1 + k) p' = slice 1 (1 + k) p := by
        unfold slice
        rw [hk1, hkey]
      rw [hs]
      cases parseString true (slice 1 (1 + k) p) with
      | error e => exact .err (.refl hr w)
      | ok tk =>
        simp only [ok_bind]
        cases pyIndex (pySplit ' ' tk) 0 with
        | error e => exact .err (.refl hr w)
        | ok type =>
          simp only [ok_bind]
          cases pyIndex (pySplit ' ' tk) 1 with
          | error e => exact .err (.refl hr w)
          | ok key =>
            simp only [ok_bind]
            rcases infoValue_length (type := type) (d := p.drop (1 + k)) (d' := p'.drop (1 + k))
              (by rw [List.length_drop, List.length_drop, hl]) with ⟨x, y, e1, f1⟩ | ⟨e, e1, f1⟩
            · rw [e1, f1]
              exact .ok ⟨_, _, _, _, rfl, rfl, rfl, rfl, oneDiffers_last _
                (show (w.lastTs, key, y).1 = (w.lastTs, key, x).1 ∧ (w.lastTs, key, y).2.1 = (w.lastTs, key, x).2.1
                  from ⟨rfl, rfl⟩)⟩
            · rw [e1, f1]
              exact .err (.refl hr w)
  obtain ⟨h1, h2⟩ := damaged_file hR hr hf (by decide) hl hstep
  refine ⟨h1, fun v hv => ?_⟩
  obtain ⟨v', hv', a, b, c, d, rfl, hL, hT, hO, hP⟩ := h2 v hv
  refine ⟨d, ?_, hP⟩
  rw [hv']
  cases hL; cases hT; cases hO
  rfl

/-- With `disable_str_exceptions=False`, a message whose text is no UTF-8 keeps the whole file from being
loaded. -/
theorem C108_strict {fuel : Nat} {cfg : Cfg} {hdr : Bytes} {defs pre post : List (Nat × Bytes)} {p : Bytes} {u0 u w : ULog}
    (hf : PlainFile fuel cfg hdr defs (pre ++ (tyL, p) :: post) u0) (hi : cfg.ign = false) (ho : cfg.headerOnly = false)
    (hd : runDefs cfg defs u0 = .done u) (hp : runData cfg pre u = .done w) (h9 : 9 ≤ p.length)
    (hn : NoText (p.drop 9)) :
    load fuel cfg (fileWith hdr defs pre (tyL, p) post) = .raised .unicodeError := by
  unfold fileWith
  rw [C18_file fuel cfg hdr defs _ u0 hf.hhdr hf.header hf.hdefs hf.hmsgs hf.ends hf.notAppended hf.hfuel hf.size]
  unfold loadMsgs
  rw [hd]
  simp only [ho]
  rw [if_neg (by decide), runData_append, hp]
  simp only
  unfold runData
  have e : handleData cfg w tyL p = some (.err .unicodeError w) := by
    rw [show tyL = MSG_TYPE_LOGGING from rfl, handleData_L]
    unfold parseLogging
    rw [unpackU_ok (by unfold slice; rw [List.length_drop, List.length_take]; omega)]
    simp only [ok_bind]
    rw [unpackU_ok (by unfold slice; rw [List.length_drop, List.length_take]; omega)]
    simp only [ok_bind]
    rw [hi, (C19_strict_raises (p.drop 9)).mpr hn]
    rfl
  simp only [e]
  rfl

namespace Sample

/-- the sample file with another message at this place -/
def withAt (i : Nat) (m : Nat × Bytes) : Bytes := fileWith header defs (msgs.take i) m (msgs.drop (i + 1))

end Sample

open Sample in
/-- damaged messages of all four kinds in the sample file -/
example : withAt 4 (tyL, 54 :: leEnc 8 111 ++ asc (py! "hi")) = file ∧
    load 20 {} (withAt 4 (tyL, 50 :: leEnc 8 9 ++ [255, 65]))
      = .ok { get (load 20 {} file) with logged := [⟨50, 9, py! "A"⟩] } ∧
    load 20 {} (withAt 8 (tyO, [21, 0])) = .ok { get (load 20 {} file) with dropouts := [⟨21, 120⟩] } ∧
    load 20 {} (withAt 10 (tyC, 54 :: leEnc 2 9 ++ leEnc 8 121 ++ asc (py! "oh")))
      = .ok { get (load 20 {} file) with tagged := [(9, [⟨54, 9, 121, py! "oh"⟩])] } ∧
    (load 20 { ign := false } (withAt 4 (tyL, 50 :: leEnc 8 9 ++ [255, 65]))) = .raised .unicodeError := by
  refine ⟨by decide +kernel, by decide +kernel, by decide +kernel, by decide +kernel, by decide +kernel⟩

open Sample in
example : ∃ u0, PlainFile 20 {} header defs (msgs.take 4 ++ (tyL, 54 :: leEnc 8 111 ++ asc (py! "hi")) :: msgs.drop 5) u0 := by
  refine ⟨_, ⟨by decide, rfl, ?_, ?_, ?_, ?_, by decide, by decide +kernel⟩⟩
  · have : ∀ m ∈ Sample.defs, Fits m ∧ isPureDefType m.1 := by decide +kernel
    exact fun m h => ⟨(this m h).1, Or.inl (this m h).2⟩
  · have : ∀ m ∈ Sample.msgs, Fits m ∧ isDataType m.1 := by decide +kernel
    exact fun m h => ⟨(this m h).1, Or.inl (this m h).2⟩
  · intro m h
    cases h
    exact Or.inl rfl
  · intro u h
    have : (match runDefs {} Sample.defs { fileVersion := 1, startTs := 100, lastTs := 100 } with
      | .done u => hasDataAppended u
      | _ => false) = false := by decide +kernel
    rw [show runDefs {} Sample.defs { fileVersion := 1, startTs := 100, lastTs := 100 } = .done u from h]
      at this
    exact this

end PyULog
