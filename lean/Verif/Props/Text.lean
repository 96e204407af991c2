import Verif.Lemmas.Utf8
import Verif.Spec.Utf8
import Verif.Lemmas.Defs
import Verif.Spec.SampleRun
/-
Property theorems: C19 (string decoding) and C52 (exceptions that leave the constructor).
-/
namespace PyULog
open Spec

theorem encStr_eq (s : Str) : encStr s = utf8 s := by
  unfold encStr utf8
  congr 1
  exact funext encChar_eq

theorem decIgnoreF_char {f : Nat} {c : Char} {t : Bytes} (h : (encChar c ++ t).length ≤ f) :
    decIgnoreF f (encChar c ++ t) = c :: decIgnoreF t.length t := by
  obtain ⟨b, p, he, hd⟩ := dec1_encChar c t
  rw [he] at h ⊢
  cases f with
  | zero => simp at h
  | succ f =>
    simp only [List.cons_append, decIgnoreF, hd]
    rw [decIgnoreF_mono (g := t.length) (by simp at h; omega) (Nat.le_refl _)]

theorem decStrictF_char {f : Nat} {c : Char} {t : Bytes} :
    decStrictF (f + 1) (encChar c ++ t) = (decStrictF f t).map (c :: ·) := by
  obtain ⟨b, p, he, hd⟩ := dec1_encChar c t
  rw [he]
  simp only [List.cons_append, decStrictF, hd]

theorem decStrictF_encStr (s : Str) : ∀ f, (encStr s).length ≤ f → decStrictF f (encStr s) = .ok s := by
  induction s with
  | nil => intro f _; cases f <;> rfl
  | cons c s ih =>
    intro f hf
    have e : encStr (c :: s) = encChar c ++ encStr s := rfl
    rw [e] at hf ⊢
    have := encChar_pos c
    simp only [List.length_append] at hf
    cases f with
    | zero => omega
    | succ f => rw [decStrictF_char, ih f (by omega)]; rfl

theorem decStrictF_ok {f : Nat} {b : Bytes} {s : Str} (hf : b.length ≤ f)
    (h : decStrictF f b = .ok s) : b = encStr s := by
  induction f generalizing b s with
  | zero =>
    have : b = [] := List.length_eq_zero_iff.mp (by omega)
    subst this
    simp only [decStrictF] at h
    cases h; rfl
  | succ f ih =>
    cases b with
    | nil => simp only [decStrictF] at h; cases h; rfl
    | cons x t =>
      simp only [decStrictF] at h
      cases hd : dec1 x t with
      | bad r => rw [hd] at h; cases h
      | char c r =>
        rw [hd] at h
        simp only at h
        have hx := dec1_char hd
        have hl := congrArg List.length hx
        have := encChar_pos c
        simp only [List.length_cons, List.length_append] at hl hf
        cases hr : decStrictF f r with
        | error e => rw [hr] at h; cases h
        | ok s' =>
          rw [hr] at h
          have h : c :: s' = s := by injection h
          rw [hx, ih (by omega) hr, ← h]; rfl

theorem noChar_of_bad {b : UInt8} {t r : Bytes} (h : dec1 b t = .bad r) (c : Char) (r' : Bytes) :
    b :: t ≠ String.utf8EncodeChar c ++ r' := by
  intro he
  rw [← encChar_eq] at he
  obtain ⟨b', t', h1, h2⟩ := dec1_encChar c r'
  rw [h1, List.cons_append, List.cons.injEq] at he
  obtain ⟨rfl, rfl⟩ := he
  rw [h2] at h
  cases h

theorem drops_cont {p t : Bytes} {s : Str} (hp : ∀ x ∈ p, isCont x = true) (h : Drops t s) :
    Drops (p ++ t) s := by
  induction p with
  | nil => exact h
  | cons x p ih =>
    exact .drop (fun c r => noChar_of_bad (dec1_cont (hp x (List.mem_cons_self ..))) c r)
      (ih fun y hy => hp y (List.mem_cons_of_mem _ hy))

theorem drops_decIgnore (f : Nat) (b : Bytes) (hf : b.length ≤ f) : Drops b (decIgnoreF f b) := by
  induction f generalizing b with
  | zero =>
    have : b = [] := List.length_eq_zero_iff.mp (by omega)
    subst this
    exact .nil
  | succ f ih =>
    cases b with
    | nil => exact .nil
    | cons x t =>
      simp only [decIgnoreF]
      simp only [List.length_cons] at hf
      cases hd : dec1 x t with
      | char c r =>
        have hx := dec1_char hd
        have hl := congrArg List.length hx
        have := encChar_pos c
        simp only [List.length_cons, List.length_append] at hl
        simp only
        rw [hx, encChar_eq]
        exact .keep c (ih r (by omega))
      | bad r =>
        obtain ⟨p, hp, hc⟩ := dec1_bad hd
        have hl := congrArg List.length hp
        simp only [List.length_append] at hl
        refine .drop (fun c r' => noChar_of_bad hd c r') ?_
        rw [hp]
        exact drops_cont hc (ih r (by omega))

theorem encChar_append_inj {c c' : Char} {t t' : Bytes} (h : encChar c ++ t = encChar c' ++ t') :
    c = c' ∧ t = t' := by
  obtain ⟨b, p, h1, h2⟩ := dec1_encChar c t
  obtain ⟨b', p', h1', h2'⟩ := dec1_encChar c' t'
  rw [h1, h1', List.cons_append, List.cons_append, List.cons.injEq] at h
  obtain ⟨rfl, e2⟩ := h
  rw [e2, h2'] at h2
  injection h2 with e3 e4
  exact ⟨e3.symm, e4.symm⟩

theorem drops_unique {b : Bytes} {s s' : Str} (h : Drops b s) (h' : Drops b s') : s = s' := by
  induction h generalizing s' with
  | nil =>
    generalize hb : ([] : Bytes) = b at h'
    cases h' with
    | nil => rfl
    | keep c h =>
      have := encChar_pos c
      rw [encChar_eq] at this
      have := congrArg List.length hb
      simp only [List.length_nil, List.length_append] at this
      omega
    | drop => cases hb
  | @keep c t s _ ih =>
    generalize hb : String.utf8EncodeChar c ++ t = b at h'
    cases h' with
    | nil =>
      have := encChar_pos c
      rw [encChar_eq] at this
      have := congrArg List.length hb
      simp only [List.length_nil, List.length_append] at this
      omega
    | @keep c' t' s' h' =>
      rw [← encChar_eq, ← encChar_eq] at hb
      obtain ⟨rfl, rfl⟩ := encChar_append_inj hb
      rw [ih h']
    | drop hn _ => exact absurd hb.symm (hn c t)
  | @drop x t s hn _ ih =>
    generalize hb : x :: t = b at h'
    cases h' with
    | nil => cases hb
    | keep c h' => exact absurd hb (hn c _)
    | @drop x' t' s' _ h' =>
      injection hb with e1 e2
      subst e1 e2
      exact ih h'

/-- **C19**: with `disable_str_exceptions=True` decoding never raises, and the result is the text
that remains when exactly the bytes at which no encoded character starts are dropped. -/
theorem C19_ignore (b : Bytes) (s : Str) : parseString true b = .ok s ↔ Drops b s := by
  have h0 : parseString true b = .ok (decIgnoreF b.length b) := rfl
  rw [h0]
  have h1 := drops_decIgnore b.length b (Nat.le_refl _)
  constructor
  · intro h; injection h with h; rw [← h]; exact h1
  · intro h; rw [drops_unique h1 h]

/-- **C19**: it never raises. -/
theorem C19_ignore_total (b : Bytes) : ∃ s, parseString true b = .ok s := ⟨_, rfl⟩

/-- **C19**: with `disable_str_exceptions=False` decoding succeeds exactly on the encodings of
texts, -/
theorem C19_strict (b : Bytes) (s : Str) : parseString false b = .ok s ↔ b = utf8 s := by
  have h0 : parseString false b = decStrictF b.length b := rfl
  rw [h0, ← encStr_eq]
  constructor
  · exact decStrictF_ok (Nat.le_refl _)
  · intro h; subst h; exact decStrictF_encStr s _ (Nat.le_refl _)

/-- **C19**: and otherwise raises `UnicodeDecodeError`. -/
theorem C19_strict_raises (b : Bytes) :
    parseString false b = .error .unicodeError ↔ ∀ s, b ≠ utf8 s := by
  constructor
  · intro h s hs
    rw [(C19_strict b s).mpr hs] at h
    cases h
  · intro h
    cases hp : parseString false b with
    | ok s => exact absurd ((C19_strict b s).mp hp) (h s)
    | error e =>
      have h0 : parseString false b = decStrictF b.length b := rfl
      rw [h0] at hp
      rw [decStrictF_err _ _ _ hp]

/-- **C19**: encoding a text and decoding it is the identity, in both modes (so both modes agree on
valid UTF-8). -/
theorem C19_roundtrip (ign : Bool) (s : Str) : parseString ign (encStr s) = .ok s := by
  cases ign with
  | false => exact (C19_strict _ _).mpr (encStr_eq s)
  | true =>
    rw [C19_ignore, encStr_eq]
    induction s with
    | nil => exact .nil
    | cons c s ih => exact .keep c ih

/-- **C19**: `bytes(s, 'utf-8')` is Lean's UTF-8 encoding of the text. -/
theorem C19_encode (s : Str) : (encStr s).toByteArray = s.utf8Encode := by
  rw [encStr_eq]; rfl

/-- a truncated 3-byte sequence, a stray continuation byte and a surrogate are dropped -/
example : parseString true [0x61, 0xE2, 0x82, 0x62, 0x80, 0xED, 0xA0, 0x80, 0xC3, 0xA9]
    = .ok (py! "abé") := rfl

example : (∀ s, [(0x61 : UInt8), 0xE2, 0x82, 0x62] ≠ utf8 s) :=
  (C19_strict_raises _).mp rfl

example : (parseString false (utf8 (py! "a€😀é"))).toOption = some (py! "a€😀é") := by
  decide +kernel

/-- **C52**: the exceptions that can leave the constructor. `IndexError` never does; a
`UnicodeDecodeError` does only when string exceptions are enabled. -/
theorem C52_load_exceptions {fuel : Nat} {cfg : Cfg} {bs : Bytes} {e : PyErr}
    (h : load fuel cfg bs = .raised e) :
    (e = .typeError ∧ ¬ HeaderOk bs) ∨
    e ∈ [.structError, .valueError, .notImplemented, .osError, .recursionError, .keyError] ∨ (e = .unicodeError ∧ cfg.ign = false) := by
  rw [load_eq] at h
  split at h
  · rename_i e' hh
    cases h
    left
    unfold readHeader at hh
    simp only at hh
    split at hh
    · rename_i hl
      cases hh
      refine ⟨rfl, fun hk => hl ?_⟩
      have := hk.1
      simp [readAt]; omega
    · split at hh
      · rename_i hl hm
        cases hh
        refine ⟨rfl, fun hk => hm ?_⟩
        have h2 := hk.2
        simp only [readAt, List.drop_zero, slice, List.take_take]
        exact h2
      · cases hh
  · right
    split at h
    · rename_i e' heq
      cases h
      rcases defLoop_err heq with h | ⟨h, h'⟩ | h | h | h
      · simp [h]
      · exact Or.inr ⟨h, h'⟩
      all_goals simp [h]
    · cases h
    · split at h
      · cases h
      · rcases readSections_err h with ⟨h, h'⟩ | h | h | h | h
        · exact Or.inr ⟨h, h'⟩
        all_goals simp [h]

/-- **C52**: in particular, with `disable_str_exceptions=True` no file makes the constructor raise
`UnicodeDecodeError`, and none makes it raise `IndexError`. -/
theorem C52_no_unicode_error (fuel : Nat) (cfg : Cfg) (bs : Bytes) (hi : cfg.ign = true) :
    load fuel cfg bs ≠ .raised .unicodeError ∧ load fuel cfg bs ≠ .raised .indexError := by
  constructor <;> intro h <;> have := C52_load_exceptions h <;> simp [hi] at this

/-- a file whose info message has an ill-formed key: strict mode raises, the default mode loads -/
example : load 20 { ign := false } (Sample.header ++ encMsgs [(tyI, [3, 0x63, 0x20, 0xFF, 1])])
      = .raised .unicodeError ∧
    load 20 {} [1, 2, 3] = .raised .typeError := by decide +kernel

end PyULog
