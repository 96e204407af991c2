import Verif.Spec.LoadError
import Verif.Lemmas.Trace
import Verif.Lemmas.CanWrite
import Verif.Lemmas.Datasets
import Verif.Props.Text
import Verif.Props.FormatText
import Verif.Props.Formats
/-
Why parsing a message fails (for C91).
-/
namespace PyULog
open Spec

/-! ### text -/

theorem text_iff {ign : Bool} {b : Bytes} {s : Str} : parseString ign b = .ok s ↔ TextOf ign b s := by
  cases ign with
  | true => exact C19_ignore b s
  | false => exact C19_strict b s

theorem text_err {ign : Bool} {b : Bytes} {e : PyErr} (h : parseString ign b = .error e) :
    e = .unicodeError ∧ ign = false ∧ NoText b := by
  obtain ⟨rfl, rfl⟩ := parseString_err h
  exact ⟨rfl, rfl, (C19_strict_raises b).mp h⟩

theorem text_no {ign : Bool} {b : Bytes} {s : Str} (h : parseString ign b = .ok s) (hi : ign = false) :
    ¬ NoText b := by
  subst hi
  intro hn
  exact hn s ((C19_strict b s).mp h)

theorem text_same {ign : Bool} {b : Bytes} {s t : Str} (h : parseString ign b = .ok s) (ht : TextOf ign b t) :
    s = t := by
  have := text_iff.mpr ht
  rw [h] at this
  injection this

/-! ### split texts -/

theorem split_none {c : Char} {s : Str} : (pySplit c s)[1]? = none ↔ c ∉ s := by
  obtain ⟨h1, h2, h3⟩ := split_spec c s
  cases hp : pySplit c s with
  | nil => exact absurd hp h1
  | cons p ps =>
    rw [hp] at h2 h3
    cases ps with
    | nil =>
      have : s = p := by rw [h2]; simp [List.intercalate]
      rw [this]
      simp only [List.getElem?_cons_succ, List.getElem?_nil, true_iff]
      exact h3 p (List.mem_cons_self ..)
    | cons q ps =>
      rw [intercalate_cons_cons] at h2
      simp [h2]

theorem split_type {c : Char} {s ty q : Str} (h : (pySplit c s)[0]? = some ty) (h1 : (pySplit c s)[1]? = some q) :
    ∃ rest, s = ty ++ c :: rest ∧ c ∉ ty := by
  obtain ⟨_, h2, h3⟩ := split_spec c s
  cases hp : pySplit c s with
  | nil => rw [hp] at h; cases h
  | cons p ps =>
    rw [hp] at h h1 h2 h3
    cases ps with
    | nil => cases h1
    | cons q ps =>
      rw [intercalate_cons_cons] at h2
      injection h with h
      subst h
      exact ⟨_, h2, h3 p (List.mem_cons_self ..)⟩

theorem type_split {c : Char} {s ty rest : Str} (h : s = ty ++ c :: rest) (hn : c ∉ ty) :
    (pySplit c s)[0]? = some ty := by
  rw [h, pySplit_append hn]
  rfl

theorem pyIndex_none {l : List α} {i : Nat} {e : PyErr} (h : pyIndex l i = .error e) :
    e = .indexError ∧ l[i]? = none := by
  refine ⟨pyIndex_err h, ?_⟩
  unfold pyIndex at h
  split at h
  · cases h
  · assumption

theorem split_zero {c : Char} {s : Str} {e : PyErr} : pyIndex (pySplit c s) 0 ≠ .error e := by
  intro h
  have := (pyIndex_none h).2
  have h1 := (split_spec c s).1
  cases hp : pySplit c s with
  | nil => exact h1 hp
  | cons p ps => rw [hp] at this; cases this

/-! ### info messages -/

theorem info_len {d : Bytes} {k : Nat} (h : unpackU 1 (slice 0 1 d) = .ok k) : d ≠ [] ∧ k = byteAt d 0 := by
  obtain ⟨h1, h2⟩ := unpackU_eq_ok h
  rw [slice_length] at h1
  have : 1 ≤ d.length := by omega
  exact ⟨by rintro rfl; simp at this, by rw [h2, byteAt_zero d this]⟩

theorem byte_err {d : Bytes} {e : PyErr} (h : unpackU 1 (slice 0 1 d) = .error e) : e = .structError ∧ d = [] := by
  obtain ⟨h1, h2⟩ := unpackU_eq_error h
  rw [slice_length] at h1
  refine ⟨h2, ?_⟩
  cases d with
  | nil => rfl
  | cons x xs => simp at h1

theorem key_slice (d : Bytes) : slice 1 (1 + byteAt d 0) d = keyBytes d := by
  unfold slice keyBytes
  rw [List.drop_take]
  congr 1
  omega

theorem value_err {ign : Bool} {s ty : Str} {d : Bytes} {e : PyErr} (ht : TextOf ign (keyBytes d) s)
    (hty : TypeOf s ty) (h : parseInfoValue ign ty (valueBytes d) = .error e) : KeyObstacle ign d e := by
  unfold parseInfoValue at h
  split at h
  · rename_i hc
    obtain ⟨rfl, hi, hn⟩ := text_err (except_map_error.mp h)
    exact .text ht hty (List.isPrefixOf_iff_prefix.mp hc) hi hn
  · split at h
    · rename_i t hb
      obtain ⟨rfl, hl⟩ := unpackScalar_err h
      exact .size ht hty (by rw [basicType_eq]; exact hb) hl
    · cases h

theorem info_obstacle {ign : Bool} {d : Bytes} {e : PyErr} (h : parseInfo ign d = .error e) :
    KeyObstacle ign d e := by
  unfold parseInfo at h
  rcases except_bind_error.mp h with hb | ⟨k, hk, h⟩
  · obtain ⟨rfl, hd⟩ := byte_err hb
    exact .empty hd
  obtain ⟨hd, rfl⟩ := info_len hk
  rw [key_slice] at h
  rcases except_bind_error.mp h with hb | ⟨s, hs, h⟩
  · obtain ⟨rfl, hi, hn⟩ := text_err hb
    exact .key hi hn
  rcases except_bind_error.mp h with hb | ⟨ty, hty, h⟩
  · exact absurd hb split_zero
  rcases except_bind_error.mp h with hb | ⟨key, hkey, h⟩
  · obtain ⟨rfl, hn⟩ := pyIndex_none hb
    exact .space hd (text_iff.mp hs) (split_none.mp hn)
  rcases except_bind_error.mp h with hb | ⟨v, hv, h⟩
  · exact value_err (text_iff.mp hs) (split_type (pyIndex_some.mp hty) (pyIndex_some.mp hkey)) hb
  · cases h

theorem info_unfold {ign : Bool} {d : Bytes} (hd : d ≠ []) :
    parseInfo ign d = (do
      let typeKey ← parseString ign (keyBytes d)
      let type ← pyIndex (pySplit ' ' typeKey) 0
      let key ← pyIndex (pySplit ' ' typeKey) 1
      let value ← parseInfoValue ign type (valueBytes d)
      return { cont := 0, type, key, value }) := by
  have h1 : 1 ≤ d.length := by
    cases d with
    | nil => exact absurd rfl hd
    | cons => simp
  unfold parseInfo
  rw [unpackU_ok (by rw [slice_length]; omega), ok_bind, ← byteAt_zero d h1, key_slice]
  rfl

theorem type_ne {ign : Bool} {d : Bytes} {s ty : Str} (ht : TextOf ign (keyBytes d) s) (hty : TypeOf s ty) : d ≠ [] := by
  rintro rfl
  have h := text_iff.mpr ht
  have h0 : parseString ign (keyBytes []) = .ok [] := by cases ign <;> rfl
  rw [h0] at h
  injection h with h
  subst h
  obtain ⟨r, hr, _⟩ := hty
  cases ty <;> cases hr

theorem noText_ne {b : Bytes} (h : NoText b) : b ≠ [] := by
  rintro rfl
  exact h [] rfl

theorem noText_err {ign : Bool} {b : Bytes} (hi : ign = false) (hn : NoText b) :
    parseString ign b = .error .unicodeError := by
  subst hi
  exact (C19_strict_raises b).mpr hn

theorem type_value {ign : Bool} {d : Bytes} {s ty : Str} {e : PyErr} (ht : TextOf ign (keyBytes d) s) (hty : TypeOf s ty)
    (hv : parseInfoValue ign ty (valueBytes d) = .error e) : parseInfo ign d = .error e := by
  rw [info_unfold (type_ne ht hty), text_iff.mpr ht, ok_bind]
  obtain ⟨rest, h1, h2⟩ := hty
  rw [pyIndex_some.mpr (type_split h1 h2), ok_bind]
  have hin : ' ' ∈ s := by rw [h1]; simp
  cases hk : pyIndex (pySplit ' ' s) 1 with
  | error e' => exact absurd hin (split_none.mp (pyIndex_none hk).2)
  | ok k =>
    rw [ok_bind, hv]
    rfl

theorem info_iff {ign : Bool} {d : Bytes} {e : PyErr} : parseInfo ign d = .error e ↔ KeyObstacle ign d e := by
  refine ⟨info_obstacle, fun ho => ?_⟩
  cases ho with
  | empty h0 => subst h0; rfl
  | key hi hn =>
    have hd : d ≠ [] := by
      rintro rfl
      exact noText_ne hn rfl
    rw [info_unfold hd, noText_err hi hn]
    rfl
  | @space s hd ht hn =>
    rw [info_unfold hd, text_iff.mpr ht, ok_bind]
    cases h0 : pyIndex (pySplit ' ' s) 0 with
    | error e' => exact absurd h0 split_zero
    | ok t =>
      have : pyIndex (pySplit ' ' s) 1 = .error .indexError := by
        unfold pyIndex
        rw [split_none.mpr hn]
      rw [ok_bind, this]
      rfl
  | text ht hty hc hi hn =>
    apply type_value ht hty
    unfold parseInfoValue
    rw [if_pos (show startsWith _ _ = true from List.isPrefixOf_iff_prefix.mpr hc), noText_err hi hn]
    rfl
  | @size s ty t ht hty hb hl =>
    apply type_value ht hty
    unfold parseInfoValue
    have hc : ¬ startsWith (py! "char[") ty = true := by
      intro hc
      obtain ⟨r, rfl⟩ := List.isPrefixOf_iff_prefix.mp hc
      simp [basicType, typeTable] at hb
    rw [if_neg hc, ← basicType_eq, hb]
    show unpackScalar t (valueBytes d) = _
    unfold unpackScalar
    exact if_pos hl

theorem multi_iff {ign : Bool} {d : Bytes} {e : PyErr} : parseInfoMulti ign d = .error e ↔
    (d = [] ∧ e = .structError) ∨ (d ≠ [] ∧ KeyObstacle ign (d.drop 1) e) := by
  unfold parseInfoMulti
  cases d with
  | nil =>
    constructor
    · intro h
      cases h
      exact Or.inl ⟨rfl, rfl⟩
    · rintro (⟨_, rfl⟩ | ⟨h, _⟩)
      · rfl
      · exact absurd rfl h
  | cons x xs =>
    rw [unpackU_ok (by simp [slice]), ok_bind]
    rw [show (x :: xs).drop 1 = xs from rfl, ← info_iff]
    cases parseInfo ign xs with
    | ok m => exact ⟨fun h => (by cases h), (by rintro (⟨h, _⟩ | ⟨_, h⟩) <;> cases h)⟩
    | error e' => exact ⟨fun h => (by cases h; exact Or.inr ⟨by simp, rfl⟩), (by rintro (⟨h, _⟩ | ⟨_, h⟩) <;> cases h; rfl)⟩

theorem default_iff {ign : Bool} {d : Bytes} {e : PyErr} : parseParamDefault ign d = .error e ↔
    (d = [] ∧ e = .structError) ∨ (d ≠ [] ∧ KeyObstacle ign (d.drop 1) e) := by
  unfold parseParamDefault
  cases d with
  | nil =>
    constructor
    · intro h
      cases h
      exact Or.inl ⟨rfl, rfl⟩
    · rintro (⟨_, rfl⟩ | ⟨h, _⟩)
      · rfl
      · exact absurd rfl h
  | cons x xs =>
    rw [unpackU_ok (by simp [slice]), ok_bind]
    rw [show (x :: xs).drop 1 = xs from rfl, ← info_iff]
    cases parseInfo ign xs with
    | ok m => exact ⟨fun h => (by cases h), (by rintro (⟨h, _⟩ | ⟨_, h⟩) <;> cases h)⟩
    | error e' => exact ⟨fun h => (by cases h; exact Or.inr ⟨by simp, rfl⟩), (by rintro (⟨h, _⟩ | ⟨_, h⟩) <;> cases h; rfl)⟩

/-! ### formats -/

theorem mapM_filter_err {f : α → Except PyErr β} {c : α → Bool} {l : List α} {e : PyErr} :
    (l.filter c).mapM f = .error e ↔ ∃ pre p post, l = pre ++ p :: post ∧ (∀ q ∈ pre, c q = false ∨ ∃ y, f q = .ok y) ∧
      c p = true ∧ f p = .error e := by
  induction l with
  | nil =>
    constructor
    · intro h; cases h
    · rintro ⟨pre, p, post, h, _⟩
      cases pre <;> cases h
  | cons x xs ih =>
    have skip : (c x = false ∨ ∃ y, f x = .ok y) →
        ((∃ pre p post, x :: xs = pre ++ p :: post ∧ (∀ q ∈ pre, c q = false ∨ ∃ y, f q = .ok y) ∧
          c p = true ∧ f p = .error e) ↔ (∃ pre p post, xs = pre ++ p :: post ∧ (∀ q ∈ pre, c q = false ∨ ∃ y, f q = .ok y) ∧
          c p = true ∧ f p = .error e)) := by
      intro hx
      constructor
      · rintro ⟨pre, p, post, h, h1, h2, h3⟩
        cases pre with
        | nil =>
          injection h with h4 h5
          subst h4
          rcases hx with hx | ⟨y, hy⟩
          · rw [hx] at h2; cases h2
          · rw [hy] at h3; cases h3
        | cons q pre =>
          injection h with h4 h5
          exact ⟨pre, p, post, h5, fun q hq => h1 q (List.mem_cons_of_mem _ hq), h2, h3⟩
      · rintro ⟨pre, p, post, h, h1, h2, h3⟩
        refine ⟨x :: pre, p, post, by rw [h]; rfl, ?_, h2, h3⟩
        intro q hq
        rcases List.mem_cons.mp hq with rfl | hq
        · exact hx
        · exact h1 q hq
    by_cases hc : c x = true
    · rw [List.filter_cons_of_pos hc, List.mapM_cons]
      cases hf : f x with
      | error e' =>
        constructor
        · intro h
          cases h
          exact ⟨[], x, xs, rfl, by simp, hc, hf⟩
        · rintro ⟨pre, p, post, h, h1, h2, h3⟩
          cases pre with
          | nil =>
            injection h with h4 h5
            subst h4
            rw [hf] at h3
            cases h3
            rfl
          | cons q pre =>
            injection h with h4 h5
            subst h4
            rcases h1 x (List.mem_cons_self ..) with h | ⟨y, h⟩
            · rw [hc] at h; cases h
            · rw [hf] at h; cases h
      | ok y =>
        rw [ok_bind, skip (Or.inr ⟨y, hf⟩), ← ih]
        cases (xs.filter c).mapM f with
        | ok ys => exact ⟨fun h => (by cases h), fun h => (by cases h)⟩
        | error e' => exact ⟨fun h => (by cases h; rfl), fun h => (by cases h; rfl)⟩
    · rw [List.filter_cons_of_neg hc, skip (Or.inl (by simpa using hc)), ih]

theorem extract_err {p : Str} {e : PyErr} (h : extractType p = .error e) :
    (e = .indexError ∧ ' ' ∉ p) ∨ (e = .valueError ∧ ' ' ∈ p ∧ ∀ f, ¬ FieldText p f) := by
  have hno : ∀ f, ¬ FieldText p f := by
    intro f hf
    rw [(extractType_iff _ _).mpr hf] at h
    cases h
  unfold extractType at h
  rcases except_bind_error.mp h with hb | ⟨ty, hty, h⟩
  · exact absurd hb split_zero
  rcases except_bind_error.mp h with hb | ⟨key, hkey, h⟩
  · obtain ⟨rfl, hn⟩ := pyIndex_none hb
    exact Or.inl ⟨rfl, split_none.mp hn⟩
  · right
    have hin : ' ' ∈ p := by
      rcases Classical.em (' ' ∈ p) with hc | hc
      · exact hc
      · have := split_none.mpr hc
        rw [pyIndex_some.mp hkey] at this
        cases this
    split at h
    · cases h
    · rcases except_bind_error.mp h with hb | ⟨n, _, h⟩
      · exact ⟨pyInt_err hb, hin, hno⟩
      · cases h

theorem fieldText_space {p : Str} {f : FieldDef} (h : FieldText p f) : ' ' ∈ p := by
  have h := (extractType_iff _ _).mpr h
  unfold extractType at h
  obtain ⟨ty, hty, h⟩ := except_bind_ok.mp h
  obtain ⟨key, hkey, h⟩ := except_bind_ok.mp h
  rcases Classical.em (' ' ∈ p) with hc | hc
  · exact hc
  · have := split_none.mpr hc
    rw [pyIndex_some.mp hkey] at this
    cases this

theorem extract_iff {p : Str} {e : PyErr} : extractType p = .error e ↔
    (e = .indexError ∧ ' ' ∉ p) ∨ (e = .valueError ∧ ' ' ∈ p ∧ ∀ f, ¬ FieldText p f) := by
  refine ⟨extract_err, fun h => ?_⟩
  cases hx : extractType p with
  | ok f =>
    have hf := (extractType_iff _ _).mp hx
    rcases h with ⟨_, h⟩ | ⟨_, _, h⟩
    · exact absurd (fieldText_space hf) h
    · exact absurd hf (h f)
  | error e' =>
    rcases h with ⟨rfl, h⟩ | ⟨rfl, h, h'⟩ <;> rcases extract_err hx with ⟨rfl, h2⟩ | ⟨rfl, h2, h3⟩
    · rfl
    · exact absurd h2 h
    · exact absurd h h2
    · rfl

/-- the fields of a format fail at the first bad one -/
theorem fields_err {s body : Str} {e : PyErr} (h : (pySplit ':' s)[1]? = some body) :
    ((pySplit ';' body).filter (fun t => t.length > 0)).mapM extractType = .error e ↔
      ∃ p, FirstBad s p ∧ ((e = .indexError ∧ ' ' ∉ p) ∨ (e = .valueError ∧ ' ' ∈ p)) := by
  rw [mapM_filter_err]
  constructor
  · rintro ⟨pre, p, post, h1, h2, h3, h4⟩
    have hno : ∀ f, ¬ FieldText p f := by
      intro f hf
      rw [(extractType_iff _ _).mpr hf] at h4
      cases h4
    refine ⟨p, ⟨_, body, _, pre, post, split_spec ':' s, h, split_spec ';' body, h1, ?_, ?_, hno⟩, ?_⟩
    · intro q hq
      rcases h2 q hq with h5 | ⟨f, h5⟩
      · left
        cases q with
        | nil => rfl
        | cons => simp at h5
      · exact Or.inr ⟨f, (extractType_iff _ _).mp h5⟩
    · rintro rfl
      simp at h3
    · rcases extract_err h4 with ⟨h5, h6⟩ | ⟨h5, h6, _⟩
      · exact Or.inl ⟨h5, h6⟩
      · exact Or.inr ⟨h5, h6⟩
  · rintro ⟨p, ⟨parts, b, fs, pre, post, h1, h2, h3, h4, h5, h6, h7⟩, h8⟩
    rw [← split_unique h1, h] at h2
    injection h2 with h2
    subst h2
    rw [split_unique h3]
    refine ⟨pre, p, post, h4, ?_, ?_, ?_⟩
    · intro q hq
      rcases h5 q hq with rfl | ⟨f, hf⟩
      · exact Or.inl rfl
      · exact Or.inr ⟨f, (extractType_iff _ _).mpr hf⟩
    · cases p with
      | nil => exact absurd rfl h6
      | cons => simp
    · rw [extract_iff]
      rcases h8 with h8 | ⟨h8, h9⟩
      · exact Or.inl h8
      · exact Or.inr ⟨h8, h9, h7⟩

theorem format_obstacle {ign : Bool} {d : Bytes} {e : PyErr} (h : parseFormat ign d = .error e) :
    FormatObstacle ign d e := by
  unfold parseFormat at h
  rcases except_bind_error.mp h with hb | ⟨s, hs, h⟩
  · obtain ⟨rfl, hi, hn⟩ := text_err hb
    exact .text hi hn
  rcases except_bind_error.mp h with hb | ⟨ty, hty, h⟩
  · exact absurd hb split_zero
  rcases except_bind_error.mp h with hb | ⟨body, hbody, h⟩
  · obtain ⟨rfl, hn⟩ := pyIndex_none hb
    exact .colon (text_iff.mp hs) (split_none.mp hn)
  rcases except_bind_error.mp h with hb | ⟨fs, _, h⟩
  · obtain ⟨p, hp, hpe⟩ := (fields_err (pyIndex_some.mp hbody)).mp hb
    rcases hpe with ⟨rfl, h1⟩ | ⟨rfl, h1⟩
    · exact .field (text_iff.mp hs) hp h1
    · exact .size (text_iff.mp hs) hp h1
  · cases h

theorem bad_format {ign : Bool} {d : Bytes} {s p : Str} {e : PyErr} (ht : TextOf ign d s) (hb : FirstBad s p)
    (he : (e = .indexError ∧ ' ' ∉ p) ∨ (e = .valueError ∧ ' ' ∈ p)) : parseFormat ign d = .error e := by
  obtain ⟨parts, body, fs, pre, post, h1, h2, hr⟩ := id hb
  rw [← split_unique h1] at h2
  unfold parseFormat
  rw [text_iff.mpr ht, ok_bind]
  show (pyIndex (pySplit ':' s) 0 >>= _) = _
  cases h0 : pyIndex (pySplit ':' s) 0 with
  | error e' => exact absurd h0 split_zero
  | ok t =>
    rw [ok_bind, pyIndex_some.mpr h2, ok_bind, (fields_err h2).mpr ⟨p, hb, he⟩]
    rfl

theorem format_iff {ign : Bool} {d : Bytes} {e : PyErr} : parseFormat ign d = .error e ↔ FormatObstacle ign d e := by
  refine ⟨format_obstacle, fun ho => ?_⟩
  cases ho with
  | text hi hn =>
    unfold parseFormat
    rw [noText_err hi hn]
    rfl
  | @colon s ht hn =>
    unfold parseFormat
    rw [text_iff.mpr ht, ok_bind]
    show (pyIndex (pySplit ':' s) 0 >>= _) = _
    cases h0 : pyIndex (pySplit ':' s) 0 with
    | error e' => exact absurd h0 split_zero
    | ok t =>
      have : pyIndex (pySplit ':' s) 1 = .error .indexError := by
        unfold pyIndex
        rw [split_none.mpr hn]
      rw [ok_bind, this]
      rfl
  | field ht hb hn => exact bad_format ht hb (Or.inl ⟨rfl, hn⟩)
  | size ht hb hn => exact bad_format ht hb (Or.inr ⟨rfl, hn⟩)

/-! ### subscriptions -/

theorem nestedIn_chain {F : Dict Str MsgFormat} {n : Nat} {a b : Str} (h : NestedIn F n a b) : Chain F n a b := by
  induction h with
  | self a => exact .nil a
  | step _ hu ih => exact ih.snoc hu

theorem Spec.NestedIn.cons {F : Dict Str MsgFormat} {n : Nat} {a b c : Str} (hu : Uses F a b) (h : NestedIn F n b c) :
    NestedIn F (n + 1) a c := by
  induction h with
  | self b => exact .step (.self a) hu
  | step _ hu' ih => exact .step (ih hu) hu'

theorem chain_nestedIn {F : Dict Str MsgFormat} {n : Nat} {a b : Str} (h : Chain F n a b) : NestedIn F n a b := by
  induction h with
  | nil a => exact .self a
  | cons hu _ ih => exact ih.cons hu

theorem key_chain {F : Dict Str MsgFormat} {d : Nat} {pre a : Str} {acc : NestAcc}
    (h : nest F d pre a acc = .error .keyError) : ∃ n b, n < d ∧ Chain F n a b ∧ F.get? b = none := by
  induction d generalizing pre a acc with
  | zero => cases h
  | succ d ih =>
    rw [nest_succ] at h
    cases hf : F.get? a with
    | none => exact ⟨0, a, by omega, .nil a, hf⟩
    | some fmt =>
      rw [hf] at h
      simp only at h
      obtain ⟨f, hm, acc', h1⟩ := foldlM_error h
      cases hb : basicType f.type with
      | some t => rw [nestStep_basic hb] at h1; cases h1
      | none =>
        rw [nestStep_nested hb] at h1
        obtain ⟨s, _, acc2, h2⟩ := foldlM_error h1
        obtain ⟨n, b, hn, hcb, hnb⟩ := ih h2
        exact ⟨n + 1, b, by omega, .cons ⟨fmt, hf, f, hm, hb, rfl⟩ hcb, hnb⟩

theorem columns_iff {F : Dict Str MsgFormat} {depth : Nat} {name : Str} {cols cols' : List FieldData} {idx : Int}
    (h : parseFields F depth name = .ok (cols, idx)) (hc : Columns F name cols') : cols' = cols := by
  obtain ⟨fmt, full, h1, h2, h3⟩ := C08_columns_sound _ _ _ _ _ h
  obtain ⟨fmt', full', h1', h2', h3'⟩ := hc
  rw [h1] at h1'
  injection h1' with h1'
  subst h1'
  exact C08_columns_unique F _ _ _ _ _ h2' h2 h3' h3

theorem fields_ok_depth {F : Dict Str MsgFormat} {depth : Nat} {name : Str} {r : NestAcc}
    (h : parseFields F depth name = .ok r) (t : Str) : ¬ NestedIn F depth name t := by
  intro hch
  unfold parseFields at h
  obtain ⟨acc, hn, _⟩ := except_bind_ok.mp h
  exact Nat.lt_irrefl _ (chain_lt (nestedIn_chain hch) hn).1

theorem fields_ok_known {F : Dict Str MsgFormat} {depth n : Nat} {name t : Str} {r : NestAcc}
    (h : parseFields F depth name = .ok r) (hch : NestedIn F n name t) : F.get? t ≠ none := by
  intro hnb
  unfold parseFields at h
  obtain ⟨acc, hn, _⟩ := except_bind_ok.mp h
  obtain ⟨hlt, p, a1, a2, h4⟩ := chain_lt (nestedIn_chain hch) hn
  obtain ⟨k, hk⟩ : ∃ k, depth - n = k + 1 := ⟨_, (Nat.sub_add_cancel (Nat.sub_pos_of_lt hlt)).symm⟩
  rw [hk, nest_succ, hnb] at h4
  cases h4

theorem fields_bad {F : Dict Str MsgFormat} {depth : Nat} {name : Str} {e : PyErr}
    (h : parseFields F depth name = .error e) :
    (e = .recursionError ∧ ∃ t, NestedIn F depth name t) ∨
      (e = .keyError ∧ ∃ n t, n < depth ∧ NestedIn F n name t ∧ F.get? t = none) := by
  unfold parseFields at h
  rcases except_bind_error.mp h with hb | ⟨_, _, hb⟩
  · rcases nest_err hb with rfl | rfl
    · obtain ⟨b, hch⟩ := recursion_chain hb
      exact Or.inl ⟨rfl, b, chain_nestedIn hch⟩
    · obtain ⟨n, b, hn, hch, hnb⟩ := key_chain hb
      exact Or.inr ⟨rfl, n, b, hn, chain_nestedIn hch, hnb⟩
  · cases hb

/-- a topic whose columns exist is accepted unless its nesting is too deep -/
theorem columns_parse {F : Dict Str MsgFormat} {depth : Nat} {name : Str} {cols : List FieldData}
    (hc : Columns F name cols) (hnd : ∀ t, ¬ NestedIn F depth name t) :
    ∃ cols' idx, parseFields F depth name = .ok (cols', idx) := by
  cases hp : parseFields F depth name with
  | ok r => exact ⟨r.1, r.2, rfl⟩
  | error r =>
    exfalso
    rcases fields_bad hp with ⟨_, t, h⟩ | ⟨_, n, t, _, h, hn⟩
    · exact hnd t h
    · obtain ⟨fmt, full, h1, h2, h3⟩ := hc
      obtain ⟨d0, h0⟩ := C08_columns_complete F name fmt full cols h1 h2 h3
      obtain ⟨idx, hi⟩ := h0 d0 (Nat.le_refl _)
      exact fields_ok_known hi h hn

theorem sub_obstacle {ign : Bool} {F : Dict Str MsgFormat} {depth : Nat} {d : Bytes} {e : PyErr}
    (h : parseAddLogged ign F depth d = .error e) : SubObstacle ign F depth d e := by
  unfold parseAddLogged at h
  rcases except_bind_error.mp h with hb | ⟨mi, hmi, h⟩
  · obtain ⟨rfl, hd⟩ := byte_err hb
    exact .short (by simp [hd])
  rcases except_bind_error.mp h with hb | ⟨id, hid, h⟩
  · obtain ⟨hl, rfl⟩ := unpackU_eq_error hb
    rw [slice_length] at hl
    exact .short (by omega)
  have hlen : 3 ≤ d.length := by
    have := (unpackU_eq_ok hid).1
    rw [slice_length] at this
    omega
  rcases except_bind_error.mp h with hb | ⟨s, hs, h⟩
  · obtain ⟨rfl, hi, hn⟩ := text_err hb
    exact .text hi hn
  rcases except_bind_error.mp h with hb | ⟨⟨cols, idx⟩, hc, h⟩
  · rcases fields_bad hb with ⟨rfl, b, hch⟩ | ⟨rfl, n, b, hn, hch, hnb⟩
    · exact .deep hlen (text_iff.mp hs) hch
    · exact .unknown hlen (text_iff.mp hs) hn hch hnb
  · obtain ⟨fmt, full, h1, h2, h3⟩ := C08_columns_sound _ _ _ _ _ hc
    have hcols : Columns F s cols := ⟨fmt, full, h1, h2, h3⟩
    simp only at h
    rw [dtypeFields_names] at h
    split at h
    · rename_i hnd
      cases h
      exact .twice hlen (text_iff.mp hs) (fields_ok_depth hc) hcols hnd
    · cases h

/-- the obstacle decides, except between a type that is not defined and a nesting that is too deep -/
theorem sub_raises {ign : Bool} {F : Dict Str MsgFormat} {depth : Nat} {d : Bytes} {e : PyErr}
    (h : SubObstacle ign F depth d e) : ∃ e', parseAddLogged ign F depth d = .error e' ∧
      (e' = e ∨ (e ∈ [.keyError, .recursionError] ∧ e' ∈ [.keyError, .recursionError])) := by
  by_cases hl : d.length < 3
  · have e1 : parseAddLogged ign F depth d = .error .structError := by
      unfold parseAddLogged
      cases hb : unpackU 1 (slice 0 1 d) with
      | error e' => rw [(unpackU_eq_error hb).2]; rfl
      | ok k =>
        rw [ok_bind]
        cases hb : unpackU 2 (slice 1 3 d) with
        | error e' => rw [(unpackU_eq_error hb).2]; rfl
        | ok k =>
          have := (unpackU_eq_ok hb).1
          rw [slice_length] at this
          omega
    rw [e1]
    cases h with
    | short => exact ⟨_, rfl, Or.inl rfl⟩
    | text hi hn =>
      exfalso
      apply noText_ne hn
      rw [List.drop_eq_nil_iff]
      omega
    | unknown h3 => omega
    | deep h3 => omega
    | twice h3 => omega
  · have hlen : 3 ≤ d.length := by omega
    have e1 : ∀ nm, TextOf ign (d.drop 3) nm → ∀ r, parseFields F depth nm = .error r →
        parseAddLogged ign F depth d = .error r := by
      intro nm hnm r hr
      unfold parseAddLogged
      rw [unpackU_ok (by rw [slice_length]; omega), ok_bind, unpackU_ok (by rw [slice_length]; omega), ok_bind,
        text_iff.mpr hnm, ok_bind, hr]
      rfl
    have e2 : ∀ nm, TextOf ign (d.drop 3) nm → ∀ cols idx, parseFields F depth nm = .ok (cols, idx) →
        parseAddLogged ign F depth d =
          if ¬ ((dtypeFields cols).map (·.name)).Nodup then .error .valueError
          else .ok {
            multiId := leNat (slice 0 1 d), msgId := leNat (slice 1 3 d), name := nm, fields := cols, tsIdx := idx
            tsOff := tsOffset cols
            maxSize := fieldsSize cols
            itemSize := fieldsSize cols
            buffer := [] } := by
      intro nm hnm cols idx hr
      unfold parseAddLogged
      rw [unpackU_ok (by rw [slice_length]; omega), ok_bind, unpackU_ok (by rw [slice_length]; omega), ok_bind,
        text_iff.mpr hnm, ok_bind, hr]
      rfl
    cases h with
    | short h => omega
    | text hi hn =>
      refine ⟨.unicodeError, ?_, Or.inl rfl⟩
      unfold parseAddLogged
      rw [unpackU_ok (by rw [slice_length]; omega), ok_bind, unpackU_ok (by rw [slice_length]; omega), ok_bind,
        noText_err hi hn]
      rfl
    | @unknown name t n _ ht hlt hch hnb =>
      cases hp : parseFields F depth name with
      | ok r => exact absurd hnb (fields_ok_known hp hch)
      | error r =>
        refine ⟨r, e1 _ ht _ hp, Or.inr ⟨by simp, ?_⟩⟩
        rcases fields_bad hp with ⟨rfl, _⟩ | ⟨rfl, _⟩ <;> simp
    | @deep name t _ ht hch =>
      cases hp : parseFields F depth name with
      | ok r => exact absurd hch (fields_ok_depth hp t)
      | error r =>
        refine ⟨r, e1 _ ht _ hp, Or.inr ⟨by simp, ?_⟩⟩
        rcases fields_bad hp with ⟨rfl, _⟩ | ⟨rfl, _⟩ <;> simp
    | @twice name cols _ ht hnd hc hdup =>
      obtain ⟨c', idx, hp⟩ := columns_parse hc hnd
      cases columns_iff hp hc
      refine ⟨_, ?_, Or.inl rfl⟩
      rw [e2 _ ht _ _ hp, dtypeFields_names, if_pos hdup]

/-! ### flags, texts, dropouts, samples -/

theorem flagBits_err {d : Bytes} {e : PyErr} (h : parseFlagBits d = .error e) : e = .structError ∧ d.length < 40 := by
  have ub : ∀ {n : Nat} {b : Bytes} {e : PyErr}, unpackBytes n b = .error e → e = .structError ∧ b.length ≠ n := by
    intro n b e h
    unfold unpackBytes at h
    split at h
    · cases h
    · cases h; exact ⟨rfl, ‹_›⟩
  unfold parseFlagBits at h
  rcases except_bind_error.mp h with hb | ⟨_, _, h⟩
  · obtain ⟨rfl, hl⟩ := ub hb
    rw [slice_length] at hl
    exact ⟨rfl, by omega⟩
  rcases except_bind_error.mp h with hb | ⟨_, _, h⟩
  · obtain ⟨rfl, hl⟩ := ub hb
    rw [slice_length] at hl
    exact ⟨rfl, by omega⟩
  rcases except_bind_error.mp h with hb | ⟨_, _, h⟩
  · unfold unpack3Q at hb
    split at hb
    · cases hb
    · rename_i hl
      cases hb
      rw [slice_length] at hl
      exact ⟨rfl, by omega⟩
  · cases h

theorem flagBits_ok {d : Bytes} {f : List Nat × List Nat × List Nat} (h : parseFlagBits d = .ok f) :
    40 ≤ d.length ∧ f.2.1 = (slice 8 16 d).map UInt8.toNat := by
  unfold parseFlagBits at h
  obtain ⟨c, hc, h⟩ := except_bind_ok.mp h
  obtain ⟨i, hi, h⟩ := except_bind_ok.mp h
  obtain ⟨o, ho, h⟩ := except_bind_ok.mp h
  unfold unpack3Q at ho
  unfold unpackBytes at hi
  split at ho
  · rename_i hl
    rw [slice_length] at hl
    split at hi
    · cases hi; cases h
      exact ⟨by omega, rfl⟩
    · cases hi
  · cases ho

theorem flag_get {d : Bytes} (h : 40 ≤ d.length) (i : Nat) (hi : i < 8) :
    ((slice 8 16 d).map UInt8.toNat)[i]? = some (byteAt d (8 + i)) := by
  have hl : 8 + i < d.length := by omega
  have e1 : (slice 8 16 d)[i]? = d[8 + i]? := by
    unfold slice
    rw [List.getElem?_drop, List.getElem?_take, if_pos (by omega)]
  rw [List.getElem?_map, e1, List.getElem?_eq_getElem hl]
  unfold byteAt
  simp [List.getD, List.getElem?_eq_getElem hl]

theorem flags_any {d : Bytes} (h : 40 ≤ d.length) :
    (((slice 8 16 d).map UInt8.toNat).drop 1).any (· ≠ 0) = true ↔ ∃ i, 9 ≤ i ∧ i < 16 ∧ byteAt d i ≠ 0 := by
  rw [List.any_eq_true]
  constructor
  · rintro ⟨x, hx, hx0⟩
    obtain ⟨j, hj⟩ := List.mem_iff_getElem?.mp hx
    rw [List.getElem?_drop] at hj
    have hlt : 1 + j < 8 := by
      obtain ⟨hlt, _⟩ := List.getElem?_eq_some_iff.mp hj
      rw [List.length_map, slice_length] at hlt
      omega
    rw [flag_get h _ hlt] at hj
    injection hj with hj
    refine ⟨8 + (1 + j), by omega, by omega, ?_⟩
    rw [hj]
    simpa using hx0
  · rintro ⟨i, h1, h2, h3⟩
    refine ⟨byteAt d i, ?_, by simpa using h3⟩
    apply List.mem_iff_getElem?.mpr
    refine ⟨i - 9, ?_⟩
    rw [List.getElem?_drop, flag_get h _ (by omega)]
    congr 2
    omega

theorem flags_first {d : Bytes} (h : 40 ≤ d.length) :
    ((slice 8 16 d).map UInt8.toNat).getD 0 0 = byteAt d 8 := by
  rw [List.getD, flag_get h 0 (by omega)]
  rfl

theorem logging_err {ign : Bool} {d : Bytes} {e : PyErr} (h : parseLogging ign d = .error e) :
    (e = .structError ∧ d.length < 9) ∨ (e = .unicodeError ∧ ign = false ∧ NoText (d.drop 9)) := by
  unfold parseLogging at h
  rcases except_bind_error.mp h with hb | ⟨_, _, h⟩
  · obtain ⟨rfl, hd⟩ := byte_err hb
    exact Or.inl ⟨rfl, by simp [hd]⟩
  rcases except_bind_error.mp h with hb | ⟨_, _, h⟩
  · obtain ⟨hl, rfl⟩ := unpackU_eq_error hb
    rw [slice_length] at hl
    exact Or.inl ⟨rfl, by omega⟩
  rcases except_bind_error.mp h with hb | ⟨_, _, h⟩
  · exact Or.inr (text_err hb)
  · cases h

theorem logging_free {ign : Bool} {d : Bytes} {m : LogMsg} (h : parseLogging ign d = .ok m) :
    9 ≤ d.length ∧ ¬ (ign = false ∧ NoText (d.drop 9)) := by
  unfold parseLogging at h
  obtain ⟨l, hl, h⟩ := except_bind_ok.mp h
  obtain ⟨t, ht, h⟩ := except_bind_ok.mp h
  obtain ⟨s, hs, h⟩ := except_bind_ok.mp h
  have := (unpackU_eq_ok ht).1
  rw [slice_length] at this
  exact ⟨by omega, fun ⟨hi, hn⟩ => text_no hs hi hn⟩

theorem tagged_err {ign : Bool} {d : Bytes} {e : PyErr} (h : parseLoggingTagged ign d = .error e) :
    (e = .structError ∧ d.length < 11) ∨ (e = .unicodeError ∧ ign = false ∧ NoText (d.drop 11)) := by
  unfold parseLoggingTagged at h
  rcases except_bind_error.mp h with hb | ⟨_, _, h⟩
  · obtain ⟨rfl, hd⟩ := byte_err hb
    exact Or.inl ⟨rfl, by simp [hd]⟩
  rcases except_bind_error.mp h with hb | ⟨_, _, h⟩
  · obtain ⟨hl, rfl⟩ := unpackU_eq_error hb
    rw [slice_length] at hl
    exact Or.inl ⟨rfl, by omega⟩
  rcases except_bind_error.mp h with hb | ⟨_, _, h⟩
  · obtain ⟨hl, rfl⟩ := unpackU_eq_error hb
    rw [slice_length] at hl
    exact Or.inl ⟨rfl, by omega⟩
  rcases except_bind_error.mp h with hb | ⟨_, _, h⟩
  · exact Or.inr (text_err hb)
  · cases h

theorem tagged_free {ign : Bool} {d : Bytes} {m : TagMsg} (h : parseLoggingTagged ign d = .ok m) :
    11 ≤ d.length ∧ ¬ (ign = false ∧ NoText (d.drop 11)) := by
  unfold parseLoggingTagged at h
  obtain ⟨l, hl, h⟩ := except_bind_ok.mp h
  obtain ⟨g, hg, h⟩ := except_bind_ok.mp h
  obtain ⟨t, ht, h⟩ := except_bind_ok.mp h
  obtain ⟨s, hs, h⟩ := except_bind_ok.mp h
  have := (unpackU_eq_ok ht).1
  rw [slice_length] at this
  exact ⟨by omega, fun ⟨hi, hn⟩ => text_no hs hi hn⟩

theorem dropout_err {d : Bytes} {ts : Nat} {e : PyErr} (h : parseDropout d ts = .error e) :
    e = .structError ∧ d.length ≠ 2 := by
  unfold parseDropout at h
  rcases except_bind_error.mp h with hb | ⟨_, _, h⟩
  · exact ⟨(unpackU_eq_error hb).2, (unpackU_eq_error hb).1⟩
  · cases h

theorem dropout_free {d : Bytes} {ts : Nat} {m : Dropout} (h : parseDropout d ts = .ok m) : d.length = 2 := by
  unfold parseDropout at h
  obtain ⟨l, hl, h⟩ := except_bind_ok.mp h
  exact (unpackU_eq_ok hl).1

/-- why a sample raises -/
theorem sample_iff {u : ULog} {d : Bytes} :
    (∃ e u', addData u d = .err e u') ↔
      d.length < 2 ∨ ∃ s, u.subs.get? (leAt d 0 2) = some s ∧ s.itemSize + 2 ≤ d.length ∧
        d.length ≤ s.maxSize + 2 ∧ s.itemSize < s.tsOff + 8 := by
  by_cases h2 : d.length < 2
  · refine iff_of_true ?_ (Or.inl h2)
    have : unpackU 2 (d.take 2) = .error .structError := by
      unfold unpackU
      rw [if_neg]
      simp
      omega
    unfold addData
    rw [this]
    exact ⟨_, _, rfl⟩
  · have hid : unpackU 2 (d.take 2) = .ok (leAt d 0 2) := by
      rw [unpackU_ok (by simp; omega), leAt_eq d 0 2 (by omega), List.drop_zero]
    unfold addData
    rw [hid]
    simp only
    cases hs : u.subs.get? (leAt d 0 2) with
    | none =>
      simp only
      refine iff_of_false ?_ ?_
      · rintro ⟨e, u', h⟩
        split at h <;> cases h
      · rintro (h | ⟨s, h, _⟩)
        · exact h2 h
        · cases h
    | some s =>
      simp only
      split
      · rename_i hr
        refine iff_of_false ?_ ?_
        · rintro ⟨e, u', h⟩
          cases h
        · rintro (h | ⟨s', h, h3, h4, _⟩)
          · exact h2 h
          · injection h with h
            subst h
            omega
      · rename_i hr
        have hlen : (if d.length - 2 > s.itemSize then d.take (2 + s.itemSize) else d).length = 2 + s.itemSize := by
          split
          · rw [List.length_take]; omega
          · omega
        by_cases ht : s.itemSize < s.tsOff + 8
        · have : unpackU 8 (slice (s.tsOff + 2) (s.tsOff + 10)
              (if d.length - 2 > s.itemSize then d.take (2 + s.itemSize) else d)) = .error .structError := by
            unfold unpackU
            rw [if_neg]
            rw [slice_length, hlen]
            omega
          rw [this]
          exact iff_of_true ⟨_, _, rfl⟩ (Or.inr ⟨s, rfl, by omega, by omega, ht⟩)
        · rw [unpackU_ok (by rw [slice_length, hlen]; omega)]
          refine iff_of_false ?_ ?_
          · rintro ⟨e, u', h⟩
            cases h
          · rintro (h | ⟨s', h, _, _, h5⟩)
            · exact h2 h
            · injection h with h
              subst h
              exact ht h5

/-! ### steps of the reader -/

theorem dataStep_msg (cfg : Cfg) (bs : Bytes) (ru : Nat) (s : RS) :
    (msgAt bs ru s = [] ∧ ∀ e, dataStep cfg bs ru s ≠ .raise e) ∨
    ∃ ty d o, msgAt bs ru s = [(s.u, ty, d)] ∧ handleData cfg s.u ty d = some o ∧
      ∀ e, dataStep cfg bs ru s = .raise e ↔ ∃ v, o = .err e v ∧ e ≠ .indexError ∧ e ≠ .structError := by
  unfold dataStep
  simp only
  by_cases hh : (readAt bs s.pos 3).length = 3
  · obtain ⟨h3, hsz, hty⟩ := readAt_facts hh
    rw [if_neg (by simpa using hh)]
    simp only [hsz, hty]
    by_cases hd : (readAt bs (s.pos + 3) (leAt bs s.pos 2)).length < leAt bs s.pos 2
    · left
      rw [if_pos hd]
      refine ⟨?_, fun e h => by cases h⟩
      unfold msgAt
      rw [if_neg]
      rintro ⟨_, h2, _⟩
      simp [readAt] at hd; omega
    · rw [if_neg hd]
      have hlen : (readAt bs (s.pos + 3) (leAt bs s.pos 2)).length = leAt bs s.pos 2 := by
        have : (readAt bs (s.pos + 3) (leAt bs s.pos 2)).length ≤ leAt bs s.pos 2 := by
          simp [readAt]; omega
        omega
      have hfit : s.pos + 3 + leAt bs s.pos 2 ≤ bs.length := by
        simp [readAt] at hlen; omega
      simp only [hlen]
      by_cases hr : s.cur + 3 + leAt bs s.pos 2 > ru
      · left
        rw [if_pos hr]
        refine ⟨?_, fun e h => by cases h⟩
        unfold msgAt
        rw [if_neg]
        rintro ⟨_, _, h2, _⟩
        omega
      · rw [if_neg hr]
        by_cases hk : knownData (byteAt bs (s.pos + 2)) = true
        · right
          obtain ⟨o, ho⟩ := handleData_some cfg s.u _ (readAt bs (s.pos + 3) (leAt bs s.pos 2)) hk
          refine ⟨_, _, o, ?_, ho, ?_⟩
          · unfold msgAt
            rw [if_pos ⟨h3, hfit, by omega, (isDataType_iff _).mpr hk⟩]; rfl
          · intro e
            rw [ho]
            cases o with
            | ok u' => exact ⟨fun h => (by cases h), fun ⟨v, h, _⟩ => (by cases h)⟩
            | err e' u' =>
              constructor
              · intro h
                cases e' <;> simp only at h <;> cases h <;> exact ⟨u', rfl, by simp, by simp⟩
              · rintro ⟨v, h, h1, h2⟩
                cases h
                cases e <;> simp at h1 h2 ⊢
        · left
          have hk' : knownData (byteAt bs (s.pos + 2)) = false := by simpa using hk
          rw [handleData_none _ _ _ _ hk']
          refine ⟨?_, fun e h => by cases h⟩
          unfold msgAt
          rw [if_neg]
          rintro ⟨_, _, _, h2⟩
          exact hk ((isDataType_iff _).mp h2)
  · left
    rw [if_pos (by simpa using hh)]
    refine ⟨?_, fun e h => by cases h⟩
    unfold msgAt
    rw [if_neg]
    rintro ⟨h2, _⟩
    apply hh
    simp [readAt]; omega

theorem ends_mem (ty : Nat) : endsDefs ty = true ↔ ty ∈ [tyA, tyL, tyC] := by
  simp only [endsDefs, Bool.or_eq_true, decide_eq_true_eq, List.mem_cons, List.not_mem_nil, or_false, or_assoc]
  rfl

theorem corrupt_bad (ty n : Nat) : packetCorrupt ty n = true ↔ badHeader ty n := by
  simp only [packetCorrupt, badHeader, Bool.or_eq_true, decide_eq_true_eq, or_assoc]

theorem seekBack_err {p n : Nat} {e : PyErr} : seekBack p n = .error e ↔ e = .osError ∧ p < n := by
  unfold seekBack
  split
  · exact ⟨fun h => (by cases h), fun ⟨_, h⟩ => (by omega)⟩
  · exact ⟨fun h => (by cases h; exact ⟨rfl, by omega⟩), fun ⟨h, _⟩ => (by rw [h])⟩

theorem defStep_msg (cfg : Cfg) (bs : Bytes) (s : RS) :
    (defAt bs s = [] ∧ ∀ e, defStep cfg bs s = .raise e ↔
      (e = .structError ∧ s.pos < bs.length ∧ bs.length < s.pos + 3) ∨ (e = .osError ∧ SeeksBeforeStart bs s.pos)) ∨
    ((s.pos + 3 ≤ bs.length ∧ ¬ SeeksBeforeStart bs s.pos) ∧
      ∃ ty d o, defAt bs s = [(s.u, ty, d)] ∧ handleDef cfg s.u ty d = some o ∧
        ∀ e, defStep cfg bs s = .raise e ↔ ∃ v, o = .err e v ∧ e ≠ .indexError) := by
  unfold defStep
  simp only
  have hrl : (readAt bs s.pos 3).length = min 3 (bs.length - s.pos) := by simp [readAt]
  by_cases hh : (readAt bs s.pos 3).length = 3
  · obtain ⟨h3, hsz, hty⟩ := readAt_facts hh
    rw [if_neg (by omega), if_neg (by simpa using hh)]
    simp only [hsz, hty]
    have hdl : (readAt bs (s.pos + 3) (leAt bs s.pos 2)).length = min (leAt bs s.pos 2) (bs.length - (s.pos + 3)) := by
      simp [readAt]
    by_cases hk : knownDef (byteAt bs (s.pos + 2)) = true
    · right
      have hmem := (knownDef_mem _).mpr hk
      refine ⟨⟨h3, ?_⟩, ?_⟩
      · rintro ⟨_, ⟨h4, _⟩ | ⟨h4, _⟩⟩
        · generalize byteAt bs (s.pos + 2) = t at h4 hmem
          simp only [List.mem_cons, List.not_mem_nil, or_false] at h4 hmem
          rcases h4 with rfl | rfl | rfl <;> revert hmem <;> decide
        · apply h4
          simp only [List.mem_cons, List.not_mem_nil, or_false] at hmem ⊢
          rcases hmem with h | h | h | h | h | h <;> simp [h]
      · obtain ⟨o, ho⟩ := handleDef_some cfg s.u _ (readAt bs (s.pos + 3) (leAt bs s.pos 2)) hk
        refine ⟨_, _, o, ?_, ho, ?_⟩
        · unfold defAt
          rw [if_pos ⟨h3, hmem⟩]; rfl
        · intro e
          rw [ho]
          cases o with
          | ok u' => exact ⟨fun h => (by cases h), fun ⟨v, h, _⟩ => (by cases h)⟩
          | err e' u' =>
            constructor
            · intro h
              cases e' <;> simp only at h <;> cases h <;> exact ⟨u', rfl, by simp⟩
            · rintro ⟨v, h, h1⟩
              cases h
              cases e <;> simp at h1 ⊢
    · left
      have hk' : knownDef (byteAt bs (s.pos + 2)) = false := by simpa using hk
      refine ⟨?_, fun e => ?_⟩
      · unfold defAt
        rw [if_neg]
        rintro ⟨_, h2⟩
        exact hk ((knownDef_mem _).mp h2)
      · rw [handleDef_none _ _ _ _ hk']
        simp only
        have hno : ¬ (e = .structError ∧ s.pos < bs.length ∧ bs.length < s.pos + 3) := by omega
        by_cases he : endsDefs (byteAt bs (s.pos + 2)) = true
        · rw [if_pos he]
          have hin := (ends_mem _).mp he
          have hsk : SeeksBeforeStart bs s.pos ↔ bs.length < leAt bs s.pos 2 + 3 := by
            unfold SeeksBeforeStart
            constructor
            · rintro ⟨_, ⟨_, h⟩ | ⟨h, _⟩⟩
              · exact h
              · exfalso
                apply h
                simp only [List.mem_cons, List.not_mem_nil, or_false] at hin ⊢
                rcases hin with h | h | h <;> simp [h]
            · intro h
              exact ⟨h3, Or.inl ⟨hin, h⟩⟩
          rw [hsk]
          have hcond : (s.pos + 3 + (readAt bs (s.pos + 3) (leAt bs s.pos 2)).length < 3 + leAt bs s.pos 2) ↔
              bs.length < leAt bs s.pos 2 + 3 := by rw [hdl]; omega
          cases hs : seekBack (s.pos + 3 + (readAt bs (s.pos + 3) (leAt bs s.pos 2)).length)
            (3 + leAt bs s.pos 2) with
          | ok p =>
            refine ⟨fun h => (by cases h), ?_⟩
            rintro (h | ⟨rfl, h⟩)
            · exact absurd h hno
            · rw [seekBack_err.mpr ⟨rfl, hcond.mpr h⟩] at hs
              cases hs
          | error e' =>
            obtain ⟨rfl, hlt⟩ := seekBack_err.mp hs
            constructor
            · intro h
              cases h
              exact Or.inr ⟨rfl, hcond.mp hlt⟩
            · rintro (h | ⟨rfl, h⟩)
              · exact absurd h hno
              · rfl
        · rw [if_neg he]
          have hnotin : byteAt bs (s.pos + 2) ∉ [tyA, tyL, tyC, tyI, tyM, tyF, tyP, tyQ, tyB] := by
            intro hm
            rcases List.mem_append.mp (show byteAt bs (s.pos + 2) ∈ [tyA, tyL, tyC] ++ [tyI, tyM, tyF, tyP, tyQ, tyB] from hm)
              with hm | hm
            · exact he ((ends_mem _).mpr hm)
            · exact hk ((knownDef_mem _).mp hm)
          by_cases hc : packetCorrupt (byteAt bs (s.pos + 2)) (leAt bs s.pos 2) = true
          · rw [if_pos hc]
            have hsk : SeeksBeforeStart bs s.pos ↔ bs.length < leAt bs s.pos 2 + 2 := by
              unfold SeeksBeforeStart
              constructor
              · rintro ⟨_, ⟨h, _⟩ | ⟨_, _, h⟩⟩
                · exact absurd ((ends_mem _).mpr h) he
                · exact h
              · intro h
                exact ⟨h3, Or.inr ⟨hnotin, (corrupt_bad _ _).mp hc, h⟩⟩
            rw [hsk]
            have hcond : (s.pos + 3 + (readAt bs (s.pos + 3) (leAt bs s.pos 2)).length < 2 + leAt bs s.pos 2) ↔
                bs.length < leAt bs s.pos 2 + 2 := by rw [hdl]; omega
            cases hs : seekBack (s.pos + 3 + (readAt bs (s.pos + 3) (leAt bs s.pos 2)).length)
              (2 + leAt bs s.pos 2) with
            | ok p =>
              refine ⟨fun h => (by cases h), ?_⟩
              rintro (h | ⟨rfl, h⟩)
              · exact absurd h hno
              · rw [seekBack_err.mpr ⟨rfl, hcond.mpr h⟩] at hs
                cases hs
            | error e' =>
              obtain ⟨rfl, hlt⟩ := seekBack_err.mp hs
              constructor
              · intro h
                cases h
                exact Or.inr ⟨rfl, hcond.mp hlt⟩
              · rintro (h | ⟨rfl, h⟩)
                · exact absurd h hno
                · rfl
          · rw [if_neg hc]
            refine ⟨fun h => (by cases h), ?_⟩
            rintro (h | ⟨rfl, _, ⟨h, _⟩ | ⟨_, h, _⟩⟩)
            · exact absurd h hno
            · exact absurd ((ends_mem _).mpr h) he
            · exact absurd ((corrupt_bad _ _).mpr h) hc
  · left
    have hlt : bs.length < s.pos + 3 := by omega
    refine ⟨?_, fun e => ?_⟩
    · unfold defAt
      rw [if_neg]
      rintro ⟨h2, _⟩
      omega
    · have hns : ¬ SeeksBeforeStart bs s.pos := by
        rintro ⟨h, _⟩
        omega
      by_cases h0 : (readAt bs s.pos 3).length = 0
      · rw [if_pos h0]
        refine ⟨fun h => (by cases h), ?_⟩
        rintro (⟨_, h, _⟩ | ⟨_, h⟩)
        · omega
        · exact absurd h hns
      · rw [if_neg h0, if_pos (by simpa using hh)]
        constructor
        · intro h
          cases h
          exact Or.inl ⟨rfl, by omega, hlt⟩
        · rintro (⟨rfl, _, _⟩ | ⟨_, h⟩)
          · rfl
          · exact absurd h hns

/-! ### loops -/

theorem dataLoop_raised {cfg : Cfg} {bs : Bytes} {ru n : Nat} {s : RS} {e : PyErr}
    (h : dataLoop cfg bs ru n s = .raised e) : ∃ pre v ty d v', dataTrace cfg bs ru n s = pre ++ [(v, ty, d)] ∧
      handleData cfg v ty d = some (.err e v') ∧ e ≠ .indexError ∧ e ≠ .structError := by
  induction n generalizing s with
  | zero => cases h
  | succ n ih =>
    simp only [dataLoop] at h
    simp only [dataTrace]
    cases hs : dataStep cfg bs ru s with
    | cont s' =>
      rw [hs] at h
      obtain ⟨pre, v, ty, d, v', h1, h2⟩ := ih h
      exact ⟨msgAt bs ru s ++ pre, v, ty, d, v', by simp only [h1, List.append_assoc], h2⟩
    | stop s' => rw [hs] at h; cases h
    | raise e' =>
      rw [hs] at h
      cases h
      rcases dataStep_msg cfg bs ru s with ⟨_, h1⟩ | ⟨ty, d, o, h1, h2, h3⟩
      · exact absurd hs (h1 e)
      · obtain ⟨v', rfl, h4⟩ := (h3 e).mp hs
        exact ⟨[], s.u, ty, d, v', by simp only [h1, List.append_nil, List.nil_append], h2, h4⟩

theorem dataLoop_done {cfg : Cfg} {bs : Bytes} {ru n : Nat} {s s' : RS} (h : dataLoop cfg bs ru n s = .done s') :
    ∀ x ∈ dataTrace cfg bs ru n s, ∀ e v', handleData cfg x.1 x.2.1 x.2.2 = some (.err e v') →
      e = .indexError ∨ e = .structError := by
  induction n generalizing s with
  | zero => cases h
  | succ n ih =>
    simp only [dataLoop] at h
    simp only [dataTrace]
    have hhead : (∀ e, dataStep cfg bs ru s ≠ .raise e) → ∀ x ∈ msgAt bs ru s, ∀ e v',
        handleData cfg x.1 x.2.1 x.2.2 = some (.err e v') → e = .indexError ∨ e = .structError := by
      intro hr x hx e v' he
      rcases dataStep_msg cfg bs ru s with ⟨h1, _⟩ | ⟨ty, d, o, h1, h2, h3⟩
      · rw [h1] at hx; cases hx
      · rw [h1] at hx
        cases List.mem_singleton.mp hx
        rw [h2] at he
        injection he with he
        subst he
        rcases Classical.em (e = .indexError ∨ e = .structError) with hc | hc
        · exact hc
        · exact absurd ((h3 e).mpr ⟨v', rfl, fun h => hc (Or.inl h), fun h => hc (Or.inr h)⟩) (hr e)
    cases hs : dataStep cfg bs ru s with
    | cont s1 =>
      rw [hs] at h
      intro x hx
      rcases List.mem_append.mp hx with hx | hx
      · exact hhead (by rw [hs]; intro e h; cases h) x hx
      · exact ih h x hx
    | stop s1 =>
      intro x hx
      rcases List.mem_append.mp hx with hx | hx
      · exact hhead (by rw [hs]; intro e h; cases h) x hx
      · cases hx
    | raise e => rw [hs] at h; cases h

theorem defLoop_raised {cfg : Cfg} {bs : Bytes} {n : Nat} {s : RS} {e : PyErr} (hreach : DefReach cfg bs s)
    (h : defLoop cfg bs n s = .raised e) :
    (∃ pre v ty d v', defsTrace cfg bs n s = pre ++ [(v, ty, d)] ∧ handleDef cfg v ty d = some (.err e v') ∧
      e ≠ .indexError) ∨
    ∃ s', DefReach cfg bs s' ∧ ((e = .structError ∧ s'.pos < bs.length ∧ bs.length < s'.pos + 3) ∨
      (e = .osError ∧ SeeksBeforeStart bs s'.pos)) := by
  induction n generalizing s with
  | zero => cases h
  | succ n ih =>
    simp only [defLoop] at h
    simp only [defsTrace]
    cases hs : defStep cfg bs s with
    | cont s' =>
      rw [hs] at h
      rcases ih (.step hreach hs) h with ⟨pre, v, ty, d, v', h1, h2⟩ | h1
      · exact Or.inl ⟨defAt bs s ++ pre, v, ty, d, v', by simp only [h1, List.append_assoc], h2⟩
      · exact Or.inr h1
    | stop s' => rw [hs] at h; cases h
    | raise e' =>
      rw [hs] at h
      cases h
      rcases defStep_msg cfg bs s with ⟨_, h1⟩ | ⟨_, ty, d, o, h1, h2, h3⟩
      · exact Or.inr ⟨s, hreach, (h1 e).mp hs⟩
      · obtain ⟨v', rfl, h4⟩ := (h3 e).mp hs
        exact Or.inl ⟨[], s.u, ty, d, v', by simp only [h1, List.append_nil, List.nil_append], h2, h4⟩

theorem defLoop_done {cfg : Cfg} {bs : Bytes} {n : Nat} {s s' : RS} (h : defLoop cfg bs n s = .done s') :
    ∀ x ∈ defsTrace cfg bs n s, ∀ e v', handleDef cfg x.1 x.2.1 x.2.2 = some (.err e v') → e = .indexError := by
  induction n generalizing s with
  | zero => cases h
  | succ n ih =>
    simp only [defLoop] at h
    simp only [defsTrace]
    have hhead : (∀ e, defStep cfg bs s ≠ .raise e) → ∀ x ∈ defAt bs s, ∀ e v',
        handleDef cfg x.1 x.2.1 x.2.2 = some (.err e v') → e = .indexError := by
      intro hr x hx e v' he
      rcases defStep_msg cfg bs s with ⟨h1, _⟩ | ⟨_, ty, d, o, h1, h2, h3⟩
      · rw [h1] at hx; cases hx
      · rw [h1] at hx
        cases List.mem_singleton.mp hx
        rw [h2] at he
        injection he with he
        subst he
        rcases Classical.em (e = .indexError) with hc | hc
        · exact hc
        · exact absurd ((h3 e).mpr ⟨v', rfl, hc⟩) (hr e)
    cases hs : defStep cfg bs s with
    | cont s1 =>
      rw [hs] at h
      intro x hx
      rcases List.mem_append.mp hx with hx | hx
      · exact hhead (by rw [hs]; intro e h; cases h) x hx
      · exact ih h x hx
    | stop s1 =>
      intro x hx
      rcases List.mem_append.mp hx with hx | hx
      · exact hhead (by rw [hs]; intro e h; cases h) x hx
      · cases hx
    | raise e => rw [hs] at h; cases h

theorem defReach_done {fuel : Nat} {cfg : Cfg} {bs : Bytes} {u : ULog} {s s' : RS} (hu : readHeader bs = .ok u)
    (h : defLoop cfg bs fuel { pos := 16, cur := 16, u := u } = .done s') (hr : DefReach cfg bs s) :
    ∃ n, defLoop cfg bs n s = .done s' := by
  induction hr with
  | start h0 =>
    rw [hu] at h0
    cases h0
    exact ⟨fuel, h⟩
  | step _ hs ih =>
    obtain ⟨n, hn⟩ := ih
    cases n with
    | zero => cases hn
    | succ n =>
      simp only [defLoop, hs] at hn
      exact ⟨n, hn⟩

theorem readData_raised {cfg : Cfg} {bs : Bytes} {ru pos : Nat} {u : ULog} {e : PyErr} (hs : u.subs = [])
    (h : readData cfg bs ru pos u = .raised e) : ∃ pre v ty d v', sectionTrace cfg bs ru pos u = pre ++ [(v, ty, d)] ∧
      handleData cfg v ty d = some (.err e v') ∧ e ≠ .indexError ∧ e ≠ .structError := by
  unfold readData at h
  split at h
  · rename_i s heq
    obtain ⟨u', hu'⟩ := finalize_total s.u (dataLoop_section heq hs).1
    rw [hu'] at h
    cases h
  · rename_i e' heq
    cases h
    exact dataLoop_raised heq
  · cases h

theorem readData_ok {cfg : Cfg} {bs : Bytes} {ru pos : Nat} {u u' : ULog} (h : readData cfg bs ru pos u = .ok u') :
    u'.subs = [] ∧ ∀ x ∈ sectionTrace cfg bs ru pos u, ∀ e v', handleData cfg x.1 x.2.1 x.2.2 = some (.err e v') →
      e = .indexError ∨ e = .structError := by
  unfold readData at h
  split at h
  · rename_i s heq
    unfold LoadRes.ofExcept at h
    split at h
    · rename_i u2 hfz
      cases h
      obtain ⟨new, _, h2⟩ := finalize_ok hfz
      exact ⟨by rw [h2], dataLoop_done heq⟩
    · cases h
  · cases h
  · cases h

theorem readSections_raised {cfg : Cfg} {bs : Bytes} {offs : List Nat} {pos : Nat} {u : ULog} {e : PyErr}
    (hs : u.subs = []) (h : readSections cfg bs offs pos u = .raised e) :
    (∃ secs pre v ty d v', sectionsTrace cfg bs offs pos u = secs ++ [pre ++ [(v, ty, d)]] ∧
      handleData cfg v ty d = some (.err e v') ∧ e ≠ .indexError ∧ e ≠ .structError) ∨
    (e = .valueError ∧ ∃ off ∈ offs, 2 ^ 63 ≤ off) := by
  induction offs generalizing pos u with
  | nil =>
    obtain ⟨pre, v, ty, d, v', h1, h2⟩ := readData_raised hs h
    exact Or.inl ⟨[], pre, v, ty, d, v', by simp only [sectionsTrace, h1, List.nil_append], h2⟩
  | cons off offs ih =>
    simp only [readSections] at h
    simp only [sectionsTrace]
    cases hd : readData cfg bs off pos u with
    | ok u2 =>
      rw [hd] at h
      simp only at h
      split at h
      · rename_i ho
        cases h
        exact Or.inr ⟨rfl, off, List.mem_cons_self .., ho⟩
      · rcases ih (readData_ok hd).1 h with ⟨secs, pre, v, ty, d, v', h1, h2⟩ | ⟨h1, o, ho, h2⟩
        · exact Or.inl ⟨sectionTrace cfg bs off pos u :: secs, pre, v, ty, d, v', by simp only [h1, List.cons_append], h2⟩
        · exact Or.inr ⟨h1, o, List.mem_cons_of_mem _ ho, h2⟩
    | raised e' =>
      rw [hd] at h
      cases h
      obtain ⟨pre, v, ty, d, v', h1, h2⟩ := readData_raised hs hd
      exact Or.inl ⟨[], pre, v, ty, d, v', by simp only [h1, List.nil_append], h2⟩
    | outOfFuel => rw [hd] at h; cases h

theorem readSections_ok {cfg : Cfg} {bs : Bytes} {offs : List Nat} {pos : Nat} {u u' : ULog}
    (h : readSections cfg bs offs pos u = .ok u') :
    (∀ sec ∈ sectionsTrace cfg bs offs pos u, ∀ x ∈ sec, ∀ e v',
      handleData cfg x.1 x.2.1 x.2.2 = some (.err e v') → e = .indexError ∨ e = .structError) ∧
    ∀ off ∈ offs, off < 2 ^ 63 := by
  induction offs generalizing pos u with
  | nil =>
    refine ⟨?_, by simp⟩
    intro sec hsec
    cases List.mem_singleton.mp hsec
    exact (readData_ok h).2
  | cons off offs ih =>
    simp only [readSections] at h
    simp only [sectionsTrace]
    cases hd : readData cfg bs off pos u with
    | ok u2 =>
      rw [hd] at h
      simp only at h
      split at h
      · cases h
      · rename_i ho
        obtain ⟨h1, h2⟩ := ih h
        refine ⟨?_, ?_⟩
        · intro sec hsec
          rcases List.mem_cons.mp hsec with rfl | hsec
          · exact (readData_ok hd).2
          · exact h1 sec hsec
        · intro o ho'
          rcases List.mem_cons.mp ho' with rfl | ho'
          · omega
          · exact h2 o ho'
    | raised e' => rw [hd] at h; cases h
    | outOfFuel => rw [hd] at h; cases h

/-! ### the formats do not change in the data section -/

theorem dataStep_formats {cfg : Cfg} {bs : Bytes} {ru : Nat} {s s' : RS} (h : dataStep cfg bs ru s = .cont s') :
    s'.u.formats = s.u.formats := by
  unfold dataStep at h
  simp only at h
  split at h
  · cases h
  split at h
  · cases h
  split at h
  · cases h
  split at h
  · rename_i u hd
    cases h
    exact (handleData_pres _ _ _ _ _ hd).formats
  · rename_i u hd
    cases h
    exact (handleData_pres _ _ _ _ _ hd).formats
  · cases h
  · cases h
  · cases h
    rw [handleUnknown_eq]

theorem dataTrace_formats {cfg : Cfg} {bs : Bytes} {ru n : Nat} {s : RS} :
    ∀ x ∈ dataTrace cfg bs ru n s, x.1.formats = s.u.formats := by
  induction n generalizing s with
  | zero => intro x hx; cases hx
  | succ n ih =>
    intro x hx
    simp only [dataTrace] at hx
    rcases List.mem_append.mp hx with hx | hx
    · unfold msgAt at hx
      split at hx
      · rw [List.mem_singleton.mp hx]
      · cases hx
    · cases hs : dataStep cfg bs ru s with
      | cont s' =>
        rw [hs] at hx
        rw [ih x hx, dataStep_formats hs]
      | stop s' => rw [hs] at hx; cases hx
      | raise e => rw [hs] at hx; cases hx

theorem sectionsTrace_formats {cfg : Cfg} {bs : Bytes} {offs : List Nat} {pos : Nat} {u : ULog} :
    ∀ sec ∈ sectionsTrace cfg bs offs pos u, ∀ x ∈ sec, x.1.formats = u.formats := by
  induction offs generalizing pos u with
  | nil =>
    intro sec hs
    rw [List.mem_singleton.mp hs]
    exact dataTrace_formats
  | cons off offs ih =>
    intro sec hs
    simp only [sectionsTrace] at hs
    rcases List.mem_cons.mp hs with rfl | hs
    · exact dataTrace_formats
    · cases hd : readData cfg bs off pos u with
      | ok u2 =>
        rw [hd] at hs
        intro x hx
        rw [ih sec hs x hx, (readData_presS hd).formats]
      | raised e => rw [hd] at hs; cases hs
      | outOfFuel => rw [hd] at hs; cases hs

end PyULog
