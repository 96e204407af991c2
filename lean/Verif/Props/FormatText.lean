import Verif.Spec.FormatText
import Verif.Lemmas.Digits
import Verif.Lemmas.RoundDefs
import Verif.Props.Params
import Verif.Props.Writer
/-
The formats of a loaded log (C61): which text gives which format, and that the last definition of a
name is used.
-/
namespace PyULog
open Spec

/-! ### splitting -/

theorem intercalate_cons_cons (c : Char) (p q : Str) (ps : List Str) :
    List.intercalate [c] (p :: q :: ps) = p ++ c :: List.intercalate [c] (q :: ps) := by
  simp [List.intercalate, List.intersperse]

theorem split_unique {c : Char} {s : Str} {ps : List Str} (h : Splits c s ps) : pySplit c s = ps := by
  obtain ⟨h1, rfl, h3⟩ := h
  induction ps with
  | nil => exact absurd rfl h1
  | cons p ps ih =>
    cases ps with
    | nil =>
      have : List.intercalate [c] [p] = p := by simp [List.intercalate]
      rw [this]
      exact pySplit_of_not_mem (h3 p (List.mem_cons_self ..))
    | cons q ps =>
      rw [intercalate_cons_cons, pySplit_append (h3 p (List.mem_cons_self ..)),
        ih (by simp) (fun r hr => h3 r (List.mem_cons_of_mem _ hr))]

theorem split_spec (c : Char) (s : Str) : Splits c s (pySplit c s) := by
  induction s with
  | nil => exact ⟨by simp [pySplit], by simp [pySplit, List.intercalate], by simp [pySplit]⟩
  | cons x xs ih =>
    obtain ⟨h1, h2, h3⟩ := ih
    unfold pySplit
    by_cases hx : x = c
    · rw [if_pos hx]
      cases hp : pySplit c xs with
      | nil => exact absurd hp h1
      | cons q ps =>
        rw [hp] at h2 h3
        refine ⟨by simp, ?_, ?_⟩
        · rw [intercalate_cons_cons, ← h2, hx]; rfl
        · intro p hpm
          rcases List.mem_cons.mp hpm with rfl | hpm
          · simp
          · exact h3 p hpm
    · rw [if_neg hx]
      cases hp : pySplit c xs with
      | nil => exact absurd hp h1
      | cons q ps =>
        rw [hp] at h2 h3
        refine ⟨by simp, ?_, ?_⟩
        · cases ps with
          | nil =>
            have e : ∀ t : Str, List.intercalate [c] [t] = t := fun t => by simp [List.intercalate]
            rw [e] at h2 ⊢
            rw [h2]
          | cons r ps =>
            rw [intercalate_cons_cons] at h2 ⊢
            rw [h2]; rfl
        · intro p hpm
          rcases List.mem_cons.mp hpm with rfl | hpm
          · intro hm
            rcases List.mem_cons.mp hm with h | h
            · exact hx h.symm
            · exact h3 q (List.mem_cons_self ..) h
          · exact h3 p (List.mem_cons_of_mem _ hpm)

/-- **C61**: splitting a text gives the pieces between the separators -/
theorem C61_split (c : Char) (s : Str) (ps : List Str) : pySplit c s = ps ↔ Splits c s ps :=
  ⟨fun h => h ▸ split_spec c s, split_unique⟩

/-! ### integers -/

/-- digits that follow a number already read -/
inductive Tail : Nat → Str → Nat → Prop
  | nil (acc : Nat) : Tail acc [] acc
  | more (acc d n : Nat) (c : Char) (s : Str) (h : DigitOf c d) : Tail (acc * 10 + d) s n → Tail acc (c :: s) n
  | under (acc d n : Nat) (c : Char) (s : Str) (h : DigitOf c d) : Tail (acc * 10 + d) s n →
      Tail acc ('_' :: c :: s) n

theorem parseDigits_tail (s : Str) (acc n : Nat) :
    (parseDigits true acc s = some n ↔ Tail acc s n) ∧
    (parseDigits false acc s = some n ↔ ∃ c d s', DigitOf c d ∧ s = c :: s' ∧ Tail (acc * 10 + d) s' n) := by
  induction s generalizing acc with
  | nil =>
    constructor
    · constructor
      · intro h
        injection h with h
        subst h
        exact .nil _
      · intro h
        cases h
        rfl
    · constructor
      · intro h; cases h
      · rintro ⟨c, d, s', _, h, _⟩; cases h
  | cons c cs ih =>
    have hfalse : parseDigits false acc (c :: cs) = some n ↔
        ∃ x d s', DigitOf x d ∧ c :: cs = x :: s' ∧ Tail (acc * 10 + d) s' n := by
      unfold parseDigits
      by_cases hu : c = '_'
      · rw [if_pos hu]
        constructor
        · intro h; cases h
        · rintro ⟨x, d, s', hd, h, _⟩
          injection h with h _
          rw [hu] at h
          exact absurd h.symm (digit_ne hd).1
      · rw [if_neg hu]
        cases hd : digitVal c with
        | none =>
          constructor
          · intro h; cases h
          · rintro ⟨x, d, s', hd', h, _⟩
            injection h with h _
            rw [h, digit_iff.mpr hd'] at hd
            cases hd
        | some d =>
          have h1 := digit_iff.mp hd
          show parseDigits true (acc * 10 + d) cs = some n ↔ _
          rw [(ih _).1]
          constructor
          · intro h; exact ⟨c, d, cs, h1, rfl, h⟩
          · rintro ⟨x, d', s', hd', h, ht⟩
            injection h with h3 h4
            have := digit_iff.mpr hd'
            rw [← h3, hd] at this
            injection this with this
            subst this
            subst h4
            exact ht
    refine ⟨?_, hfalse⟩
    by_cases hu : c = '_'
    · have e : parseDigits true acc (c :: cs) = parseDigits false acc cs := by
        rw [parseDigits, if_pos hu, if_pos rfl]
      rw [e, (ih acc).2]
      constructor
      · rintro ⟨x, d, s', hd, rfl, ht⟩
        rw [hu]
        exact .under acc d n x s' hd ht
      · intro h
        cases h with
        | more _ d _ _ _ hd _ => exact absurd hu (digit_ne hd).1
        | under _ d _ x s' hd ht => exact ⟨x, d, s', hd, rfl, ht⟩
    · have e : parseDigits true acc (c :: cs) = parseDigits false acc (c :: cs) := by
        rw [parseDigits, parseDigits, if_neg hu, if_neg hu]
      rw [e, hfalse]
      constructor
      · rintro ⟨x, d, s', hd, h, ht⟩
        rw [h]
        exact .more acc d n x s' hd ht
      · intro h
        cases h with
        | more _ d _ _ s' hd ht => exact ⟨c, d, _, hd, rfl, ht⟩
        | under _ d _ _ s' hd ht => exact absurd rfl hu

theorem tail_numeral {s t : Str} {acc n : Nat} (hs : Numeral s acc) (h : Tail acc t n) :
    Numeral (s ++ t) n := by
  induction h generalizing s with
  | nil acc => rw [List.append_nil]; exact hs
  | more acc d n c t hd _ ih =>
    have := ih (s := s ++ [c]) (by rw [Nat.mul_comm]; exact .more hd hs)
    simpa using this
  | under acc d n c t hd _ ih =>
    have := ih (s := s ++ ['_', c]) (by rw [Nat.mul_comm]; exact .under hd hs)
    simpa using this

theorem tail_append {t r : Str} {acc m n : Nat} (h : Tail acc t m) (h2 : Tail m r n) : Tail acc (t ++ r) n := by
  induction h with
  | nil acc => exact h2
  | more acc d m c t hd _ ih => exact .more acc d n c _ hd (ih h2)
  | under acc d m c t hd _ ih => exact .under acc d n c _ hd (ih h2)

theorem parseDigits_numeral (s : Str) (n : Nat) : parseDigits false 0 s = some n ↔ Numeral s n := by
  rw [(parseDigits_tail s 0 n).2]
  constructor
  · rintro ⟨c, d, s', hd, rfl, ht⟩
    have := tail_numeral (.one hd) (by simpa using ht)
    simpa using this
  · intro h
    induction h with
    | @one c d hd => exact ⟨c, d, [], hd, rfl, by simpa using .nil _⟩
    | @more s m d c hd _ ih =>
      obtain ⟨x, e, s', he, rfl, ht⟩ := ih
      refine ⟨x, e, s' ++ [c], he, rfl, tail_append ht ?_⟩
      rw [Nat.mul_comm]
      exact .more _ d _ c [] hd (.nil _)
    | @under s m d c hd _ ih =>
      obtain ⟨x, e, s', he, rfl, ht⟩ := ih
      refine ⟨x, e, s' ++ ['_', c], he, rfl, tail_append ht ?_⟩
      rw [Nat.mul_comm]
      exact .under _ d _ c [] hd (.nil _)

/-- removal of white space at both ends -/
def stripC (s : Str) : Str := ((s.dropWhile isIntSpace).reverse.dropWhile isIntSpace).reverse

theorem strip_parts (s : Str) : ∃ pre post, s = pre ++ stripC s ++ post ∧ ∀ c ∈ pre ++ post, Blank c := by
  refine ⟨s.takeWhile isIntSpace, ((s.dropWhile isIntSpace).reverse.takeWhile isIntSpace).reverse, ?_, ?_⟩
  · have h1 : s = s.takeWhile isIntSpace ++ s.dropWhile isIntSpace := List.takeWhile_append_dropWhile.symm
    have h2 : s.dropWhile isIntSpace = stripC s ++ ((s.dropWhile isIntSpace).reverse.takeWhile isIntSpace).reverse := by
      unfold stripC
      rw [← List.reverse_append, List.takeWhile_append_dropWhile, List.reverse_reverse]
    rw [List.append_assoc, ← h2]
    exact h1
  · intro c hc
    rw [← isSpace_blank]
    rcases List.mem_append.mp hc with h | h
    · exact List.all_eq_true.mp List.all_takeWhile c h
    · exact List.all_eq_true.mp List.all_takeWhile c (List.mem_reverse.mp h)

theorem dropWhile_all {p : Char → Bool} {a b : Str} (h : ∀ c ∈ a, p c = true) :
    (a ++ b).dropWhile p = b.dropWhile p := by
  induction a with
  | nil => rfl
  | cons x xs ih =>
    rw [List.cons_append, List.dropWhile_cons_of_pos (h x (List.mem_cons_self ..))]
    exact ih fun c hc => h c (List.mem_cons_of_mem _ hc)

theorem strip_eq {pre t post : Str} (h : ∀ c ∈ pre ++ post, Blank c)
    (h1 : ∀ c ∈ t.head?, isIntSpace c = false) (h2 : ∀ c ∈ t.getLast?, isIntSpace c = false)
    (hne : t ≠ []) : stripC (pre ++ t ++ post) = t := by
  have hb : ∀ c ∈ pre ++ post, isIntSpace c = true := fun c hc => (isSpace_blank c).mpr (h c hc)
  unfold stripC
  rw [List.append_assoc, dropWhile_all (fun c hc => hb c (List.mem_append_left _ hc))]
  have e : (t ++ post).dropWhile isIntSpace = t ++ post := by
    cases t with
    | nil => exact absurd rfl hne
    | cons x xs =>
      rw [List.cons_append, List.dropWhile_cons_of_neg]
      have := h1 x rfl
      rw [this]; decide
  rw [e, List.reverse_append, dropWhile_all (fun c hc => hb c (List.mem_append_right _ (List.mem_reverse.mp hc)))]
  have e2 : t.reverse.dropWhile isIntSpace = t.reverse := by
    cases hr : t.reverse with
    | nil => rfl
    | cons x xs =>
      rw [List.dropWhile_cons_of_neg]
      have : t.getLast? = some x := by
        rw [← List.head?_reverse, hr]; rfl
      have := h2 x this
      rw [this]; decide
  rw [e2, List.reverse_reverse]

theorem numeral_ends {s : Str} {n : Nat} (h : Numeral s n) :
    s ≠ [] ∧ (∃ c d, DigitOf c d ∧ s.head? = some c) ∧ ∃ c d, DigitOf c d ∧ s.getLast? = some c := by
  induction h with
  | @one c d hd => exact ⟨by simp, ⟨c, d, hd, rfl⟩, ⟨c, d, hd, rfl⟩⟩
  | @more s m d c hd _ ih =>
    obtain ⟨h1, ⟨x, e, he, h2⟩, _⟩ := ih
    refine ⟨by simp, ⟨x, e, he, ?_⟩, ⟨c, d, hd, by simp⟩⟩
    cases s with
    | nil => exact absurd rfl h1
    | cons x xs => exact h2
  | @under s m d c hd _ ih =>
    obtain ⟨h1, ⟨x, e, he, h2⟩, _⟩ := ih
    refine ⟨by simp, ⟨x, e, he, ?_⟩, ⟨c, d, hd, by simp⟩⟩
    cases s with
    | nil => exact absurd rfl h1
    | cons x xs => exact h2

theorem pyInt_strip (s : Str) : pyInt s = (match stripC s with
    | '-' :: ds => match parseDigits false 0 ds with
      | some n => .ok (-(n : Int))
      | none => .error .valueError
    | '+' :: ds => match parseDigits false 0 ds with
      | some n => .ok (n : Int)
      | none => .error .valueError
    | ds => match parseDigits false 0 ds with
      | some n => .ok (n : Int)
      | none => .error .valueError) := rfl

/-- **C61**: `int(s)` accepts exactly the texts of integers, with the digits of any script, and gives their value -/
theorem C61_int (s : Str) (n : Int) : pyInt s = .ok n ↔ IntText s n := by
  rw [pyInt_strip]
  constructor
  · intro h
    obtain ⟨pre, post, hs, hb⟩ := strip_parts s
    split at h
    · rename_i ds e
      split at h
      · rename_i m hm
        injection h with h
        refine ⟨pre, ['-'], ds, post, m, ?_, hb, (parseDigits_numeral _ _).mp hm, Or.inr ⟨rfl, h.symm⟩⟩
        rw [e] at hs
        rw [hs]; simp
      · cases h
    · rename_i ds e
      split at h
      · rename_i m hm
        injection h with h
        refine ⟨pre, ['+'], ds, post, m, ?_, hb, (parseDigits_numeral _ _).mp hm, Or.inl ⟨Or.inr rfl, h.symm⟩⟩
        rw [e] at hs
        rw [hs]; simp
      · cases h
    · split at h
      · rename_i m hm
        injection h with h
        refine ⟨pre, [], stripC s, post, m, ?_, hb, (parseDigits_numeral _ _).mp hm, Or.inl ⟨Or.inl rfl, h.symm⟩⟩
        rw [List.append_nil]
        exact hs
      · cases h
  · rintro ⟨pre, sign, body, post, m, rfl, hb, hm, hn⟩
    obtain ⟨h1, ⟨x, d, hd, h2⟩, ⟨y, e, he, h3⟩⟩ := numeral_ends hm
    have hlast : ∀ sg : Str, ∀ c ∈ (sg ++ body).getLast?, isIntSpace c = false := by
      intro sg c hc
      rw [List.getLast?_append, h3] at hc
      have : y = c := by simpa using hc
      rw [← this]
      exact (digit_ne he).2.2.2
    have hp := (parseDigits_numeral body m).mpr hm
    rcases hn with ⟨rfl | rfl, hn⟩ | ⟨rfl, hn⟩
    · have := strip_eq (t := body) hb (fun c hc => by
        rw [h2] at hc
        have : x = c := by simpa using hc
        rw [← this]
        exact (digit_ne hd).2.2.2) (by simpa using hlast []) h1
      rw [List.append_nil, this]
      split
      · rename_i h
        exact absurd (by simpa using h2.symm) (digit_ne hd).2.1
      · rename_i h
        exact absurd (by simpa using h2.symm) (digit_ne hd).2.2.1
      · rw [hp, hn]
    · have := strip_eq (t := '+' :: body) hb (fun c hc => by
        have : '+' = c := by simpa using hc
        rw [← this]; decide) (by simpa using hlast ['+']) (by simp)
      have e : pre ++ ['+'] ++ body ++ post = pre ++ ('+' :: body) ++ post := by simp
      rw [e, this, hn]
      show (match parseDigits false 0 body with
        | some n => Except.ok (n : Int)
        | none => Except.error PyErr.valueError) = _
      rw [hp]
    · have := strip_eq (t := '-' :: body) hb (fun c hc => by
        have : '-' = c := by simpa using hc
        rw [← this]; decide) (by simpa using hlast ['-']) (by simp)
      have e : pre ++ ['-'] ++ body ++ post = pre ++ ('-' :: body) ++ post := by simp
      rw [e, this, hn]
      show (match parseDigits false 0 body with
        | some n => Except.ok (-(n : Int))
        | none => Except.error PyErr.valueError) = _
      rw [hp]

/-! ### fields -/

theorem find_cases (c : Char) (s : Str) :
    (pyFind c s = none ∧ c ∉ s) ∨ ∃ a b, s = a ++ c :: b ∧ c ∉ a ∧ pyFind c s = some a.length := by
  by_cases h : c ∈ s
  · obtain ⟨a, b, e, hn⟩ := List.eq_append_cons_of_mem h
    exact Or.inr ⟨a, b, e, hn, by rw [e]; exact pyFind_append hn⟩
  · exact Or.inl ⟨pyFind_none h, h⟩

theorem pyIndex_iff {α : Type} {l : List α} {i : Nat} {x : α} : pyIndex l i = .ok x ↔ l[i]? = some x := by
  unfold pyIndex
  cases l[i]? with
  | none => constructor <;> intro h <;> cases h
  | some y =>
    constructor
    · intro h; injection h with h; rw [h]
    · intro h; injection h with h; rw [h]

theorem intText_nil (n : Int) : ¬ IntText [] n := by
  rintro ⟨pre, sign, body, post, m, h, _, hm, _⟩
  have := (numeral_ends hm).1
  have h' := congrArg List.length h
  simp only [List.length_nil, List.length_append] at h'
  exact this (List.length_eq_zero_iff.mp (by omega))

/-- where the size of an array is read from -/
theorem size_slice {a r size : Str} {n : Int} {t : Str} (ht : t = a ++ '[' :: r)
    (hs : IntText size n) :
    slice (a.length + 1) ((pyFind ']' t).getD (t.length - 1)) t = size ↔
      ∃ rest, r = size ++ rest ∧
        ((']' ∉ a ∧ ']' ∉ size ∧ rest.head? = some ']') ∨ (']' ∉ t ∧ rest.length = 1)) := by
  have hne : size ≠ [] := fun e => intText_nil n (e ▸ hs)
  have hpos : 0 < size.length := List.length_pos_iff.mpr hne
  have hcut : ∀ k, slice (a.length + 1) (a.length + 1 + k) t = r.take k := by
    intro k
    have : t = (a ++ ['[']) ++ r := by rw [ht]; simp
    rw [slice, this, List.drop_take, List.drop_append_of_le_length (by simp)]
    rw [List.drop_eq_nil_of_le (by simp)]
    simp only [List.nil_append]
    congr 1
    omega
  rcases find_cases ']' t with ⟨hf, hn⟩ | ⟨p, q, hp, hpn, hf⟩
  · rw [hf]
    simp only [Option.getD_none]
    have hl : t.length = a.length + 1 + r.length := by rw [ht]; simp; omega
    by_cases hr : r = []
    · subst hr
      constructor
      · intro h
        have := congrArg List.length h
        simp only [slice, List.length_drop, List.length_take] at this
        simp only [List.length_nil] at hl
        omega
      · rintro ⟨rest, h, _⟩
        have := congrArg List.length h
        simp only [List.length_nil, List.length_append] at this
        omega
    · have hrp := List.length_pos_iff.mpr hr
      rw [show t.length - 1 = a.length + 1 + (r.length - 1) by omega, hcut]
      constructor
      · intro h
        refine ⟨r.drop (r.length - 1), ?_, Or.inr ⟨hn, ?_⟩⟩
        · rw [← h]; exact (List.take_append_drop _ _).symm
        · rw [List.length_drop]; omega
      · rintro ⟨rest, h, ⟨_, _, h3⟩ | ⟨_, h3⟩⟩
        · exfalso
          apply hn
          rw [ht, h]
          cases rest with
          | nil => cases h3
          | cons x xs =>
            simp only [List.head?_cons, Option.some.injEq] at h3
            subst h3; simp
        · rw [h, List.length_append, h3, Nat.add_sub_cancel, List.take_left]
  · rw [hf]
    simp only [Option.getD_some]
    constructor
    · intro h
      have hl := congrArg List.length h
      have hlt : t.length = p.length + 1 + q.length := by rw [hp]; simp; omega
      simp only [slice, List.length_drop, List.length_take] at hl
      obtain ⟨k, hk⟩ : ∃ k, p.length = a.length + 1 + k := ⟨p.length - (a.length + 1), by omega⟩
      rw [hk, hcut] at h
      have h1 : p = t.take (a.length + 1 + k) := by rw [← hk, hp, List.take_left]
      have h2 : ']' :: q = t.drop (a.length + 1 + k) := by
        rw [← hk, hp, List.drop_append_of_le_length (Nat.le_refl _)]; simp
      have ht' : t = (a ++ ['[']) ++ r := by rw [ht]; simp
      have h3 : p = (a ++ ['[']) ++ r.take k := by
        rw [h1, ht', List.take_append, List.take_of_length_le (by simp)]
        congr 2
        simp
      have h4 : ']' :: q = r.drop k := by
        rw [h2, ht', List.drop_append, List.drop_eq_nil_of_le (by simp)]
        simp
      refine ⟨']' :: q, ?_, Or.inl ⟨?_, ?_, rfl⟩⟩
      · rw [← h, h4, List.take_append_drop]
      · intro hc; apply hpn; rw [h3]; simp [hc]
      · intro hc; apply hpn; rw [h3, h]; simp [hc]
    · rintro ⟨rest, h, ⟨h1, h2, h3⟩ | ⟨h1, _⟩⟩
      · cases rest with
        | nil => cases h3
        | cons x xs =>
          simp only [List.head?_cons, Option.some.injEq] at h3
          subst h3
          have e : t = (a ++ '[' :: size) ++ ']' :: xs := by rw [ht, h]; simp
          have hnn : ']' ∉ a ++ '[' :: size := by simp [h1, h2]
          have := pyFind_append (b := xs) hnn
          rw [← e, hf, Option.some.injEq] at this
          rw [this, List.length_append, List.length_cons,
            show a.length + (size.length + 1) = a.length + 1 + size.length by omega, hcut, h, List.take_left]
      · exact absurd (by rw [hp]; simp) h1

theorem extractType_iff (s : Str) (f : FieldDef) : extractType s = .ok f ↔ FieldText s f := by
  have key : ∀ parts, Splits ' ' s parts → (extractType s = .ok f ↔
      ∃ t, parts[0]? = some t ∧ parts[1]? = some f.name ∧
        (('[' ∉ t ∧ f.type = t ∧ f.arr = 0) ∨
          ∃ size rest, t = f.type ++ ['['] ++ size ++ rest ∧ '[' ∉ f.type ∧ IntText size f.arr ∧
            ((']' ∉ f.type ∧ ']' ∉ size ∧ rest.head? = some ']') ∨ (']' ∉ t ∧ rest.length = 1)))) := by
    intro parts hp
    have hp := (C61_split _ _ _).mpr hp
    unfold extractType
    simp only [hp]
    rw [except_bind_ok]
    constructor
    · rintro ⟨t, h1, h⟩
      obtain ⟨nm, h2, h⟩ := except_bind_ok.mp h
      refine ⟨t, pyIndex_iff.mp h1, ?_⟩
      rcases find_cases '[' t with ⟨hf, hn⟩ | ⟨a, r, ht, han, hf⟩
      · rw [hf] at h
        cases h
        exact ⟨pyIndex_iff.mp h2, Or.inl ⟨hn, rfl, rfl⟩⟩
      · rw [hf] at h
        obtain ⟨n, h3, h⟩ := except_bind_ok.mp h
        cases h
        refine ⟨pyIndex_iff.mp h2, Or.inr ?_⟩
        have hi := (C61_int _ _).mp h3
        obtain ⟨rest, hr, hc⟩ := (size_slice ht hi).mp (by cases pyFind ']' t <;> rfl)
        have ha : t.take a.length = a := by rw [ht, List.take_left]
        refine ⟨_, rest, ?_, ?_, hi, ?_⟩
        · show t = t.take a.length ++ _ ++ _ ++ _
          rw [ha]
          conv => lhs; rw [ht, hr]
          simp
        · show '[' ∉ t.take a.length
          rw [ha]; exact han
        · show (']' ∉ t.take a.length ∧ _) ∨ _
          rw [ha]; exact hc
    · rintro ⟨t, h1, h2, h⟩
      refine ⟨t, pyIndex_iff.mpr h1, ?_⟩
      refine except_bind_ok.mpr ⟨f.name, pyIndex_iff.mpr h2, ?_⟩
      rcases h with ⟨hn, h3, h4⟩ | ⟨size, rest, ht, hn, hi, hc⟩
      · rw [pyFind_none hn]
        show Except.ok _ = _
        rw [← h3, ← h4]
      · have ht' : t = f.type ++ '[' :: (size ++ rest) := by rw [ht]; simp
        have hf : pyFind '[' t = some f.type.length := by rw [ht']; exact pyFind_append hn
        rw [hf]
        refine except_bind_ok.mpr ⟨f.arr, ?_, ?_⟩
        · have e := (C61_int _ _).mpr hi
          rw [← (size_slice ht' hi).mpr ⟨rest, rfl, hc⟩] at e
          rw [← e]
          cases pyFind ']' t <;> rfl
        · have ha : t.take f.type.length = f.type := by rw [ht', List.take_left]
          show Except.ok _ = _
          rw [ha]
  rw [key _ ((C61_split _ _ _).mp rfl)]
  constructor
  · rintro ⟨t, h⟩
    exact ⟨_, t, (C61_split _ _ _).mp rfl, h⟩
  · rintro ⟨parts, t, hp, h⟩
    rw [(C61_split _ _ _).mpr hp]
    exact ⟨t, h⟩

theorem mapM_iff {α β : Type} {f : α → Except PyErr β} {R : α → β → Prop} (hR : ∀ a b, f a = .ok b ↔ R a b) :
    ∀ (l : List α) (r : List β), l.mapM f = .ok r ↔ l.length = r.length ∧ ∀ p ∈ l.zip r, R p.1 p.2
  | [], r => by
    rw [List.mapM_nil]
    constructor
    · intro h; cases h; exact ⟨rfl, fun p hp => by cases hp⟩
    · rintro ⟨h, _⟩
      cases r with
      | nil => rfl
      | cons => cases h
  | a :: l, r => by
    rw [List.mapM_cons]
    constructor
    · intro h
      obtain ⟨b, hb, h⟩ := except_bind_ok.mp h
      obtain ⟨r', hr, h⟩ := except_bind_ok.mp h
      cases h
      obtain ⟨h1, h2⟩ := (mapM_iff hR l r').mp hr
      refine ⟨by simp [h1], fun p hp => ?_⟩
      rcases List.mem_cons.mp hp with rfl | hp
      · exact (hR _ _).mp hb
      · exact h2 p hp
    · rintro ⟨h1, h2⟩
      cases r with
      | nil => cases h1
      | cons b r' =>
        refine except_bind_ok.mpr ⟨b, (hR _ _).mpr (h2 (a, b) (List.mem_cons_self ..)), ?_⟩
        refine except_bind_ok.mpr ⟨r', (mapM_iff hR l r').mpr ⟨?_, fun p hp => ?_⟩, rfl⟩
        · simpa using h1
        · exact h2 p (List.mem_cons_of_mem _ hp)

/-- **C61** (text): a format message is accepted exactly when its text is a name, a colon and a list
of fields, and gives exactly that name and those fields -/
theorem C61_format_text (ign : Bool) (d : Bytes) (f : MsgFormat) :
    parseFormat ign d = .ok f ↔ ∃ s, parseString ign d = .ok s ∧ FormatText s f := by
  have hlen : ∀ l : List Str, l.filter (fun t => decide (t.length > 0)) = l.filter (· ≠ []) := by
    intro l
    congr 1
    funext t
    cases t <;> rfl
  unfold parseFormat
  rw [except_bind_ok]
  constructor
  · rintro ⟨s, hs, h⟩
    obtain ⟨nm, h1, h⟩ := except_bind_ok.mp h
    obtain ⟨b, h2, h⟩ := except_bind_ok.mp h
    obtain ⟨fs, h3, h⟩ := except_bind_ok.mp h
    cases h
    rw [hlen] at h3
    obtain ⟨h4, h5⟩ := (mapM_iff extractType_iff _ _).mp h3
    exact ⟨s, hs, _, b, _, (C61_split _ _ _).mp rfl, pyIndex_iff.mp h1, pyIndex_iff.mp h2,
      (C61_split _ _ _).mp rfl, h4, h5⟩
  · rintro ⟨s, hs, parts, b, fs, hp, h1, h2, hb, h4, h5⟩
    refine ⟨s, hs, ?_⟩
    rw [(C61_split _ _ _).mpr hp]
    refine except_bind_ok.mpr ⟨f.name, pyIndex_iff.mpr h1, ?_⟩
    refine except_bind_ok.mpr ⟨b, pyIndex_iff.mpr h2, ?_⟩
    refine except_bind_ok.mpr ⟨f.fields, ?_, rfl⟩
    rw [(C61_split _ _ _).mpr hb, hlen]
    exact (mapM_iff extractType_iff _ _).mpr ⟨h4, h5⟩

/-- **C61** (formats): after loading, the format of a name is the one of the last format message of
the definition section with that name; format messages of the data section do not count -/
theorem C61_formats (fuel : Nat) (cfg : Cfg) (bs : Bytes) (u : ULog)
    (h : load fuel cfg bs = .ok u) (k : Str) :
    u.formats.get? k = lastOf k ((defTrace fuel cfg bs).filterMap (formatOf cfg.ign)) := by
  obtain ⟨s, hs⟩ := load_afterDefs h
  have h1 : u.formats = s.u.formats :=
    load_inv (P := fun _ v => v.formats = s.u.formats)
      (fun t v c hh hp => hp) (fun t v d hp => hp)
      (fun t v ty d o hp hd => (handleData_pres _ _ _ _ _ hd).formats.trans hp)
      (fun s' hs' => by rw [hs] at hs'; cases hs'; rfl) h
  rw [h1]
  refine afterDefs_inv (P := fun t v => v.formats.get? k
    = lastOf k (t.filterMap (formatOf cfg.ign))) (fun t v c hh hp => hp) ?_ ?_ hs
  · intro t v ty d o hp hd
    rw [filterMap_snoc]
    by_cases hF : ty = tyF
    · subst hF
      rw [show tyF = MSG_TYPE_FORMAT from rfl, handleDef_F] at hd
      cases hd
      have e : formatOf cfg.ign (v, tyF, d) = (parseFormat cfg.ign d).toOption.map fun f => (f.name, f) :=
        if_pos rfl
      rw [e]
      cases hi : parseFormat cfg.ign d with
      | error e =>
        simp only [Except.toOption, Option.map_none, Option.toList, List.append_nil]
        exact hp
      | ok m =>
        simp only [Except.toOption, Option.map_some, Option.toList, Out.bind, Out.state, lastOf_snoc, Dict.get?_set]
        rw [hp]
    · have : formatOf cfg.ign (v, ty, d) = none := by simp [formatOf, hF]
      rw [this]
      simp only [Option.toList, List.append_nil]
      rw [handleDef_frame (fun u => u.formats) hd (hF := fun e => absurd e hF)]
      exact hp
  · intro v hv
    rw [readHeader_init hv]; rfl

/-- an array after an empty field, what follows a second colon, a signed size with an underscore, a size
without closing bracket, a space inside the brackets and a field without name -/
example :
    (parseFormat false (Sample.asc (py! "gps:uint64_t timestamp;;float[12] v;:x"))).toOption
      = some ⟨py! "gps", [⟨py! "uint64_t", 0, py! "timestamp"⟩, ⟨py! "float", 12, py! "v"⟩]⟩ ∧
    (parseFormat false (Sample.asc (py! "g:float[+1_2]x v"))).toOption
      = some ⟨py! "g", [⟨py! "float", 12, py! "v"⟩]⟩ ∧
    (parseFormat false (Sample.asc (py! "g:float[12 v"))).toOption
      = some ⟨py! "g", [⟨py! "float", 1, py! "v"⟩]⟩ ∧
    (parseFormat false (Sample.asc (py! "g:float[ 12] v"))).toOption = none ∧
    (parseFormat false (Sample.asc (py! "g:float[12]"))).toOption = none := by
  decide +kernel

/-- a log that defines a format twice -/
def Sample.twice : Bytes :=
  Sample.header ++ encMsgs [(tyF, Sample.asc (py! "a:uint64_t timestamp;")),
    (tyF, Sample.asc (py! "a:uint64_t timestamp;int8_t[3] x;")), (tyA, [0, 3, 0] ++ Sample.asc (py! "a"))]

example : (match load 99 {} Sample.twice with
    | .ok u => u.formats.get? (py! "a")
    | _ => none) = some ⟨py! "a", [⟨py! "uint64_t", 0, py! "timestamp"⟩, ⟨py! "int8_t", 3, py! "x"⟩]⟩ := by
  decide +kernel

end PyULog
