import Verif.Spec.CsvError
import Verif.Lemmas.WriteError
import Verif.Props.FormatText
import Verif.Props.CsvLeft
/-
Lemmas about the exceptions of ulog2csv: the fields, the characters of a text, the cells.
-/
namespace PyULog
open Spec

theorem arrayPattern_iff {s a b : Str} : arrayPattern s = some (a, b) ↔ Element s a b := by
  have hcut : ∀ {r : Str}, '[' ∈ r → r = r.takeWhile (fun c => decide (c ≠ '[')) ++
      '[' :: (r.dropWhile (fun c => decide (c ≠ '['))).tail := by
    intro r hm
    induction r with
    | nil => cases hm
    | cons x xs ih =>
      by_cases hx : x = '['
      · subst hx; simp
      · have : '[' ∈ xs := by
          rcases List.mem_cons.mp hm with h | h
          · exact absurd h.symm hx
          · exact h
        rw [List.takeWhile_cons_of_pos (by simp [hx]), List.dropWhile_cons_of_pos (by simp [hx])]
        rw [List.cons_append, ← ih this]
  constructor
  · intro h
    unfold arrayPattern at h
    split at h
    · cases h
    · rename_i hn
      split at h
      · rename_i r hr
        split at h
        · rename_i hm
          injection h with h
          injection h with h1 h2
          have hs : s = r.reverse ++ [']'] := by
            rw [← List.reverse_reverse s, hr]; simp
          refine ⟨?_, ?_, hn⟩
          · rw [hs, ← h1, ← h2]
            rw [congrArg List.reverse (hcut hm)]
            simp
          · rw [← h2, List.mem_reverse]
            intro hc
            have := List.all_takeWhile (p := fun c => decide (c ≠ '[')) (l := r)
            rw [List.all_eq_true] at this
            simpa using this _ hc
        · cases h
      · cases h
  · rintro ⟨h1, h2, h3⟩
    unfold arrayPattern
    rw [if_neg h3]
    have hr : s.reverse = ']' :: (b.reverse ++ '[' :: a.reverse) := by rw [h1]; simp
    rw [hr]
    show (if '[' ∈ (b.reverse ++ '[' :: a.reverse) then
      some ((((b.reverse ++ '[' :: a.reverse).dropWhile (fun c => decide (c ≠ '['))).tail.reverse),
        ((b.reverse ++ '[' :: a.reverse).takeWhile (fun c => decide (c ≠ '['))).reverse)
      else none) = _
    rw [if_pos (by simp)]
    have hb : ∀ c ∈ b.reverse, (decide (c ≠ '[')) = true := by
      intro c hc
      rw [List.mem_reverse] at hc
      rw [decide_eq_true_eq]
      rintro rfl
      exact h2 hc
    rw [List.dropWhile_append_of_pos hb, List.takeWhile_append_of_pos hb]
    simp

theorem textPart_iff {f : FieldData} {a b : Str} :
    TextPart f a b ↔ startsWith (py! "_padding") f.name = false ∧ f.type = .char ∧ arrayPattern f.name = some (a, b) := by
  unfold TextPart Padding
  rw [arrayPattern_iff, ← startsWith_iff, Bool.not_eq_true]

/-- element `j` of the text `k` is read -/
def readIn (sizes : Dict Str Int) (k : Str) (j : Nat) : Prop := ∃ m, sizes.get? k = some m ∧ (j : Int) < m

/-- the columns that `get_fields` finds -/
theorem csvFields_found {fs : List FieldData} {keys : List Str} {sizes : Dict Str Int} {keys' : List Str} {sizes' : Dict Str Int}
    (h : csvFields fs keys sizes = .ok (keys', sizes')) :
    (∀ k, k ∈ keys' ↔ k ∈ keys ∨ HasHeader fs k) ∧
    (∀ k, sizes'.get? k = none ↔ sizes.get? k = none ∧ ¬ IsTextName fs k) ∧
    (∀ k j, readIn sizes' k j ↔ readIn sizes k j ∨ ∃ n, HasPart fs k n ∧ (j : Int) ≤ n) ∧
    (∀ f ∈ fs, ∀ a b, TextPart f a b → ∃ n, IntText b n) := by
  induction fs generalizing keys sizes with
  | nil =>
    cases h
    refine ⟨fun k => ⟨.inl, ?_⟩, fun k => ⟨fun h => ⟨h, ?_⟩, And.left⟩, fun k j => ⟨.inl, ?_⟩, fun f hf => by cases hf⟩
    · rintro (h | ⟨_, h, _⟩ | ⟨_, h, _⟩)
      · exact h
      · cases h
      · cases h
    · rintro ⟨_, h, _⟩; cases h
    · rintro (h | ⟨_, ⟨_, h, _⟩, _⟩)
      · exact h
      · cases h
  | cons f fs ih =>
    -- the parts of the first field
    have hT : ∀ k, IsTextName (f :: fs) k ↔ (∃ index, TextPart f k index) ∨ IsTextName fs k := by
      intro k
      unfold IsTextName
      constructor
      · rintro ⟨g, hg, x⟩
        rcases List.mem_cons.mp hg with rfl | hg
        · exact .inl x
        · exact .inr ⟨g, hg, x⟩
      · rintro (x | ⟨g, hg, x⟩)
        · exact ⟨f, by simp, x⟩
        · exact ⟨g, by simp [hg], x⟩
    have hP : ∀ k n, HasPart (f :: fs) k n ↔ (∃ index, TextPart f k index ∧ IntText index n) ∨ HasPart fs k n := by
      intro k n
      unfold HasPart
      constructor
      · rintro ⟨g, hg, x⟩
        rcases List.mem_cons.mp hg with rfl | hg
        · exact .inl x
        · exact .inr ⟨g, hg, x⟩
      · rintro (x | ⟨g, hg, x⟩)
        · exact ⟨f, by simp, x⟩
        · exact ⟨g, by simp [hg], x⟩
    have hH : ∀ k, HasHeader (f :: fs) k ↔ (¬ Padding f ∧ (∀ a b, ¬ TextPart f a b) ∧ f.name = k) ∨
        (∃ index, TextPart f k index ∧ IntText index 0) ∨ HasHeader fs k := by
      intro k
      unfold HasHeader
      rw [hP]
      constructor
      · rintro (⟨g, hg, x⟩ | x | x)
        · rcases List.mem_cons.mp hg with rfl | hg
          · exact .inl x
          · exact .inr (.inr (.inl ⟨g, hg, x⟩))
        · exact .inr (.inl x)
        · exact .inr (.inr (.inr x))
      · rintro (x | x | ⟨g, hg, x⟩ | x)
        · exact .inl ⟨f, by simp, x⟩
        · exact .inr (.inl x)
        · exact .inl ⟨g, by simp [hg], x⟩
        · exact .inr (.inr x)
    rw [csvFields] at h
    by_cases hp : startsWith (py! "_padding") f.name = true
    · rw [if_pos hp] at h
      obtain ⟨i1, i2, i3, i4⟩ := ih h
      have hno : ∀ a b, ¬ TextPart f a b := fun a b ht => by
        have := (textPart_iff.mp ht).1
        rw [hp] at this
        cases this
      have hpad : Padding f := (startsWith_iff _ _).mp hp
      refine ⟨fun k => ?_, fun k => ?_, fun k j => ?_, fun g hg a b ht => ?_⟩
      · rw [i1, hH]
        constructor
        · rintro (h | h)
          · exact .inl h
          · exact .inr (.inr (.inr h))
        · rintro (h | ⟨h, _⟩ | ⟨_, h, _⟩ | h)
          · exact .inl h
          · exact absurd hpad h
          · exact absurd h (hno _ _)
          · exact .inr h
      · rw [i2, hT]
        refine and_congr_right fun _ => not_congr ⟨.inr, ?_⟩
        rintro (⟨_, h⟩ | h)
        · exact absurd h (hno _ _)
        · exact h
      · rw [i3]
        refine or_congr_right (exists_congr fun n => and_congr_left fun _ => ?_)
        rw [hP]
        refine ⟨.inr, ?_⟩
        rintro (⟨_, h, _⟩ | h)
        · exact absurd h (hno _ _)
        · exact h
      · rcases List.mem_cons.mp hg with rfl | hg
        · exact absurd ht (hno _ _)
        · exact i4 g hg a b ht
    · have hpf : startsWith (py! "_padding") f.name = false := by simpa using hp
      have hpad : ¬ Padding f := fun hc => hp ((startsWith_iff _ _).mpr hc)
      rw [if_neg hp] at h
      -- a field that is not part of a text
      have plain : (∀ a b, ¬ TextPart f a b) → csvFields fs (keys ++ [f.name]) sizes = .ok (keys', sizes') →
          (∀ k, k ∈ keys' ↔ k ∈ keys ∨ HasHeader (f :: fs) k) ∧
          (∀ k, sizes'.get? k = none ↔ sizes.get? k = none ∧ ¬ IsTextName (f :: fs) k) ∧
          (∀ k j, readIn sizes' k j ↔ readIn sizes k j ∨ ∃ n, HasPart (f :: fs) k n ∧ (j : Int) ≤ n) ∧
          (∀ g ∈ f :: fs, ∀ a b, TextPart g a b → ∃ n, IntText b n) := by
        intro hno h
        obtain ⟨i1, i2, i3, i4⟩ := ih h
        refine ⟨fun k => ?_, fun k => ?_, fun k j => ?_, fun g hg a b ht => ?_⟩
        · rw [i1, hH, List.mem_append, List.mem_singleton]
          constructor
          · rintro ((h | h) | h)
            · exact .inl h
            · exact .inr (.inl ⟨hpad, hno, h.symm⟩)
            · exact .inr (.inr (.inr h))
          · rintro (h | ⟨_, _, h⟩ | ⟨_, h, _⟩ | h)
            · exact .inl (.inl h)
            · exact .inl (.inr h.symm)
            · exact absurd h (hno _ _)
            · exact .inr h
        · rw [i2, hT]
          refine and_congr_right fun _ => not_congr ⟨.inr, ?_⟩
          rintro (⟨_, h⟩ | h)
          · exact absurd h (hno _ _)
          · exact h
        · rw [i3]
          refine or_congr_right (exists_congr fun n => and_congr_left fun _ => ?_)
          rw [hP]
          refine ⟨.inr, ?_⟩
          rintro (⟨_, h, _⟩ | h)
          · exact absurd h (hno _ _)
          · exact h
        · rcases List.mem_cons.mp hg with rfl | hg
          · exact absurd ht (hno _ _)
          · exact i4 g hg a b ht
      cases ha : arrayPattern f.name with
      | none =>
        rw [ha] at h
        refine plain (fun a b ht => ?_) h
        have := (textPart_iff.mp ht).2.2
        rw [ha] at this
        cases this
      | some ab =>
        obtain ⟨a, b⟩ := ab
        rw [ha] at h
        dsimp only at h
        by_cases hc : f.type = .char
        · rw [if_pos hc] at h
          obtain ⟨i, hi, h⟩ := except_bind_ok.mp h
          have hpart : ∀ x y, TextPart f x y ↔ x = a ∧ y = b := by
            intro x y
            rw [textPart_iff, ha]
            constructor
            · rintro ⟨_, _, h⟩; cases h; exact ⟨rfl, rfl⟩
            · rintro ⟨rfl, rfl⟩; exact ⟨hpf, hc, rfl⟩
          have hint : ∀ n, IntText b n ↔ n = i := by
            intro n
            rw [← C61_int, hi]
            exact ⟨fun h => (Except.ok.inj h).symm, fun h => by rw [h]⟩
          obtain ⟨i1, i2, i3, i4⟩ := ih h
          refine ⟨fun k => ?_, fun k => ?_, fun k j => ?_, fun g hg x y ht => ?_⟩
          · rw [i1, hH]
            have h1 : (k ∈ if i = 0 then keys ++ [a] else keys) ↔ k ∈ keys ∨ (k = a ∧ i = 0) := by
              by_cases h0 : i = 0
              · rw [if_pos h0, List.mem_append, List.mem_singleton]
                exact or_congr_right ⟨fun h => ⟨h, h0⟩, And.left⟩
              · rw [if_neg h0]
                exact ⟨.inl, fun h => h.elim id fun h => absurd h.2 h0⟩
            rw [h1]
            constructor
            · rintro ((h | ⟨rfl, rfl⟩) | h)
              · exact .inl h
              · exact .inr (.inr (.inl ⟨b, (hpart _ _).mpr ⟨rfl, rfl⟩, (hint 0).mpr rfl⟩))
              · exact .inr (.inr (.inr h))
            · rintro (h | ⟨_, h, _⟩ | ⟨y, h, h'⟩ | h)
              · exact .inl (.inl h)
              · exact absurd ((hpart a b).mpr ⟨rfl, rfl⟩) (h a b)
              · obtain ⟨rfl, rfl⟩ := (hpart _ _).mp h
                exact .inl (.inr ⟨rfl, ((hint 0).mp h').symm⟩)
              · exact .inr h
          · rw [i2, hT, Dict.get?_set]
            by_cases hk : a = k
            · subst hk
              rw [if_pos rfl]
              constructor
              · rintro ⟨h, _⟩; cases h
              · rintro ⟨_, h⟩
                exact absurd (.inl ⟨b, (hpart _ _).mpr ⟨rfl, rfl⟩⟩) h
            · rw [if_neg hk]
              refine and_congr_right fun _ => not_congr ⟨.inr, ?_⟩
              rintro (⟨_, h⟩ | h)
              · exact absurd ((hpart _ _).mp h).1.symm hk
              · exact h
          · rw [i3]
            have h1 : readIn (sizes.set a (max (i + 1) ((sizes.get? a).getD 0))) k j ↔
                readIn sizes k j ∨ (k = a ∧ (j : Int) ≤ i) := by
              unfold readIn
              rw [Dict.get?_set]
              by_cases hk : a = k
              · subst hk
                rw [if_pos rfl]
                cases hg : sizes.get? a with
                | none =>
                  constructor
                  · rintro ⟨m, hm, h⟩
                    cases hm
                    exact .inr ⟨rfl, by simp only [Option.getD_none] at h; omega⟩
                  · rintro (⟨_, h, _⟩ | ⟨_, h⟩)
                    · cases h
                    · exact ⟨_, rfl, by omega⟩
                | some m0 =>
                  constructor
                  · rintro ⟨m, hm, h⟩
                    cases hm
                    simp only [Option.getD_some] at h
                    by_cases hj : (j : Int) ≤ i
                    · exact .inr ⟨rfl, hj⟩
                    · exact .inl ⟨m0, rfl, by omega⟩
                  · rintro (⟨m, hm, h⟩ | ⟨_, h⟩)
                    · cases hm
                      exact ⟨_, rfl, by simp only [Option.getD_some]; omega⟩
                    · exact ⟨_, rfl, by simp only [Option.getD_some]; omega⟩
              · rw [if_neg hk]
                exact ⟨.inl, fun h => h.elim id fun h => absurd h.1.symm hk⟩
            rw [h1]
            constructor
            · rintro ((h | ⟨rfl, hle⟩) | ⟨n, h, h'⟩)
              · exact .inl h
              · exact .inr ⟨i, (hP _ _).mpr (.inl ⟨b, (hpart _ _).mpr ⟨rfl, rfl⟩, (hint _).mpr rfl⟩), hle⟩
              · exact .inr ⟨n, (hP _ _).mpr (.inr h), h'⟩
            · rintro (h | ⟨n, h, h'⟩)
              · exact .inl (.inl h)
              · rcases (hP _ _).mp h with ⟨y, h1, h2⟩ | h
                · obtain ⟨rfl, rfl⟩ := (hpart _ _).mp h1
                  rw [hint] at h2
                  exact .inl (.inr ⟨rfl, by omega⟩)
                · exact .inr ⟨n, h, h'⟩
          · rcases List.mem_cons.mp hg with rfl | hg
            · obtain ⟨rfl, rfl⟩ := (hpart _ _).mp ht
              exact ⟨i, (hint i).mpr rfl⟩
            · exact i4 g hg x y ht
        · rw [if_neg hc] at h
          exact plain (fun x y ht => hc ht.2.1) h

/-- `get_fields` fails only because of an index -/
theorem csvFields_error {fs : List FieldData} {keys : List Str} {sizes : Dict Str Int} {e : PyErr}
    (h : csvFields fs keys sizes = .error e) :
    e = .valueError ∧ ∃ f ∈ fs, ∃ a b, TextPart f a b ∧ ∀ n, ¬ IntText b n := by
  induction fs generalizing keys sizes with
  | nil => cases h
  | cons f fs ih =>
    have up : ∀ {keys sizes}, csvFields fs keys sizes = .error e →
        e = .valueError ∧ ∃ g ∈ f :: fs, ∃ a b, TextPart g a b ∧ ∀ n, ¬ IntText b n := by
      intro keys sizes h
      obtain ⟨h1, g, hg, h2⟩ := ih h
      exact ⟨h1, g, by simp [hg], h2⟩
    rw [csvFields] at h
    by_cases hp : startsWith (py! "_padding") f.name = true
    · rw [if_pos hp] at h
      exact up h
    · have hpf : startsWith (py! "_padding") f.name = false := by simpa using hp
      rw [if_neg hp] at h
      cases ha : arrayPattern f.name with
      | none =>
        rw [ha] at h
        exact up h
      | some ab =>
        obtain ⟨a, b⟩ := ab
        rw [ha] at h
        dsimp only at h
        by_cases hc : f.type = .char
        · rw [if_pos hc] at h
          rcases except_bind_error.mp h with h | ⟨i, _, h⟩
          · refine ⟨pyInt_err h, f, by simp, a, b, textPart_iff.mpr ⟨hpf, hc, ha⟩, ?_⟩
            intro n hn
            rw [(C61_int b n).mpr hn] at h
            cases h
          · exact up h
        · rw [if_neg hc] at h
          exact up h

/-- reading an element -/
theorem readAt_iff {d : Dataset} {k : Str} {i : Nat} :
    (∀ v, (dictGet d.data k >>= fun col => pyIndex col i) = .ok v ↔ ReadAt d k i v) ∧
    (∀ e, (dictGet d.data k >>= fun col => pyIndex col i) = .error e ↔ ReadObstacle d k i e) := by
  unfold dictGet pyIndex ReadAt
  cases h : d.data.get? k with
  | none =>
    refine ⟨fun v => ⟨fun h => (by cases h), fun ⟨_, h, _⟩ => (by cases h)⟩, fun e => ⟨fun h' => ?_, fun h' => ?_⟩⟩
    · cases h'
      exact .missing h
    · cases h' with
      | missing => rfl
      | short h2 => rw [h] at h2; cases h2
  | some col =>
    simp only [ok_bind]
    cases hc : col[i]? with
    | none =>
      refine ⟨fun v => ⟨fun h => (by cases h), fun ⟨c, h, h'⟩ => ?_⟩, fun e => ⟨fun h' => ?_, fun h' => ?_⟩⟩
      · cases h
        rw [hc] at h'
        cases h'
      · cases h'
        exact .short h (List.getElem?_eq_none_iff.mp hc)
      · cases h' with
        | missing h2 => rw [h] at h2; cases h2
        | short => rfl
    | some x =>
      refine ⟨fun v => ⟨fun h' => ?_, fun ⟨c, h, h'⟩ => ?_⟩, fun e => ⟨fun h' => (by cases h'), fun h' => ?_⟩⟩
      · cases h'
        exact ⟨col, rfl, hc⟩
      · cases h
        rw [hc] at h'
        cases h'
        rfl
      · cases h' with
        | missing h2 => rw [h] at h2; cases h2
        | short h2 h3 =>
          rw [h] at h2
          cases h2
          rw [List.getElem?_eq_none_iff.mpr h3] at hc
          cases hc

/-- reading a text fails at the first element that is not a character -/
theorem readString_error {d : Dataset} {k : Str} {i : Nat} {e : PyErr} : ∀ {n j : Nat},
    readStringData d k i n j = .error e ↔
      ∃ m, j ≤ m ∧ m < j + n ∧ (∀ j', j ≤ j' → j' < m → ∃ c : Int, ReadAt d (elemName k j') i (.int c) ∧ 0 < c ∧ c < 128) ∧
        CharObstacle d (elemName k m) i e
  | 0, j => by
    rw [readStringData]
    constructor
    · intro h; cases h
    · rintro ⟨m, h1, h2, _⟩; omega
  | n + 1, j => by
    have he : k ++ '[' :: natDec j ++ [']'] = elemName k j := by unfold elemName; simp
    have hstep : readStringData d k i (n + 1) j = ((dictGet d.data (elemName k j) >>= fun col => pyIndex col i) >>= fun v =>
        if npEqInt v 0 then .ok [] else do
          let c ← pyChr v
          let rest ← readStringData d k i n (j + 1)
          .ok (c :: rest)) := by
      rw [readStringData, he]
      cases dictGet d.data (elemName k j) with
      | error e => rfl
      | ok col => rfl
    obtain ⟨r1, r2⟩ := readAt_iff (d := d) (k := elemName k j) (i := i)
    -- only this element matters if it cannot be read
    have first : ∀ {m}, j ≤ m → (∀ j', j ≤ j' → j' < m → ∃ c : Int, ReadAt d (elemName k j') i (.int c) ∧ 0 < c ∧ c < 128) →
        m = j ∨ (j + 1 ≤ m ∧ ∃ c : Int, ReadAt d (elemName k j) i (.int c) ∧ 0 < c ∧ c < 128) := by
      intro m h1 h2
      rcases Nat.eq_or_lt_of_le h1 with h | h
      · exact .inl h.symm
      · exact .inr ⟨h, h2 j (Nat.le_refl _) h⟩
    have same : ∀ {v w}, ReadAt d (elemName k j) i v → ReadAt d (elemName k j) i w → v = w := by
      intro v w h1 h2
      have := (r1 v).mpr h1
      rw [(r1 w).mpr h2] at this
      exact (Except.ok.inj this).symm
    rw [hstep]
    cases hv : (dictGet d.data (elemName k j) >>= fun col => pyIndex col i) with
    | error e' =>
      have ho := (r2 e').mp hv
      have hno : ∀ v, ¬ ReadAt d (elemName k j) i v := fun v h => by
        rw [(r1 v).mpr h] at hv; cases hv
      constructor
      · intro h
        cases h
        exact ⟨j, Nat.le_refl _, by omega, fun j' a b => by omega, .read ho⟩
      · rintro ⟨m, h1, h2, h3, h4⟩
        rcases first h1 h3 with rfl | ⟨_, c, hc, _⟩
        · cases h4 with
          | read h =>
            have := (r2 e).mpr h
            rw [hv] at this
            cases this
            rfl
          | negative h => exact absurd h (hno _)
          | float h => exact absurd h (hno _)
          | large h => exact absurd h (hno _)
        · exact absurd hc (hno _)
    | ok v =>
      have hr := (r1 v).mp hv
      have hnr : ∀ {e}, ¬ ReadObstacle d (elemName k j) i e := fun h => by
        rw [(r2 _).mpr h] at hv; cases hv
      rw [ok_bind]
      by_cases hz : npEqInt v 0 = true
      · rw [if_pos hz]
        have hz' := (isZero_iff v).mp hz
        constructor
        · intro h; cases h
        · rintro ⟨m, h1, h2, h3, h4⟩
          exfalso
          rcases first h1 h3 with rfl | ⟨_, c, hc, h0, _⟩
          · cases h4 with
            | read h => exact hnr h
            | negative h hn =>
              rw [same hr h] at hz'
              have : (_ : Int) = 0 := hz'
              omega
            | float h hf hn =>
              rw [same hr h] at hz'
              exact hn hz'
            | large h hn =>
              rw [same hr h] at hz'
              have : (_ : Int) = 0 := hz'
              omega
          · rw [same hr hc] at hz'
            have : c = 0 := hz'
            omega
      · rw [if_neg hz]
        have hz' : ¬ IsZero v := fun h => hz ((isZero_iff v).mpr h)
        cases v with
        | int c =>
          have hc0 : c ≠ 0 := hz'
          have hch : pyChr (.int c) = if c < 0 then .error .valueError else if c < 128 then .ok (Char.ofNat c.toNat)
              else .error .unmodelled := rfl
          rw [hch]
          by_cases hneg : c < 0
          · rw [if_pos hneg]
            constructor
            · intro h
              cases h
              exact ⟨j, Nat.le_refl _, by omega, fun j' a b => by omega, .negative hr hneg⟩
            · rintro ⟨m, h1, h2, h3, h4⟩
              rcases first h1 h3 with rfl | ⟨_, c', hc, h0, _⟩
              · cases h4 with
                | read h => exact absurd h hnr
                | negative h hn => rfl
                | float h hf hn => exact absurd (same h hr) (hf _)
                | large h hn => cases same hr h; omega
              · cases same hr hc; omega
          · rw [if_neg hneg]
            by_cases hbig : c < 128
            · rw [if_pos hbig, ok_bind]
              have hrec : (readStringData d k i n (j + 1) >>= fun rest => Except.ok (Char.ofNat c.toNat :: rest)) = .error e ↔
                  readStringData d k i n (j + 1) = .error e := by
                cases readStringData d k i n (j + 1) with
                | error e' => exact ⟨fun h => by cases h; rfl, fun h => by cases h; rfl⟩
                | ok t => exact ⟨fun h => (by cases h), fun h => (by cases h)⟩
              rw [hrec, readString_error]
              constructor
              · rintro ⟨m, h1, h2, h3, h4⟩
                refine ⟨m, by omega, by omega, fun j' a b => ?_, h4⟩
                rcases Nat.eq_or_lt_of_le a with rfl | a
                · exact ⟨c, hr, by omega, hbig⟩
                · exact h3 j' a b
              · rintro ⟨m, h1, h2, h3, h4⟩
                rcases first h1 h3 with rfl | ⟨hm, _⟩
                · cases h4 with
                  | read h => exact absurd h hnr
                  | negative h hn => cases same hr h; omega
                  | float h hf hn => exact absurd (same h hr) (hf _)
                  | large h hn => cases same hr h; omega
                · exact ⟨m, hm, by omega, fun j' a b => h3 j' (by omega) b, h4⟩
            · rw [if_neg hbig]
              constructor
              · intro h
                cases h
                exact ⟨j, Nat.le_refl _, by omega, fun j' a b => by omega, .large hr (by omega)⟩
              · rintro ⟨m, h1, h2, h3, h4⟩
                rcases first h1 h3 with rfl | ⟨_, c', hc, h0, _⟩
                · cases h4 with
                  | read h => exact absurd h hnr
                  | negative h hn => cases same hr h; omega
                  | float h hf hn => exact absurd (same h hr) (hf _)
                  | large h hn => rfl
                · cases same hr hc; omega
        | f32 b =>
          constructor
          · intro h
            cases h
            exact ⟨j, Nat.le_refl _, by omega, fun j' a b => by omega, .float hr (fun n h => by cases h) hz'⟩
          · rintro ⟨m, h1, h2, h3, h4⟩
            rcases first h1 h3 with rfl | ⟨_, c', hc, h0, _⟩
            · cases h4 with
              | read h => exact absurd h hnr
              | negative h hn => cases same hr h
              | float h hf hn => rfl
              | large h hn => cases same hr h
            · cases same hr hc
        | f64 b =>
          constructor
          · intro h
            cases h
            exact ⟨j, Nat.le_refl _, by omega, fun j' a b => by omega, .float hr (fun n h => by cases h) hz'⟩
          · rintro ⟨m, h1, h2, h3, h4⟩
            rcases first h1 h3 with rfl | ⟨_, c', hc, h0, _⟩
            · cases h4 with
              | read h => exact absurd h hnr
              | negative h hn => cases same hr h
              | float h hf hn => rfl
              | large h hn => cases same hr h
            · cases same hr hc

/-- integers from here on are rounded to infinity -/
theorem round64_inf (p : Nat) : Fmt.b64.round p 1 = Fmt.b64.inf ↔ 2 ^ 1024 - 2 ^ 970 ≤ p := by
  have hn := round_nearest Fmt.b64 (by decide) (p := p) (q := 1) (by omega)
  generalize Fmt.b64.round p 1 = x at hn ⊢
  obtain ⟨h1, h2⟩ := hn
  rw [show Fmt.b64.F = 52 from rfl, show Fmt.b64.E = 1074 from rfl] at h2
  simp only [Nat.mul_one] at h2
  have hodd : (Fmt.b64.inf - 1) % 2 = 1 ∧ Fmt.b64.inf ≠ 0 := by decide
  have hmid : floatMag 52 (Fmt.b64.inf - 1) + floatMag 52 Fmt.b64.inf = 2 * ((2 ^ 1024 - 2 ^ 970) * 2 ^ 1074) := by decide +kernel
  have hlt : floatMag 52 (Fmt.b64.inf - 1) < floatMag 52 Fmt.b64.inf := by
    have := floatMag_lt_succ 52 (Fmt.b64.inf - 1)
    rwa [Nat.sub_add_cancel (by omega)] at this
  have hmono : ∀ y, y < Fmt.b64.inf → floatMag 52 y ≤ floatMag 52 (Fmt.b64.inf - 1) := fun y hy => floatMag_mono 52 (by omega)
  have hmono' : ∀ y, y < Fmt.b64.inf - 1 → floatMag 52 y < floatMag 52 (Fmt.b64.inf - 1) := fun y hy =>
    Nat.lt_of_lt_of_le (floatMag_lt_succ 52 y) (floatMag_mono 52 (by omega))
  generalize Fmt.b64.inf = top at *
  have hcmp : 2 ^ 1024 - 2 ^ 970 ≤ p ↔ (2 ^ 1024 - 2 ^ 970) * 2 ^ 1074 ≤ p * 2 ^ 1074 :=
    (Nat.mul_le_mul_right_iff (Nat.pow_pos (by omega))).symm
  rw [hcmp]
  generalize (2 ^ 1024 - 2 ^ 970) * 2 ^ 1074 = m at *
  generalize p * 2 ^ 1074 = v at *
  generalize hA : floatMag 52 (top - 1) = A at *
  generalize hB : floatMag 52 top = B at *
  clear hcmp
  constructor
  · intro hx
    have := h2 (top - 1) (by omega) (by omega)
    rw [hx, hA, hB] at this
    unfold gap at this
    omega
  · intro hv
    apply Classical.byContradiction
    intro hx
    have h3 := h2 top (Nat.le_refl _) (fun h => hx h.symm)
    rw [hB] at h3
    have h4 := hmono x (by omega)
    by_cases hxx : x = top - 1
    · rw [hxx, hA] at h3
      unfold gap at h3
      omega
    · have h5 := hmono' x (by omega)
      unfold gap at h3
      omega

/-- a cell -/
theorem csvCell_error {fmt : NpVal → Str} {d : Dataset} {sizes : Dict Str Int} {i : Nat} {k : Str} {e : PyErr}
    (h1 : sizes.get? k = none ↔ ¬ IsTextName d.fields k)
    (h2 : ∀ j, readIn sizes k j ↔ ∃ n, HasPart d.fields k n ∧ (j : Int) ≤ n) :
    csvCell fmt d sizes i k = .error e ↔ CsvCellObstacle d i k e := by
  unfold csvCell
  cases hs : sizes.get? k with
  | none =>
    have hno := h1.mp hs
    dsimp only
    have hstep : (dictGet d.data k >>= fun col => pyIndex col i >>= fun v => Except.ok (fmt v)) = .error e ↔
        (dictGet d.data k >>= fun col => pyIndex col i) = .error e := by
      cases dictGet d.data k with
      | error e' => exact ⟨fun h => by cases h; rfl, fun h => by cases h; rfl⟩
      | ok col =>
        simp only [ok_bind]
        cases pyIndex col i with
        | error e' => exact ⟨fun h => by cases h; rfl, fun h => by cases h; rfl⟩
        | ok v => exact ⟨fun h => (by cases h), fun h => (by cases h)⟩
    refine Iff.trans hstep ?_
    rw [readAt_iff.2]
    constructor
    · exact .plain hno
    · intro h
      cases h with
      | plain _ h => exact h
      | text hp => exact absurd (by obtain ⟨f, hf, x, hx, _⟩ := hp; exact ⟨f, hf, x, hx⟩) hno
  | some n =>
    dsimp only
    have ht : IsTextName d.fields k := Classical.byContradiction fun hc => by
      rw [h1.mpr hc] at hs; cases hs
    rw [readString_error]
    constructor
    · rintro ⟨m, _, m2, m3, m4⟩
      obtain ⟨x, hx, hle⟩ := (h2 m).mp ⟨n, hs, by omega⟩
      exact .text hx hle (fun j' h => m3 j' (by omega) h) m4
    · intro h
      cases h with
      | plain hno => exact absurd ht hno
      | text hp hle hc ho =>
        obtain ⟨m, hm, hlt⟩ := (h2 _).mpr ⟨_, hp, hle⟩
        rw [hs] at hm
        cases hm
        exact ⟨_, by omega, by omega, fun j' _ h => hc j' h, ho⟩

end PyULog
