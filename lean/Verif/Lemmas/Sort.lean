import Verif.Model.Basic
/-
The stable insertion sort: permutation, sortedness, stability, uniqueness, filters.
-/
namespace PyULog

variable {α : Type} {le : α → α → Bool}

theorem ins_perm (le : α → α → Bool) (x : α) (l : List α) : (ins le x l).Perm (x :: l) := by
  induction l with
  | nil => exact List.Perm.refl _
  | cons y ys ih =>
    simp only [ins]
    split
    · exact List.Perm.refl _
    · exact (List.Perm.cons y ih).trans (List.Perm.swap x y ys)

theorem ssort_perm (le : α → α → Bool) (l : List α) : (ssort le l).Perm l := by
  induction l with
  | nil => exact List.Perm.refl _
  | cons x xs ih =>
    show (ins le x (ssort le xs)).Perm _
    exact (ins_perm le x _).trans (List.Perm.cons x ih)

@[simp] theorem mem_ssort (le : α → α → Bool) (l : List α) (x : α) : x ∈ ssort le l ↔ x ∈ l :=
  (ssort_perm le l).mem_iff

@[simp] theorem length_ssort (le : α → α → Bool) (l : List α) : (ssort le l).length = l.length :=
  (ssort_perm le l).length_eq

/-- `le` is a total preorder -/
structure TotalPre (le : α → α → Bool) : Prop where
  trans : ∀ a b c, le a b → le b c → le a c
  total : ∀ a b, le a b ∨ le b a

abbrev Sorted (le : α → α → Bool) (l : List α) : Prop := l.Pairwise (fun a b => le a b = true)

theorem ins_sorted (h : TotalPre le) (x : α) (l : List α) (hl : Sorted le l) :
    Sorted le (ins le x l) := by
  induction l with
  | nil => simp [ins, Sorted]
  | cons y ys ih =>
    rw [Sorted, List.pairwise_cons] at hl
    simp only [ins]
    split
    · rename_i hxy
      rw [Sorted, List.pairwise_cons, List.pairwise_cons]
      refine ⟨?_, hl⟩
      intro z hz
      rcases List.mem_cons.mp hz with rfl | hz
      · exact hxy
      · exact h.trans _ _ _ hxy (hl.1 z hz)
    · rename_i hxy
      have hyx : le y x := by
        rcases h.total x y with h1 | h1
        · exact absurd h1 hxy
        · exact h1
      rw [Sorted, List.pairwise_cons]
      refine ⟨?_, ih hl.2⟩
      intro z hz
      rcases List.mem_cons.mp ((ins_perm le x ys).mem_iff.mp hz) with rfl | hz
      · exact hyx
      · exact hl.1 z hz

theorem ssort_sorted (h : TotalPre le) (l : List α) : Sorted le (ssort le l) := by
  induction l with
  | nil => exact List.Pairwise.nil
  | cons x xs ih => exact ins_sorted h x _ ih

theorem ins_of_le_all (x : α) (l : List α) (h : ∀ y ∈ l, le x y) : ins le x l = x :: l := by
  cases l with
  | nil => rfl
  | cons y ys => simp [ins, h y (List.mem_cons_self ..)]

theorem ssort_of_sorted (l : List α) (h : Sorted le l) : ssort le l = l := by
  induction l with
  | nil => rfl
  | cons x xs ih =>
    rw [Sorted, List.pairwise_cons] at h
    show ins le x (ssort le xs) = _
    rw [ih h.2, ins_of_le_all x xs h.1]

theorem ssort_idem (h : TotalPre le) (l : List α) : ssort le (ssort le l) = ssort le l :=
  ssort_of_sorted _ (ssort_sorted h l)

/-- inserting an element that is filtered out does not change the filtered list -/
theorem filter_ins_neg (p : α → Bool) (x : α) (l : List α) (hx : p x = false) :
    (ins le x l).filter p = l.filter p := by
  induction l with
  | nil => simp [ins, hx]
  | cons y ys ih =>
    simp only [ins]
    split
    · simp [List.filter_cons, hx]
    · simp only [List.filter_cons, ih]

theorem filter_ins_pos (h : TotalPre le) (p : α → Bool) (x : α) (l : List α) (hx : p x = true)
    (hl : Sorted le l) :
    (ins le x l).filter p = ins le x (l.filter p) := by
  induction l with
  | nil => simp [ins, hx]
  | cons y ys ih =>
    rw [Sorted, List.pairwise_cons] at hl
    simp only [ins]
    split
    · rename_i hxy
      rw [List.filter_cons, if_pos hx]
      rw [ins_of_le_all]
      intro z hz
      have hz := (List.mem_filter.mp hz).1
      rcases List.mem_cons.mp hz with rfl | hz
      · exact hxy
      · exact h.trans _ _ _ hxy (hl.1 z hz)
    · rename_i hxy
      simp only [List.filter_cons, ih hl.2]
      by_cases hpy : p y
      · simp [hpy, ins, hxy]
      · simp [hpy]

/-- filtering commutes with stable sorting -/
theorem filter_ssort (h : TotalPre le) (p : α → Bool) (l : List α) :
    (ssort le l).filter p = ssort le (l.filter p) := by
  induction l with
  | nil => rfl
  | cons x xs ih =>
    show (ins le x (ssort le xs)).filter p = _
    by_cases hx : p x
    · rw [filter_ins_pos h p x _ hx (ssort_sorted h xs), ih, List.filter_cons, if_pos hx]
      rfl
    · rw [filter_ins_neg p x _ (by simpa using hx), ih, List.filter_cons, if_neg hx]

/-- elements equivalent to a given one keep their order (stability) -/
theorem ssort_stable (h : TotalPre le) (a : α) (l : List α) :
    (ssort le l).filter (fun x => le a x && le x a) = l.filter (fun x => le a x && le x a) := by
  rw [filter_ssort h]
  apply ssort_of_sorted
  rw [Sorted, List.pairwise_iff_forall_sublist]
  intro b c hbc
  have hb := (List.mem_filter.mp (hbc.subset (by simp : b ∈ [b, c]))).2
  have hc := (List.mem_filter.mp (hbc.subset (by simp : c ∈ [b, c]))).2
  simp only [Bool.and_eq_true] at hb hc
  exact h.trans _ _ _ hb.2 hc.1

theorem ins_map {β : Type} {le' : β → β → Bool} (f : α → β) (hf : ∀ a b, le' (f a) (f b) = le a b)
    (x : α) (l : List α) : (ins le x l).map f = ins le' (f x) (l.map f) := by
  induction l with
  | nil => rfl
  | cons y ys ih =>
    simp only [ins, List.map_cons, hf]
    split
    · rfl
    · simp [ih]

/-- sorting commutes with a key-preserving map -/
theorem ssort_map {β : Type} {le' : β → β → Bool} (f : α → β) (hf : ∀ a b, le' (f a) (f b) = le a b)
    (l : List α) : (ssort le l).map f = ssort le' (l.map f) := by
  induction l with
  | nil => rfl
  | cons x xs ih =>
    show (ins le x (ssort le xs)).map f = ins le' (f x) (ssort le' (xs.map f))
    rw [ins_map f hf, ih]

/-- a sorted permutation is unique when `le` is antisymmetric on the elements -/
theorem sorted_perm_unique {l m : List α} (hp : l.Perm m)
    (hanti : ∀ a ∈ l, ∀ b ∈ l, le a b → le b a → a = b)
    (hl : Sorted le l) (hm : Sorted le m) : l = m := by
  apply hp.eq_of_pairwise (le := fun a b => le a b = true) _ hl hm
  intro a b ha hb h1 h2
  exact hanti a ha b (hp.mem_iff.mpr hb) h1 h2

/-- the result of the stable sort does not depend on the initial order when no two distinct
elements are equivalent -/
theorem ssort_perm_eq (h : TotalPre le) {l m : List α} (hp : l.Perm m)
    (hanti : ∀ a ∈ l, ∀ b ∈ l, le a b → le b a → a = b) : ssort le l = ssort le m := by
  apply sorted_perm_unique (le := le)
  · exact (ssort_perm le l).trans (hp.trans (ssort_perm le m).symm)
  · intro a ha b hb
    exact hanti a ((mem_ssort le l a).mp ha) b ((mem_ssort le l b).mp hb)
  · exact ssort_sorted h l
  · exact ssort_sorted h m

theorem totalPre_key (key : α → Int) :
    TotalPre (fun a b : α => decide (key a ≤ key b)) where
  trans a b c := by simp; omega
  total a b := by simp; omega

theorem totalPre_keyNat (key : α → Nat) :
    TotalPre (fun a b : α => decide (key a ≤ key b)) where
  trans a b c := by simp; omega
  total a b := by simp; omega

theorem strLe_refl (a : Str) : strLe a a = true := by
  induction a with
  | nil => rfl
  | cons x xs ih => simp [strLe, ih]

theorem strLe_total (a b : Str) : strLe a b = true ∨ strLe b a = true := by
  induction a generalizing b with
  | nil => exact Or.inl rfl
  | cons x xs ih =>
    cases b with
    | nil => exact Or.inr rfl
    | cons y ys =>
      simp only [strLe]
      by_cases h : x = y
      · subst h; simpa using ih ys
      · have : x.toNat ≠ y.toNat := fun e => h (Char.toNat_inj.mp e)
        simp only [h, if_false, Ne.symm h, decide_eq_true_eq]
        omega

theorem strLe_trans (a b c : Str) (h1 : strLe a b = true) (h2 : strLe b c = true) :
    strLe a c = true := by
  induction a generalizing b c with
  | nil => rfl
  | cons x xs ih =>
    cases b with
    | nil => simp [strLe] at h1
    | cons y ys =>
      cases c with
      | nil => simp [strLe] at h2
      | cons z zs =>
        simp only [strLe] at *
        by_cases hxy : x = y
        · subst hxy
          by_cases hxz : x = z
          · subst hxz; simp only [if_true] at *; exact ih _ _ h1 h2
          · simpa [hxz] using h2
        · simp only [hxy, if_false, decide_eq_true_eq] at h1
          by_cases hyz : y = z
          · subst hyz; simp [hxy, h1]
          · simp only [hyz, if_false, decide_eq_true_eq] at h2
            have : x ≠ z := by intro e; subst e; omega
            simp [this]; omega

theorem strLe_antisymm (a b : Str) (h1 : strLe a b = true) (h2 : strLe b a = true) : a = b := by
  induction a generalizing b with
  | nil => cases b with
    | nil => rfl
    | cons => simp [strLe] at h2
  | cons x xs ih =>
    cases b with
    | nil => simp [strLe] at h1
    | cons y ys =>
      simp only [strLe] at *
      by_cases hxy : x = y
      · subst hxy; simp only [if_true] at *; rw [ih _ h1 h2]
      · simp only [hxy, Ne.symm hxy, if_false, decide_eq_true_eq] at *
        omega

end PyULog
