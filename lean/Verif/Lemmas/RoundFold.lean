import Verif.Lemmas.RoundData
import Verif.Lemmas.Sort
/-
The events of a sorted data section: what is collected from them.
-/
namespace PyULog
open Spec

section sort
variable {α β : Type} {le : α → α → Bool} {le' : β → β → Bool}

theorem filterMap_ins (h : TotalPre le) {f : α → Option β}
    (hf : ∀ a b x y, f a = some x → f b = some y → le' x y = le a b)
    {x : α} {y : β} (hx : f x = some y) (l : List α) (hl : Sorted le l) :
    (ins le x l).filterMap f = ins le' y (l.filterMap f) := by
  induction l with
  | nil => simp [ins, hx]
  | cons a l ih =>
    rw [Sorted, List.pairwise_cons] at hl
    simp only [ins]
    split
    · rename_i hxa
      rw [List.filterMap_cons, hx]
      simp only
      rw [ins_of_le_all]
      intro z hz
      obtain ⟨b, hb, hbz⟩ := List.mem_filterMap.mp hz
      rw [hf x b y z hx hbz]
      rcases List.mem_cons.mp hb with rfl | hb
      · exact hxa
      · exact h.trans _ _ _ hxa (hl.1 b hb)
    · rename_i hxa
      rw [List.filterMap_cons, List.filterMap_cons, ih hl.2]
      cases hfa : f a with
      | none => rfl
      | some z =>
        simp only [ins]
        rw [if_neg]
        rw [hf x a y z hx hfa]
        exact hxa

theorem filterMap_ssort (h : TotalPre le) {f : α → Option β}
    (hf : ∀ a b x y, f a = some x → f b = some y → le' x y = le a b) (l : List α) :
    (ssort le l).filterMap f = ssort le' (l.filterMap f) := by
  induction l with
  | nil => rfl
  | cons x l ih =>
    show (ins le x (ssort le l)).filterMap f = _
    cases hx : f x with
    | some y =>
      rw [filterMap_ins h hf hx _ (ssort_sorted h l), ih, List.filterMap_cons, hx]
      rfl
    | none =>
      rw [List.filterMap_cons, hx]
      simp only
      rw [← ih]
      generalize ssort le l = m
      induction m with
      | nil => simp [ins, hx]
      | cons a m ih =>
        simp only [ins]
        split
        · rw [List.filterMap_cons, hx]
        · rw [List.filterMap_cons, List.filterMap_cons, ih]

theorem ssort_congr {le₂ : α → α → Bool} (l : List α)
    (h : ∀ a ∈ l, ∀ b ∈ l, le a b = le₂ a b) : ssort le l = ssort le₂ l := by
  induction l with
  | nil => rfl
  | cons x l ih =>
    show ins le x (ssort le l) = ins le₂ x (ssort le₂ l)
    rw [ih fun a ha b hb => h a (List.mem_cons_of_mem _ ha) b (List.mem_cons_of_mem _ hb)]
    have hm : ∀ y ∈ ssort le₂ l, le x y = le₂ x y := fun y hy =>
      h x (List.mem_cons_self ..) y (List.mem_cons_of_mem _ ((mem_ssort _ _ _).mp hy))
    generalize ssort le₂ l = m at hm
    induction m with
    | nil => rfl
    | cons a m ih2 =>
      simp only [ins]
      rw [hm a (List.mem_cons_self ..), ih2 fun y hy => hm y (List.mem_cons_of_mem _ hy)]

/-- a stable sort keeps a secondary order -/
theorem ssort_lex {key : α → Int} {R : α → α → Prop} (l : List α) (hl : l.Pairwise R) :
    (ssort (fun a b => decide (key a ≤ key b)) l).Pairwise
      (fun a b => key a < key b ∨ key a = key b ∧ R a b) := by
  have hins : ∀ (x : α) (m : List α), (∀ y ∈ m, R x y) →
      m.Pairwise (fun a b => key a < key b ∨ key a = key b ∧ R a b) →
      (ins (fun a b => decide (key a ≤ key b)) x m).Pairwise
        (fun a b => key a < key b ∨ key a = key b ∧ R a b) := by
    intro x m
    induction m with
    | nil => intro _ _; simp [ins]
    | cons a m ih =>
      intro hR hm
      rw [List.pairwise_cons] at hm
      simp only [ins]
      split
      · rename_i hxa
        have hxa : key x ≤ key a := by simpa using hxa
        rw [List.pairwise_cons, List.pairwise_cons]
        refine ⟨?_, hm⟩
        intro z hz
        have hRz := hR z hz
        have : key x ≤ key z := by
          rcases List.mem_cons.mp hz with rfl | hz
          · exact hxa
          · rcases hm.1 z hz with h | h <;> omega
        by_cases e : key x = key z
        · exact Or.inr ⟨e, hRz⟩
        · exact Or.inl (by omega)
      · rename_i hxa
        have hxa : ¬ key x ≤ key a := by simpa using hxa
        rw [List.pairwise_cons]
        refine ⟨?_, ih (fun y hy => hR y (List.mem_cons_of_mem _ hy)) hm.2⟩
        intro z hz
        rcases List.mem_cons.mp ((ins_perm _ x m).mem_iff.mp hz) with rfl | hz
        · exact Or.inl (by omega)
        · exact hm.1 z hz
  induction l with
  | nil => exact List.Pairwise.nil
  | cons x l ih =>
    rw [List.pairwise_cons] at hl
    exact hins x _ (fun y hy => hl.1 y ((mem_ssort _ _ _).mp hy)) (ih hl.2)

end sort

/-! ### parts of the collected data -/

/-- the sample of an event for a subscription: time and bytes -/
def Ev.rowOf (id : Nat) : Ev → Option (Nat × Bytes)
  | .row i b t => if i = id then some (t, b) else none
  | _ => none

def Ev.rowTime : Ev → Option Nat
  | .row _ _ t => some t
  | _ => none

def Ev.logOf : Ev → Option LogMsg
  | .log m => some m
  | _ => none

def Ev.tagOf : Ev → Option TagMsg
  | .tag m => some m
  | _ => none

def Ev.dropOf : Ev → Option Dropout
  | .drop m => some m
  | _ => none

def Ev.parOf : Ev → Option (Nat × Str × Value)
  | .par p => some p
  | _ => none

/-- put a tagged message into its list -/
def putTag (d : Dict Nat (List TagMsg)) (m : TagMsg) : Dict Nat (List TagMsg) :=
  d.set m.tag ((d.get? m.tag).getD [] ++ [m])

theorem fold_buf (l : List Ev) (c : Coll) (id : Nat) :
    (l.foldl Coll.step c).buf id = c.buf id ++ ((l.filterMap (Ev.rowOf id)).map (·.2)).flatten := by
  induction l generalizing c with
  | nil => simp
  | cons e l ih =>
    rw [List.foldl_cons, ih]
    cases e with
    | row i b t =>
      simp only [Coll.step, List.filterMap_cons, Ev.rowOf]
      by_cases h : i = id
      · subst h
        simp
      · have : ¬ id = i := fun e => h e.symm
        simp [h, this]
    | log m => rfl
    | tag m => rfl
    | drop m => rfl
    | par p => rfl

theorem fold_last (l : List Ev) (c : Coll) :
    (l.foldl Coll.step c).last = (l.filterMap Ev.rowTime).foldl max c.last := by
  induction l generalizing c with
  | nil => rfl
  | cons e l ih =>
    rw [List.foldl_cons, ih]
    cases e <;> rfl

theorem fold_logged (l : List Ev) (c : Coll) :
    (l.foldl Coll.step c).logged = c.logged ++ l.filterMap Ev.logOf := by
  induction l generalizing c with
  | nil => simp
  | cons e l ih =>
    rw [List.foldl_cons, ih]
    cases e <;> simp [Coll.step, Ev.logOf, List.filterMap_cons]

theorem fold_tagged (l : List Ev) (c : Coll) :
    (l.foldl Coll.step c).tagged = (l.filterMap Ev.tagOf).foldl putTag c.tagged := by
  induction l generalizing c with
  | nil => rfl
  | cons e l ih =>
    rw [List.foldl_cons, ih]
    cases e <;> rfl

/-- order of the events in the file -/
abbrev EvBefore (a b : Ev) : Prop := a.key < b.key ∨ a.key = b.key ∧ a.cls ≤ b.cls

/-- the latest sample not after `t` -/
def clockOf (start : Nat) (times : List Nat) (t : Nat) : Nat :=
  (times.filter (· ≤ t)).foldl max start

/-- samples up to an event that is not a sample -/
theorem times_upto {pre post : List Ev} {e : Ev} {t : Nat} (hs : (pre ++ e :: post).Pairwise EvBefore)
    (hc : e.cls = 1) (ht : e.key = (t : Int)) :
    pre.filterMap Ev.rowTime = ((pre ++ e :: post).filterMap Ev.rowTime).filter (· ≤ t) := by
  rw [List.pairwise_append, List.pairwise_cons] at hs
  obtain ⟨_, ⟨h2, _⟩, h3⟩ := hs
  have he : Ev.rowTime e = none := by cases e <;> first | rfl | simp [Ev.cls] at hc
  rw [List.filterMap_append, List.filterMap_cons, he, List.filter_append]
  have e1 : (pre.filterMap Ev.rowTime).filter (· ≤ t) = pre.filterMap Ev.rowTime := by
    apply List.filter_eq_self.mpr
    intro x hx
    obtain ⟨a, ha, hax⟩ := List.mem_filterMap.mp hx
    have := h3 a ha e (List.mem_cons_self ..)
    cases a <;> simp [Ev.rowTime] at hax
    subst hax
    simp only [EvBefore, ht] at this
    simp only [Ev.key] at this
    simp only [decide_eq_true_eq]
    rcases this with h | h <;> omega
  have e2 : (post.filterMap Ev.rowTime).filter (· ≤ t) = [] := by
    rw [List.filter_eq_nil_iff]
    intro x hx
    obtain ⟨a, ha, hax⟩ := List.mem_filterMap.mp hx
    have := h2 a ha
    cases a <;> simp [Ev.rowTime] at hax
    subst hax
    simp only [EvBefore, ht, hc] at this
    simp only [Ev.key, Ev.cls] at this
    simp only [decide_eq_true_eq]
    rcases this with h | h <;> omega
  rw [e1]
  simp only
  rw [e2, List.append_nil]

theorem fold_dropouts (l : List Ev) (c : Coll) (hs : l.Pairwise EvBefore) :
    (l.foldl Coll.step c).dropouts = c.dropouts ++ (l.filterMap Ev.dropOf).map fun m =>
      ⟨m.duration, clockOf c.last (l.filterMap Ev.rowTime) m.ts⟩ := by
  have key : ∀ (post pre : List Ev), l = pre ++ post →
      (post.foldl Coll.step (pre.foldl Coll.step c)).dropouts
        = (pre.foldl Coll.step c).dropouts ++ (post.filterMap Ev.dropOf).map fun m =>
      ⟨m.duration, clockOf c.last (l.filterMap Ev.rowTime) m.ts⟩ := by
    intro post
    induction post with
    | nil => intro pre _; simp
    | cons e post ih =>
      intro pre hl
      have := ih (pre ++ [e]) (by simp [hl])
      rw [List.foldl_append] at this
      simp only [List.foldl_cons, List.foldl_nil] at this ⊢
      rw [this]
      cases e with
      | row i b t => rfl
      | log m => rfl
      | tag m => rfl
      | par p => rfl
      | drop m =>
        have := times_upto (t := m.ts) (hl ▸ hs) rfl rfl
        simp only [Coll.step, List.filterMap_cons, Ev.dropOf, List.map_cons, List.append_assoc,
          List.cons_append, List.nil_append]
        rw [fold_last, this, ← hl]
        rfl
  exact key l [] rfl

theorem fold_changed (l : List Ev) (c : Coll) (hs : l.Pairwise EvBefore) :
    (l.foldl Coll.step c).changed = c.changed ++ (l.filterMap Ev.parOf).map fun p =>
      (clockOf c.last (l.filterMap Ev.rowTime) p.1, p.2.1, asParam p.2.2) := by
  have key : ∀ (post pre : List Ev), l = pre ++ post →
      (post.foldl Coll.step (pre.foldl Coll.step c)).changed
        = (pre.foldl Coll.step c).changed ++ (post.filterMap Ev.parOf).map fun p =>
      (clockOf c.last (l.filterMap Ev.rowTime) p.1, p.2.1, asParam p.2.2) := by
    intro post
    induction post with
    | nil => intro pre _; simp
    | cons e post ih =>
      intro pre hl
      have := ih (pre ++ [e]) (by simp [hl])
      rw [List.foldl_append] at this
      simp only [List.foldl_cons, List.foldl_nil] at this ⊢
      rw [this]
      cases e with
      | row i b t => rfl
      | log m => rfl
      | tag m => rfl
      | drop p => rfl
      | par m =>
        have := times_upto (t := m.1) (hl ▸ hs) rfl rfl
        simp only [Coll.step, List.filterMap_cons, Ev.parOf, List.map_cons, List.append_assoc,
          List.cons_append, List.nil_append]
        rw [fold_last, this, ← hl]
        rfl
  exact key l [] rfl

theorem foldl_max_perm {l m : List Nat} (h : l.Perm m) (a : Nat) : l.foldl max a = m.foldl max a := by
  induction h generalizing a with
  | nil => rfl
  | cons x _ ih => exact ih _
  | swap x y l =>
    simp only [List.foldl_cons]
    congr 1
    omega
  | trans _ _ i1 i2 => exact (i1 a).trans (i2 a)

theorem clockOf_perm {l m : List Nat} (h : l.Perm m) (s t : Nat) : clockOf s l t = clockOf s m t :=
  foldl_max_perm (h.filter _) s

/-- a time that occurs is its own clock -/
theorem clockOf_mem {s : Nat} {l : List Nat} {t : Nat} (h : t ∈ s :: l) (hs : s ≤ t) :
    clockOf s l t = t := by
  unfold clockOf
  have bound : ∀ (m : List Nat) (a : Nat), a ≤ t → (∀ x ∈ m, x ≤ t) → m.foldl max a ≤ t := by
    intro m
    induction m with
    | nil => intro a h _; exact h
    | cons x m ih =>
      intro a ha hm
      rw [List.foldl_cons]
      exact ih _ (by have := hm x (List.mem_cons_self ..); omega)
        (fun y hy => hm y (List.mem_cons_of_mem _ hy))
  have ge : ∀ (m : List Nat) (a : Nat), a ≤ m.foldl max a := by
    intro m
    induction m with
    | nil => intro a; exact Nat.le_refl _
    | cons x m ih =>
      intro a
      rw [List.foldl_cons]
      exact Nat.le_trans (Nat.le_max_left a x) (ih _)
  have geM : ∀ (m : List Nat) (a : Nat), t ∈ m → t ≤ m.foldl max a := by
    intro m
    induction m with
    | nil => intro a h; cases h
    | cons x m ih =>
      intro a h
      rw [List.foldl_cons]
      rcases List.mem_cons.mp h with rfl | h
      · exact Nat.le_trans (Nat.le_max_right _ _) (ge _ _)
      · exact ih _ h
  apply Nat.le_antisymm
  · apply bound _ _ hs
    intro x hx
    simpa using (List.mem_filter.mp hx).2
  · rcases List.mem_cons.mp h with rfl | h
    · exact ge _ _
    · apply geM
      rw [List.mem_filter]
      exact ⟨h, by simp⟩

end PyULog
