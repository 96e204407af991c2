import Verif.Spec.Db
import Verif.Lemmas.Decode
import Verif.Lemmas.Sort
/-
Helper lemmas on the database: statements, nested tables, the invariant of reachable databases.
-/
namespace PyULog
open Spec

/-! ### statements -/

/-- statements without faults -/
def runAll (ss : List Stmt) (r : Reg) : Except PyErr Reg := ss.foldlM (fun r s => s r) r

theorem runAll_nil (r : Reg) : runAll [] r = .ok r := rfl
theorem runAll_cons (s : Stmt) (ss : List Stmt) (r : Reg) : runAll (s :: ss) r = (s r >>= runAll ss) := rfl

theorem runAll_append (a b : List Stmt) (r : Reg) : runAll (a ++ b) r = (runAll a r >>= runAll b) := by
  unfold runAll
  rw [List.foldlM_append]

theorem runStmts_ok {fault : Nat → Option PyErr} : ∀ {ss : List Stmt} {i : Nat} {r r' : Reg},
    runStmts fault i ss r = .ok r' → runAll ss r = .ok r'
  | [], i, r, r', h => by
    rw [runStmts] at h
    split at h
    · cases h
    · exact h
  | s :: ss, i, r, r', h => by
    rw [runStmts] at h
    split at h
    · cases h
    · obtain ⟨r1, h1, h2⟩ := except_bind_ok.mp h
      rw [runAll_cons]
      exact except_bind_ok.mpr ⟨r1, h1, runStmts_ok h2⟩

theorem runStmts_none : ∀ (ss : List Stmt) (i : Nat) (r : Reg), runStmts (fun _ => none) i ss r = runAll ss r
  | [], i, r => rfl
  | s :: ss, i, r => by
    show (s r >>= runStmts (fun _ => none) (i + 1) ss) = (s r >>= runAll ss)
    congr 1
    funext x
    exact runStmts_none ss (i + 1) x

/-- a list of insertions: all values are bound, all rows added -/
theorem runAll_insert {α β : Type} {add : Reg → α → DB} {g : β → Except PyErr α} {r' : Reg} :
    ∀ {xs : List β} {r : Reg}, runAll (xs.map fun x => insert add (g x)) r = .ok r' ↔
      ∃ rows, xs.mapM g = .ok rows ∧ r' = rows.foldl (fun r x => { r with db := add r x }) r
  | [], r => by
    constructor
    · intro h; cases h; exact ⟨[], rfl, rfl⟩
    · rintro ⟨rows, h, rfl⟩; cases h; rfl
  | x :: xs, r => by
    rw [List.map_cons, runAll_cons, List.mapM_cons]
    constructor
    · intro h
      obtain ⟨r1, h1, h2⟩ := except_bind_ok.mp h
      obtain ⟨row, h3, h4⟩ := except_bind_ok.mp h1
      cases h4
      obtain ⟨rows, h5, h6⟩ := runAll_insert.mp h2
      exact ⟨row :: rows, except_bind_ok.mpr ⟨row, h3, except_bind_ok.mpr ⟨rows, h5, rfl⟩⟩, h6⟩
    · rintro ⟨rows, h, hr⟩
      obtain ⟨row, h3, h4⟩ := except_bind_ok.mp h
      obtain ⟨rows', h5, h6⟩ := except_bind_ok.mp h4
      cases h6
      exact except_bind_ok.mpr ⟨_, except_bind_ok.mpr ⟨row, h3, rfl⟩, runAll_insert.mpr ⟨rows', h5, hr⟩⟩

/-! ### rows by owner -/

theorem owned_append {α : Type} (k : Nat) (a b : List (Nat × α)) : owned k (a ++ b) = owned k a ++ owned k b := by
  simp [owned]

theorem owned_same {α : Type} (k : Nat) (l : List α) : owned k (l.map fun x => (k, x)) = l := by
  induction l with
  | nil => rfl
  | cons x xs ih =>
    unfold owned at *
    simp only [List.map_cons, List.filterMap_cons, if_true, ih]

theorem owned_other {α : Type} {k j : Nat} (h : j ≠ k) (l : List α) : owned k (l.map fun x => (j, x)) = [] := by
  induction l with
  | nil => rfl
  | cons x xs ih =>
    unfold owned at *
    simp only [List.map_cons, List.filterMap_cons, if_neg h, ih]

theorem owned_add {α : Type} (k j : Nat) (t : List (Nat × α)) (l : List α) :
    owned k (t ++ l.map fun x => (j, x)) = owned k t ++ if k = j then l else [] := by
  rw [owned_append]
  split
  · rename_i h; subst h; rw [owned_same]
  · rename_i h; rw [owned_other (fun e => h e.symm)]

theorem owned_keep {α : Type} {gone : Nat → Bool} {k : Nat} (h : gone k = false) (t : List (Nat × α)) :
    owned k (keep gone t) = owned k t := by
  induction t with
  | nil => rfl
  | cons p t ih =>
    unfold owned keep at *
    rw [List.filter_cons]
    by_cases e : p.1 = k
    · rw [e, h]
      simp only [Bool.not_false, if_true, List.filterMap_cons, e, ih]
    · split
      · simp only [List.filterMap_cons, if_neg e, ih]
      · simp only [List.filterMap_cons, if_neg e, ih]

theorem owned_gone {α : Type} {gone : Nat → Bool} {k : Nat} (h : gone k = true) (t : List (Nat × α)) :
    owned k (keep gone t) = [] := by
  unfold owned keep
  rw [List.filterMap_eq_nil_iff]
  intro p hp
  rw [List.mem_filter] at hp
  by_cases e : p.1 = k
  · rw [e, h] at hp; exact absurd hp.2 (by simp)
  · rw [if_neg e]

theorem owned_none {α : Type} {k : Nat} {t : List (Nat × α)} (h : k ∉ t.map (·.1)) : owned k t = [] := by
  unfold owned
  rw [List.filterMap_eq_nil_iff]
  intro p hp
  rw [if_neg]
  intro e
  exact h (List.mem_map.mpr ⟨p, hp, e⟩)

theorem mem_owned {α : Type} {k : Nat} {t : List (Nat × α)} {x : α} : x ∈ owned k t ↔ (k, x) ∈ t := by
  unfold owned
  rw [List.mem_filterMap]
  constructor
  · rintro ⟨p, hp, h⟩
    split at h
    · rename_i e
      cases h
      rw [← e]
      exact hp
    · cases h
  · intro h
    exact ⟨_, h, by simp⟩

/-! ### nested tables -/

/-- ids are distinct and not larger than the counter -/
structure Ids (ps : List (Nat × α)) (seq : Nat) : Prop where
  nodup : (ps.map (·.1)).Nodup
  le : ∀ p ∈ ps, p.1 ≤ seq

theorem Ids.add {α : Type} {ps : List (Nat × α)} {seq : Nat} (h : Ids ps seq) (x : α) :
    Ids (ps ++ [(seq + 1, x)]) (seq + 1) := by
  constructor
  · rw [List.map_append, List.nodup_append]
    refine ⟨h.nodup, by simp, ?_⟩
    intro a ha b hb
    obtain ⟨p, hp, rfl⟩ := List.mem_map.mp ha
    have := h.le p hp
    simp at hb
    omega
  · intro p hp
    rcases List.mem_append.mp hp with hp | hp
    · have := h.le p hp; omega
    · simp at hp; rw [hp]; exact Nat.le_refl _

theorem Ids.filter {α : Type} {ps : List (Nat × α)} {seq : Nat} (h : Ids ps seq) (q : Nat × α → Bool) :
    Ids (ps.filter q) seq :=
  ⟨h.nodup.sublist (List.Sublist.map _ List.filter_sublist), fun p hp => h.le p (List.mem_filter.mp hp).1⟩

theorem Ids.not_mem {α : Type} {ps : List (Nat × α)} {seq : Nat} (h : Ids ps seq) : seq + 1 ∉ ps.map (·.1) := by
  intro hm
  obtain ⟨p, hp, e⟩ := List.mem_map.mp hm
  have := h.le p hp
  omega

/-- two rows with the same id are the same row -/
theorem Ids.inj {α : Type} {ps : List (Nat × α)} {seq : Nat} (h : Ids ps seq) {p q : Nat × α} (hp : p ∈ ps)
    (hq : q ∈ ps) (e : p.1 = q.1) : p = q := by
  have hn := h.nodup
  clear h
  induction ps with
  | nil => cases hp
  | cons a ps ih =>
    rw [List.map_cons, List.nodup_cons] at hn
    rcases List.mem_cons.mp hp with rfl | hp' <;> rcases List.mem_cons.mp hq with rfl | hq'
    · rfl
    · exact absurd (List.mem_map.mpr ⟨q, hq', e.symm⟩) hn.1
    · exact absurd (List.mem_map.mpr ⟨p, hp', e⟩) hn.1
    · exact ih hp' hq' hn.2

theorem nest_congr {α γ : Type} {ps : List (Nat × Nat × α)} {f g : Nat → γ} {k : Nat}
    (h : ∀ p ∈ ps, p.2.1 = k → f p.1 = g p.1) : Spec.nest ps f k = Spec.nest ps g k := by
  unfold Spec.nest
  apply List.map_congr_left
  intro p hp
  rw [List.mem_filter, decide_eq_true_eq] at hp
  rw [h p hp.1 hp.2]

/-- a new row at the end -/
theorem nest_add {α γ : Type} (ps : List (Nat × Nat × α)) (f : Nat → γ) (i o : Nat) (a : α) (k : Nat) :
    Spec.nest (ps ++ [(i, o, a)]) f k = Spec.nest ps f k ++ if k = o then [(a, f i)] else [] := by
  unfold Spec.nest
  rw [List.filter_append, List.map_append]
  congr 1
  by_cases h : k = o
  · subst h; simp
  · rw [List.filter_cons, if_neg (by simpa using fun e => h e.symm), if_neg h]; rfl

/-- rows of one owner removed -/
theorem nest_delete {α γ : Type} (ps : List (Nat × Nat × α)) (f : Nat → γ) (gone : Nat → Bool) (k : Nat) :
    Spec.nest (ps.filter fun p => !gone p.2.1) f k = if gone k then [] else Spec.nest ps f k := by
  unfold Spec.nest
  rw [List.filter_filter]
  split
  · rename_i h
    rw [List.filter_eq_nil_iff.mpr]
    · rfl
    · intro p hp hc
      simp only [Bool.and_eq_true, decide_eq_true_eq, Bool.not_eq_true'] at hc
      rw [hc.1, h] at hc
      cases hc.2
  · rename_i h
    congr 1
    apply List.filter_congr
    intro p hp
    by_cases e : p.2.1 = k
    · rw [e]; simp [h]
    · simp [e]

end PyULog
