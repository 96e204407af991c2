import Verif.Spec.LostKeyTools
import Verif.Lemmas.LostKey
import Verif.Lemmas.Dicts
import Verif.Lemmas.Info
/-
Lemmas for C113: the sorted entries of two dictionaries that differ in one key.
-/
namespace PyULog
open Spec

/-- comparison of entries by their keys -/
def keyLe {α : Type} (a b : Str × α) : Bool := strLe a.1 b.1

theorem keyLe_pre {α : Type} : TotalPre (keyLe (α := α)) :=
  ⟨fun a b c => strLe_trans a.1 b.1 c.1, fun a b => strLe_total a.1 b.1⟩

theorem filter_key {α : Type} {d : Dict Str α} (hd : DictOk d) (k : Str) :
    d.filter (fun e => !decide (e.1 ≠ k)) = partOf d k fun x => [(k, x)] := by
  unfold partOf
  induction d with
  | nil => rfl
  | cons e d ih =>
    obtain ⟨y, w⟩ := e
    have hd' : y ∉ d.map (·.1) ∧ DictOk d := by
      unfold DictOk Dict.keys at hd
      rw [List.map_cons, List.nodup_cons] at hd
      exact hd
    by_cases h : y = k
    · subst h
      rw [List.filter_cons_of_pos (by simp)]
      have h0 : d.filter (fun e => !decide (e.1 ≠ y)) = [] := by
        rw [List.filter_eq_nil_iff]
        intro e he hk
        refine hd'.1 ?_
        have : e.1 = y := by simpa using hk
        rw [← this]
        exact List.mem_map_of_mem he
      rw [h0]
      simp [Dict.get?]
    · rw [List.filter_cons_of_neg (by simp [h]), ih hd'.2]
      simp [Dict.get?, h]

/-- the entries in the order of their keys: those before the key, the one with the key, those behind it -/
theorem sorted_split {α : Type} {d : Dict Str α} (hd : DictOk d) (k : Str) :
    ssort keyLe d = (ssort keyLe (others k d)).filter (fun e => strLe e.1 k) ++ (partOf d k fun x => [(k, x)]) ++
      (ssort keyLe (others k d)).filter (fun e => !strLe e.1 k) := by
  have hp : (ssort keyLe d).Perm ((ssort keyLe (others k d)).filter (fun e => strLe e.1 k) ++
      (partOf d k fun x => [(k, x)]) ++ (ssort keyLe (others k d)).filter (fun e => !strLe e.1 k)) := by
    refine (ssort_perm _ _).trans ?_
    have h1 : (others k d ++ partOf d k fun x => [(k, x)]).Perm d := by
      rw [← filter_key hd k]
      exact List.filter_append_perm _ d
    refine h1.symm.trans ?_
    have h2 := List.filter_append_perm (fun e : Str × α => strLe e.1 k) (ssort keyLe (others k d))
    refine ((h2.trans (ssort_perm _ _)).symm.append_right _).trans ?_
    rw [List.append_assoc, List.append_assoc]
    exact List.Perm.append_left _ List.perm_append_comm
  refine sorted_perm_unique (le := keyLe) hp ?_ (ssort_sorted keyLe_pre _) ?_
  · intro a ha b hb h1 h2
    have he : a.1 = b.1 := strLe_antisymm _ _ h1 h2
    have ha := (mem_ssort _ _ _).mp ha
    have hb := (mem_ssort _ _ _).mp hb
    have e1 := Dict.get?_of_mem d a.1 a.2 hd ha
    have e2 := Dict.get?_of_mem d b.1 b.2 hd hb
    rw [he, e2] at e1
    injection e1 with e1
    exact Prod.ext he e1.symm
  · have hs := ssort_sorted keyLe_pre (others k d)
    have hk : ∀ e ∈ (partOf d k fun x => [(k, x)]), e.1 = k := by
      intro e he
      unfold partOf at he
      split at he
      · rw [List.mem_singleton.mp he]
      · cases he
    have hlo : ∀ e ∈ (ssort keyLe (others k d)).filter (fun e => strLe e.1 k), strLe e.1 k = true :=
      fun e he => (List.mem_filter.mp he).2
    have hhi : ∀ e ∈ (ssort keyLe (others k d)).filter (fun e => !strLe e.1 k), strLe k e.1 = true := by
      intro e he
      have := (List.mem_filter.mp he).2
      rcases strLe_total e.1 k with h | h
      · rw [h] at this; cases this
      · exact h
    unfold Sorted
    rw [List.pairwise_append, List.pairwise_append]
    refine ⟨⟨hs.filter _, ?_, ?_⟩, hs.filter _, ?_⟩
    · unfold partOf
      split
      · exact List.pairwise_singleton _ _
      · exact .nil
    · intro a ha b hb
      show strLe a.1 b.1 = true
      rw [hk b hb]
      exact hlo a ha
    · intro a ha b hb
      rcases List.mem_append.mp ha with ha | ha
      · exact strLe_trans _ k _ (hlo a ha) (hhi b hb)
      · show strLe a.1 b.1 = true
        rw [hk a ha]
        exact hhi b hb

theorem partOf_flatMap {α β γ : Type} (d : Dict Str α) (k : Str) (f : α → List β) (g : β → List γ) :
    (partOf d k f).flatMap g = partOf d k fun x => (f x).flatMap g := by
  unfold partOf
  split <;> rfl

/-- what is shown of the sorted entries differs in the part of the key -/
theorem sorted_differ {α β : Type} {kind : Prop} {k : Str} {d d' : Dict Str α} (hd : DictOk d) (hd' : DictOk d')
    (h : SameBut kind k d d') (f : Str × α → List β) :
    DifferAt (partOf d k fun x => f (k, x)) (partOf d' k fun x => f (k, x))
      ((ssort keyLe d).flatMap f) ((ssort keyLe d').flatMap f) := by
  refine ⟨((ssort keyLe (others k d)).filter fun e => strLe e.1 k).flatMap f,
    ((ssort keyLe (others k d)).filter fun e => !strLe e.1 k).flatMap f, ?_, ?_⟩
  · rw [sorted_split hd k, List.flatMap_append, List.flatMap_append, partOf_flatMap]
    simp only [List.flatMap_singleton]
  · rw [sorted_split hd' k, h.1, List.flatMap_append, List.flatMap_append, partOf_flatMap]
    simp only [List.flatMap_singleton]

/-- the keys in order, each with its value -/
theorem sortedKeys_mapM {α β : Type} {d : Dict Str α} (hd : DictOk d) (f : Str → α → β) (p : Str → Bool) :
    (((sortedKeys d).filter p).mapM fun k => do
      let v ← dictGet d k
      (.ok (f k v) : Except PyErr β)) = .ok (((ssort keyLe d).filter fun e => p e.1).map fun e => f e.1 e.2) := by
  have e : (ssort (keyLe (α := α)) d).map (·.1) = sortedKeys d :=
    ssort_map (fun p : Str × α => p.1) (fun _ _ => rfl) d
  rw [← e, List.filter_map]
  refine mapM_map_ok (h := fun e : Str × α => e.1) ?_
  intro x hx
  have hm : x ∈ d := (mem_ssort _ _ _).mp (List.mem_filter.mp hx).1
  unfold dictGet
  rw [Dict.get?_of_mem d x.1 x.2 hd hm]
  rfl

end PyULog
