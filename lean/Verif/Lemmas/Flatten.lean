import Verif.Spec.Flatten
import Verif.Lemmas.Decode
/-
`_parse_nested_type` computes the expansion relation.
-/
namespace PyULog
open Spec

theorem natDecF_eq (f n : Nat) (h : n ≤ f) : natDecF f n = Nat.toDigits 10 n := by
  induction f using Nat.strongRecOn generalizing n with
  | ind f ih =>
    cases f with
    | zero =>
      have : n = 0 := by omega
      subst this; rfl
    | succ f =>
      unfold natDecF
      by_cases hn : n < 10
      · rw [if_pos hn, Nat.toDigits_of_lt_base hn]
        unfold digitC
        have : ∀ k, k < 10 → [Char.ofNat (48 + k)] = [Nat.digitChar k] := by decide
        exact this n hn
      · rw [if_neg hn, ih f (by omega) (n / 10) (by omega)]
        rw [Nat.toDigits_of_base_le (n := n) (by omega) (by omega)]
        have : ∀ k, k < 10 → [digitC k] = [Nat.digitChar k] := by decide
        rw [this _ (Nat.mod_lt _ (by omega))]

theorem natDec_eq (n : Nat) : natDec n = dec n := natDecF_eq n n (Nat.le_refl _)

theorem basicType_eq (s : Str) : basicType s = BT.ofName s := by
  unfold basicType BT.ofName
  have : BT.all.map (fun t => (t.name, t)) = typeTable := rfl
  rw [← this, List.find?_map, Option.map_map]
  simp only [Function.comp_def, Option.map_id']

/-- one field of `_parse_nested_type` -/
def nestStep (F : Dict Str MsgFormat) (d : Nat) (pre : Str) (acc : NestAcc) (f : FieldDef) :
    Except PyErr NestAcc :=
  match BT.ofName f.type with
  | some t => .ok (addBasic pre t f.arr f.name acc)
  | none =>
    if f.arr > 0 then
      (List.range f.arr.toNat).foldlM (init := acc) fun acc i =>
        nest F d (pre ++ f.name ++ py! "[" ++ natDec i ++ py! "].") f.type acc
    else nest F d (pre ++ f.name ++ py! ".") f.type acc

theorem nest_succ (F : Dict Str MsgFormat) (d : Nat) (pre ty : Str) (acc : NestAcc) :
    nest F (d + 1) pre ty acc = match F.get? ty with
      | none => .error .keyError
      | some fmt => fmt.fields.foldlM (nestStep F d pre) acc := rfl

theorem foldlM_map' {m : Type → Type} [Monad m] {α β γ : Type} (f : α → β) (g : γ → β → m γ)
    (l : List α) (a : γ) : (l.map f).foldlM g a = l.foldlM (fun x y => g x (f y)) a := by
  induction l generalizing a with
  | nil => rfl
  | cons x xs ih => simp only [List.map_cons, List.foldlM_cons, ih]

/-- the nested case, over the name suffixes -/
theorem nestStep_nested {F : Dict Str MsgFormat} {d : Nat} {pre : Str} {acc : NestAcc}
    {f : FieldDef} (h : basicType f.type = none) :
    nestStep F d pre acc f = (suffixes f.arr).foldlM (init := acc) fun acc s =>
      nest F d (pre ++ f.name ++ s ++ py! ".") f.type acc := by
  rw [basicType_eq] at h
  unfold nestStep suffixes
  rw [h]
  simp only
  by_cases ha : f.arr > 0
  · rw [if_pos ha, if_pos ha, foldlM_map']
    congr 1
    funext acc i
    simp only [natDec_eq, List.append_assoc]
    rfl
  · rw [if_neg ha, if_neg ha]
    simp only [List.foldlM_cons, List.foldlM_nil, List.append_nil, bind_pure]

theorem nestStep_basic {F : Dict Str MsgFormat} {d : Nat} {pre : Str} {acc : NestAcc}
    {f : FieldDef} {t : BT} (h : basicType f.type = some t) :
    nestStep F d pre acc f
      = .ok (acc.1 ++ (suffixes f.arr).map (fun s => ⟨pre ++ f.name ++ s, t⟩),
          if pre ++ f.name = py! "timestamp" then
            ((acc.1.length + (suffixes f.arr).length : Nat) : Int) - 1 else acc.2) := by
  rw [basicType_eq] at h
  unfold nestStep suffixes addBasic
  rw [h]
  simp only
  by_cases ha : f.arr > 0
  · rw [if_pos ha, if_pos ha]
    simp only [List.map_map, Function.comp_def, natDec_eq, List.append_assoc, List.length_append,
      List.length_map]
  · rw [if_neg ha, if_neg ha]
    simp only [List.map_cons, List.map_nil, List.append_nil, List.length_append, List.length_cons,
      List.length_nil]

theorem flatMap_congr' {α β : Type} {f g : α → List β} {l : List α} (h : ∀ a ∈ l, f a = g a) :
    l.flatMap f = l.flatMap g := by
  induction l with
  | nil => rfl
  | cons x xs ih =>
    rw [List.flatMap_cons, List.flatMap_cons, h x (List.mem_cons_self ..),
      ih fun a ha => h a (List.mem_cons_of_mem _ ha)]

theorem Spec.Expands.det {F : Dict Str MsgFormat} {pre : Str} {fs : List FieldDef}
    {r r' : List FieldData} (h : Expands F pre fs r) (h' : Expands F pre fs r') : r = r' := by
  induction h generalizing r' with
  | nil => cases h'; rfl
  | basic hb _ ih =>
    cases h' with
    | basic hb' h2 => rw [hb] at hb'; cases hb'; rw [ih h2]
    | nested hb' => rw [hb] at hb'; cases hb'
  | nested hb hf _ _ ihg ih =>
    cases h' with
    | basic hb' => rw [hb] at hb'; cases hb'
    | nested hb' hf' hg' h2 =>
      rw [hf] at hf'; cases hf'
      rw [ih h2]
      congr 1
      refine flatMap_congr' ?_
      intro s hs
      exact ihg s hs (hg' s hs)

theorem loop_sound {α : Type} {R : α → List FieldData → Prop}
    (hdet : ∀ i r r', R i r → R i r' → r = r')
    {step : NestAcc → α → Except PyErr NestAcc}
    (hstep : ∀ acc i acc', step acc i = .ok acc' → ∃ r, R i r ∧ acc'.1 = acc.1 ++ r)
    {l : List α} {acc acc' : NestAcc} (h : l.foldlM step acc = .ok acc') :
    ∃ g, (∀ i ∈ l, R i (g i)) ∧ acc'.1 = acc.1 ++ l.flatMap g := by
  induction l generalizing acc with
  | nil =>
    simp only [List.foldlM_nil] at h
    cases h
    exact ⟨fun _ => [], by simp, by simp⟩
  | cons i l ih =>
    rw [List.foldlM_cons] at h
    obtain ⟨a1, h1, h2⟩ := except_bind_ok.mp h
    obtain ⟨r, hr, he⟩ := hstep _ _ _ h1
    obtain ⟨g, hg, hge⟩ := ih h2
    have hg' : ∀ j ∈ i :: l, R j ((fun j => by classical exact if j = i then r else g j) j) := by
      intro j hj
      by_cases hji : j = i
      · subst hji; simpa using hr
      · simp only [hji, if_false]
        rcases List.mem_cons.mp hj with h | h
        · exact absurd h hji
        · exact hg j h
    refine ⟨_, hg', ?_⟩
    rw [hge, he, List.append_assoc, List.flatMap_cons]
    congr 1
    congr 1
    · simp
    · refine flatMap_congr' ?_
      intro j hj
      exact hdet j _ _ (hg j hj) (hg' j (List.mem_cons_of_mem _ hj))

theorem nest_sound {F : Dict Str MsgFormat} {d : Nat} {pre ty : Str} {acc acc' : NestAcc}
    (h : nest F d pre ty acc = .ok acc') :
    ∃ fmt r, F.get? ty = some fmt ∧ Expands F pre fmt.fields r ∧ acc'.1 = acc.1 ++ r := by
  induction d generalizing pre ty acc acc' with
  | zero => cases h
  | succ d ih =>
    rw [nest_succ] at h
    cases hf : F.get? ty with
    | none => rw [hf] at h; cases h
    | some fmt =>
      rw [hf] at h
      simp only at h
      refine ⟨fmt, ?_⟩
      suffices hs : ∀ fs acc, fs.foldlM (nestStep F d pre) acc = .ok acc' →
          ∃ r, Expands F pre fs r ∧ acc'.1 = acc.1 ++ r by
        obtain ⟨r, h1, h2⟩ := hs _ _ h
        exact ⟨r, rfl, h1, h2⟩
      intro fs
      induction fs with
      | nil =>
        intro acc h
        cases h
        exact ⟨[], .nil _, by simp⟩
      | cons f fs ihf =>
        intro acc h
        rw [List.foldlM_cons] at h
        obtain ⟨a1, h1, h2⟩ := except_bind_ok.mp h
        obtain ⟨r, hr, he⟩ := ihf _ h2
        cases hb : basicType f.type with
        | some t =>
          rw [nestStep_basic hb] at h1
          cases h1
          exact ⟨_, .basic hb hr, by rw [he, List.append_assoc]⟩
        | none =>
          rw [nestStep_nested hb] at h1
          have hloop := loop_sound
            (R := fun s r => ∃ fm, F.get? f.type = some fm ∧
              Expands F (pre ++ f.name ++ s ++ py! ".") fm.fields r)
            (by
              rintro i r r' ⟨fm, h1, h2⟩ ⟨fm', h1', h2'⟩
              rw [h1] at h1'; cases h1'
              exact h2.det h2')
            (by
              intro a i a' ha
              obtain ⟨fm, r, h1, h2, h3⟩ := ih ha
              exact ⟨r, ⟨fm, h1, h2⟩, h3⟩) h1
          obtain ⟨g, hg, hge⟩ := hloop
          have hne : ∃ s, s ∈ suffixes f.arr := by
            unfold suffixes
            split
            · rename_i ha
              exact ⟨_, List.mem_map.mpr ⟨0, by simp; omega, rfl⟩⟩
            · exact ⟨[], by simp⟩
          obtain ⟨s0, hs0⟩ := hne
          obtain ⟨fm, hfm, _⟩ := hg s0 hs0
          refine ⟨(suffixes f.arr).flatMap g ++ r, .nested hb hfm ?_ hr, ?_⟩
          · intro s hs
            obtain ⟨fm', hfm', h3⟩ := hg s hs
            rw [hfm] at hfm'; cases hfm'
            exact h3
          · rw [he, hge, List.append_assoc]

theorem loop_complete {α : Type} {step : Nat → NestAcc → α → Except PyErr NestAcc}
    {g : α → List FieldData} {l : List α}
    (h : ∀ i ∈ l, ∃ d0, ∀ d, d0 ≤ d → ∀ acc, ∃ idx, step d acc i = .ok (acc.1 ++ g i, idx)) :
    ∃ d0, ∀ d, d0 ≤ d → ∀ acc, ∃ idx, l.foldlM (step d) acc = .ok (acc.1 ++ l.flatMap g, idx) := by
  induction l with
  | nil => exact ⟨0, fun d _ acc => ⟨acc.2, by simp; rfl⟩⟩
  | cons i l ih =>
    obtain ⟨d1, h1⟩ := h i (List.mem_cons_self ..)
    obtain ⟨d2, h2⟩ := ih fun j hj => h j (List.mem_cons_of_mem _ hj)
    refine ⟨max d1 d2, fun d hd acc => ?_⟩
    obtain ⟨i1, e1⟩ := h1 d (by omega) acc
    obtain ⟨i2, e2⟩ := h2 d (by omega) (acc.1 ++ g i, i1)
    refine ⟨i2, ?_⟩
    rw [List.foldlM_cons, e1, ok_bind, e2, List.flatMap_cons, List.append_assoc]

theorem fields_complete {F : Dict Str MsgFormat} {pre : Str} {fs : List FieldDef}
    {r : List FieldData} (h : Expands F pre fs r) :
    ∃ d0, ∀ d, d0 ≤ d → ∀ acc, ∃ idx, fs.foldlM (nestStep F d pre) acc = .ok (acc.1 ++ r, idx) := by
  induction h with
  | nil pre => exact ⟨0, fun d _ acc => ⟨acc.2, by simp; rfl⟩⟩
  | basic hb _ ih =>
    obtain ⟨d0, h0⟩ := ih
    refine ⟨d0, fun d hd acc => ?_⟩
    rw [List.foldlM_cons, nestStep_basic hb, ok_bind]
    obtain ⟨i, hi⟩ := h0 d hd _
    exact ⟨i, by rw [hi, List.append_assoc]⟩
  | nested hb hf hg _ ihg ih =>
    rename_i pre f fs r fmt g _
    obtain ⟨d0, h0⟩ := ih
    obtain ⟨d1, h1⟩ := loop_complete (l := suffixes f.arr) (g := g)
      (step := fun d acc s => nest F d (pre ++ f.name ++ s ++ py! ".") f.type acc) (by
        intro s hs
        obtain ⟨d2, h2⟩ := ihg s hs
        refine ⟨d2 + 1, fun d hd acc => ?_⟩
        obtain ⟨d, rfl⟩ : ∃ d', d = d' + 1 := ⟨d - 1, by omega⟩
        obtain ⟨i, hi⟩ := h2 d (by omega) acc
        refine ⟨i, ?_⟩
        rw [nest_succ, hf]
        exact hi)
    refine ⟨max d0 d1, fun d hd acc => ?_⟩
    obtain ⟨i1, e1⟩ := h1 d (by omega) acc
    obtain ⟨i2, e2⟩ := h0 d (by omega) (acc.1 ++ (suffixes f.arr).flatMap g, i1)
    refine ⟨i2, ?_⟩
    rw [List.foldlM_cons, nestStep_nested hb, e1, ok_bind, e2, List.append_assoc]

/-- a format that can be expanded has no chain of nested types that is longer than the depth -/
theorem nest_uses {F : Dict Str MsgFormat} {d : Nat} {pre a b : Str} {acc acc' : NestAcc}
    (h : nest F (d + 1) pre a acc = .ok acc') (hu : Uses F a b) :
    ∃ pre' acc1 acc2, nest F d pre' b acc1 = .ok acc2 := by
  obtain ⟨fmt, hf, f, hm, hb, rfl⟩ := hu
  rw [nest_succ, hf] at h
  simp only at h
  generalize fmt.fields = fs at h hm
  induction fs generalizing acc with
  | nil => cases hm
  | cons f' fs ih =>
    rw [List.foldlM_cons] at h
    obtain ⟨a1, h1, h2⟩ := except_bind_ok.mp h
    rcases List.mem_cons.mp hm with rfl | hm
    · rw [nestStep_nested hb] at h1
      have hne : suffixes f.arr ≠ [] := by
        unfold suffixes
        split
        · rename_i ha
          simp only [ne_eq, List.map_eq_nil_iff, List.range_eq_nil]
          omega
        · simp
      cases hs : suffixes f.arr with
      | nil => exact absurd hs hne
      | cons s ss =>
        rw [hs, List.foldlM_cons] at h1
        obtain ⟨a2, h3, _⟩ := except_bind_ok.mp h1
        exact ⟨_, _, _, h3⟩
    · exact ih h2 hm

end PyULog
