import Verif.Spec.DamageTools
import Verif.Props.CutTools
/-
Rows of a dataset as the tools read them: cell by cell.
-/
namespace PyULog
open Spec

/-- the cell as the tools read it -/
def look (d : Dataset) (k : Str) (i : Nat) : Except PyErr NpVal := dictGet d.data k >>= fun col => pyIndex col i

theorem look_bind {β : Type} (d : Dataset) (k : Str) (i : Nat) (f : NpVal → Except PyErr β) :
    (dictGet d.data k >>= fun col => pyIndex col i >>= f) = (look d k i >>= f) := by
  unfold look
  cases dictGet d.data k <;> rfl

theorem string_look {d d' : Dataset} {i i' : Nat} (h : ∀ k, look d' k i' = look d k i) (field : Str) (m index : Nat) :
    readStringData d' field i' m index = readStringData d field i m index := by
  induction m generalizing index with
  | zero => rfl
  | succ m ih =>
    unfold readStringData
    rw [ih]
    refine (look_bind d' _ i' _).trans (.trans ?_ (look_bind d _ i _).symm)
    rw [h]

theorem cell_look {d d' : Dataset} {i i' : Nat} (h : ∀ k, look d' k i' = look d k i) (fmt : NpVal → Str)
    (sizes : Dict Str Int) (k : Str) : csvCell fmt d' sizes i' k = csvCell fmt d sizes i k := by
  unfold csvCell
  cases sizes.get? k with
  | none =>
    refine (look_bind d' _ i' _).trans (.trans ?_ (look_bind d _ i _).symm)
    rw [h]
  | some m => exact string_look h k _ _

theorem line_look {d d' : Dataset} {i i' : Nat} (h : ∀ k, look d' k i' = look d k i) (fmt : NpVal → Str) (delim : Str)
    (keys : List Str) (sizes : Dict Str Int) : csvLine fmt delim d' keys sizes i' = csvLine fmt delim d keys sizes i := by
  unfold csvLine
  rw [mapM_congr_mem (g := csvCell fmt d sizes i)]
  exact fun k _ => cell_look h fmt sizes k

theorem row_look {d d' : Dataset} {i i' : Nat} (h : ∀ k, look d' k i' = look d k i) (keys : List Str) :
    extractRow d' keys i' = extractRow d keys i := by
  unfold extractRow
  rw [mapM_congr_mem]
  intro k _
  refine (look_bind d' _ i' _).trans (.trans ?_ (look_bind d _ i _).symm)
  rw [h]

theorem mapM_map_iff {α β : Type} {f : α → Except PyErr β} {l : List α} {r : List β} :
    l.mapM f = .ok r ↔ l.map f = r.map .ok := by
  induction l generalizing r with
  | nil =>
    rw [List.mapM_nil]
    constructor
    · intro h; cases h; rfl
    · intro h
      cases r with
      | nil => rfl
      | cons _ _ => simp at h
  | cons a l ih =>
    rw [List.mapM_cons]
    constructor
    · intro h
      obtain ⟨b, hb, h⟩ := except_bind_ok.mp h
      obtain ⟨bs, hbs, h⟩ := except_bind_ok.mp h
      cases h
      rw [List.map_cons, List.map_cons, hb, ih.mp hbs]
    · intro h
      cases r with
      | nil => simp at h
      | cons b bs =>
        rw [List.map_cons, List.map_cons] at h
        injection h with h1 h2
        rw [h1, ih.mpr h2]
        rfl

theorem mapM_elems_can {α β : Type} {f : α → Except PyErr β} {l : List α} (h : ∀ a ∈ l, ∃ b, f a = .ok b) :
    ∃ r, l.mapM f = .ok r := by
  induction l with
  | nil => exact ⟨[], rfl⟩
  | cons a l ih =>
    obtain ⟨b, hb⟩ := h a (List.mem_cons_self ..)
    obtain ⟨r, hr⟩ := ih fun x hx => h x (List.mem_cons_of_mem _ hx)
    exact ⟨b :: r, by rw [List.mapM_cons, hb, hr]; rfl⟩

theorem mapM_range_get {β : Type} {f : Nat → Except PyErr β} {n : Nat} {r : List β} (h : (pyRange 0 n).mapM f = .ok r) :
    r.length = n ∧ ∀ j, j < n → ∃ y, r[j]? = some y ∧ f j = .ok y := by
  have h := mapM_map_iff.mp h
  unfold pyRange at h
  rw [Nat.sub_zero, ← List.range_eq_range'] at h
  have hl : r.length = n := by
    have := congrArg List.length h
    simpa using this.symm
  refine ⟨hl, fun j hj => ?_⟩
  have := congrArg (·[j]?) h
  simp only [List.getElem?_map, List.getElem?_range hj, Option.map_some] at this
  cases hy : r[j]? with
  | none => rw [hy] at this; simp at this
  | some y =>
    rw [hy] at this
    injection this with this
    exact ⟨y, rfl, this⟩

/-- rows that are read the same way, but for one -/
theorem mapM_one_differs {β : Type} {f g : Nat → Except PyErr β} {n i : Nat} {r r' : List β}
    (hf : (pyRange 0 n).mapM f = .ok r) (hg : (pyRange 0 n).mapM g = .ok r') (h : ∀ j, j ≠ i → g j = f j) :
    r'.length = r.length ∧ ∀ j, j ≠ i → r'[j]? = r[j]? := by
  obtain ⟨l1, g1⟩ := mapM_range_get hf
  obtain ⟨l2, g2⟩ := mapM_range_get hg
  refine ⟨l2.trans l1.symm, fun j hj => ?_⟩
  by_cases hn : j < n
  · obtain ⟨y, hy, hfy⟩ := g1 j hn
    obtain ⟨y', hy', hgy⟩ := g2 j hn
    rw [h j hj, hfy] at hgy
    injection hgy with hgy
    rw [hy, hy', hgy]
  · rw [List.getElem?_eq_none (by omega), List.getElem?_eq_none (by omega)]

/-- rows that are read the same way, one of them left out -/
theorem mapM_one_less {β : Type} {f g : Nat → Except PyErr β} {n i : Nat} {r : List β} (hi : i < n)
    (hf : (pyRange 0 n).mapM f = .ok r) (h : ∀ j, g j = f (if j < i then j else j + 1)) :
    (pyRange 0 (n - 1)).mapM g = .ok (r.eraseIdx i) := by
  have hf' := mapM_map_iff.mp hf
  refine mapM_map_iff.mpr ?_
  unfold pyRange at hf' ⊢
  rw [Nat.sub_zero, ← List.range_eq_range'] at hf' ⊢
  have he : (r.eraseIdx i).map Except.ok = ((List.range n).map f).eraseIdx i := by
    rw [hf']
    apply List.ext_getElem?
    intro j
    rw [List.getElem?_map, List.getElem?_eraseIdx, List.getElem?_eraseIdx, List.getElem?_map, List.getElem?_map]
    split <;> rfl
  rw [he]
  apply List.ext_getElem?
  intro j
  rw [List.getElem?_eraseIdx, List.getElem?_map, List.getElem?_map, List.getElem?_map]
  by_cases hj : j < n - 1
  · rw [List.getElem?_range hj, Option.map_some, h]
    by_cases hji : j < i
    · rw [if_pos hji, if_pos hji, List.getElem?_range (by omega)]; rfl
    · rw [if_neg hji, if_neg hji, List.getElem?_range (by omega)]; rfl
  · rw [List.getElem?_eq_none (by simp; omega)]
    by_cases hji : j < i
    · omega
    · rw [if_neg hji, List.getElem?_eq_none (by simp; omega)]; rfl

/-! ### a damaged row -/

theorem get?_lens {l l' : Dict Str (List NpVal)} (h : l'.map (fun c => (c.1, c.2.length)) = l.map (fun c => (c.1, c.2.length)))
    (k : Str) : (Dict.get? l' k).map List.length = (Dict.get? l k).map List.length := by
  rw [← get?_map_snd (f := List.length), ← get?_map_snd (f := List.length), h]

theorem oneRow_look {d d' : Dataset} (h : OneRowDiffers d d') :
    ∃ i, ∀ j, j ≠ i → ∀ k, look d' k j = look d k j := by
  obtain ⟨i, hi⟩ := h.row
  refine ⟨i, fun j hj k => ?_⟩
  have hc := hi k j hj
  have hl := get?_lens h.columns k
  unfold cell at hc
  unfold look dictGet
  cases h1 : Dict.get? d'.data k with
  | none =>
    cases h2 : Dict.get? d.data k with
    | none => rfl
    | some c => rw [h1, h2] at hl; simp at hl
  | some c' =>
    cases h2 : Dict.get? d.data k with
    | none => rw [h1, h2] at hl; simp at hl
    | some c =>
      rw [h1, h2] at hc
      have hc : c'[j]? = c[j]? := hc
      show pyIndex c' j = pyIndex c j
      unfold pyIndex
      rw [hc]

theorem oneRow_column {d d' : Dataset} (h : OneRowDiffers d d') {k : Str} {col : List NpVal}
    (hc : dictGet d.data k = .ok col) : ∃ col', dictGet d'.data k = .ok col' ∧ col'.length = col.length := by
  have hl := get?_lens h.columns k
  rw [dictGet_ok] at hc
  rw [hc] at hl
  cases h1 : Dict.get? d'.data k with
  | none => rw [h1] at hl; simp at hl
  | some c' =>
    rw [h1] at hl
    injection hl with hl
    exact ⟨c', dictGet_ok.mpr h1, hl⟩

theorem oneRow_can {d d' : Dataset} (h : OneRowDiffers d d') {k : Str} {j : Nat} {x : NpVal} (hx : look d k j = .ok x) :
    ∃ y, look d' k j = .ok y := by
  unfold look at hx ⊢
  obtain ⟨col, hc, hx⟩ := except_bind_ok.mp hx
  obtain ⟨col', hc', hl⟩ := oneRow_column h hc
  rw [hc']
  show ∃ y, pyIndex col' j = .ok y
  unfold pyIndex at hx ⊢
  cases h1 : col[j]? with
  | none => rw [h1] at hx; cases hx
  | some z =>
    have := (List.getElem?_eq_some_iff.mp h1).1
    rw [List.getElem?_eq_getElem (by omega)]
    exact ⟨_, rfl⟩

/-! ### a lost row -/

theorem withoutRow_look (i : Nat) (d : Dataset) (k : Str) (j : Nat) :
    look (withoutRow i d) k j = look d k (if j < i then j else j + 1) := by
  unfold look dictGet withoutRow
  dsimp only
  rw [get?_map_snd (f := fun c : List NpVal => c.eraseIdx i)]
  cases d.data.get? k with
  | none => rfl
  | some col =>
    show pyIndex (col.eraseIdx i) j = pyIndex col _
    unfold pyIndex
    rw [List.getElem?_eraseIdx]
    by_cases hj : j < i
    · rw [if_pos hj, if_pos hj]
    · rw [if_neg hj, if_neg hj]

theorem withoutRow_column {i : Nat} {d : Dataset} {k : Str} {col : List NpVal} (h : dictGet d.data k = .ok col) :
    dictGet (withoutRow i d).data k = .ok (col.eraseIdx i) := by
  rw [dictGet_ok] at h ⊢
  unfold withoutRow
  dsimp only
  rw [get?_map_snd (f := fun c : List NpVal => c.eraseIdx i), h]
  rfl

theorem column_mem {d : Dataset} {k : Str} {col : List NpVal} (h : dictGet d.data k = .ok col) : (k, col) ∈ d.data := by
  rw [dictGet_ok] at h
  generalize d.data = l at h
  induction l with
  | nil => cases h
  | cons c l ih =>
    unfold Dict.get? at h
    split at h
    · rename_i hk
      injection h with h
      rw [← hk, ← h]
      exact List.mem_cons_self ..
    · exact List.mem_cons_of_mem _ (ih h)

/-! ### the file of a dataset -/

/-- the parts of a csv file -/
theorem csvFile_parts {fmt : NpVal → Str} {delim : Str} {d : Dataset} {text : Str}
    (h : csvFile fmt delim none none d = .ok text) :
    ∃ col keys sizes lines, dictGet d.data (py! "timestamp") = .ok col ∧ getFields d = .ok (keys, sizes) ∧
      (pyRange 0 col.length).mapM (csvLine fmt delim d keys sizes) = .ok lines ∧
      text = pyJoin delim keys ++ ['\n'] ++ lines.flatten ∧ ∀ l ∈ (pyJoin delim keys ++ ['\n']) :: lines, l.getLast? = some '\n' := by
  unfold csvFile at h
  obtain ⟨col, hcol, h⟩ := except_bind_ok.mp h
  obtain ⟨⟨keys, sizes⟩, hk, h⟩ := except_bind_ok.mp h
  obtain ⟨⟨s, e⟩, hw, h⟩ := except_bind_ok.mp h
  dsimp only at h
  obtain ⟨lines, hl, hx⟩ := except_bind_ok.mp h
  injection hx with hx
  have hse : s = 0 ∧ e = col.length := by
    injection hw with hw
    injection hw with a b
    exact ⟨a.symm, b.symm⟩
  obtain ⟨rfl, rfl⟩ := hse
  refine ⟨col, keys, sizes, lines, hcol, hk, hl, hx.symm, ?_⟩
  intro l hm
  rcases List.mem_cons.mp hm with rfl | hm
  · simp
  · obtain ⟨i, _, hi⟩ := mapM_mem hl hm
    unfold csvLine at hi
    obtain ⟨cells, _, hi⟩ := except_bind_ok.mp hi
    injection hi with hi
    rw [← hi]
    simp

theorem csvFile_of_parts {fmt : NpVal → Str} {delim : Str} {d : Dataset} {col : List NpVal} {keys : List Str}
    {sizes : Dict Str Int} {lines : List Str} (hc : dictGet d.data (py! "timestamp") = .ok col)
    (hk : getFields d = .ok (keys, sizes))
    (hl : (pyRange 0 col.length).mapM (csvLine fmt delim d keys sizes) = .ok lines) :
    csvFile fmt delim none none d = .ok (pyJoin delim keys ++ ['\n'] ++ lines.flatten) := by
  unfold csvFile
  rw [hc, hk]
  show ((pyRange 0 col.length).mapM (csvLine fmt delim d keys sizes) >>= fun lines =>
    Except.ok (pyJoin delim keys ++ ['\n'] ++ lines.flatten)) = _
  rw [hl]
  rfl

theorem oneRow_fields {d d' : Dataset} (h : OneRowDiffers d d') : d'.fields = d.fields :=
  (congrArg (fun x : Dataset => x.fields) h.head :)

theorem oneRow_getFields {d d' : Dataset} (h : OneRowDiffers d d') : getFields d' = getFields d := by
  unfold getFields
  rw [oneRow_fields h]

theorem csvFile_damaged {fmt : NpVal → Str} {delim : Str} {d d' : Dataset} (h : OneRowDiffers d d') {text text' : Str}
    (ht : csvFile fmt delim none none d = .ok text) (ht' : csvFile fmt delim none none d' = .ok text') :
    OneLineDiffers text text' := by
  obtain ⟨col, keys, sizes, lines, hc, hk, hl, hx, hn⟩ := csvFile_parts ht
  obtain ⟨col', keys', sizes', lines', hc', hk', hl', hx', hn'⟩ := csvFile_parts ht'
  obtain ⟨col'', hc'', hlen⟩ := oneRow_column h hc
  rw [hc''] at hc'
  injection hc' with hc'
  subst hc'
  rw [oneRow_getFields h, hk] at hk'
  injection hk' with hk'
  injection hk' with ha hb
  subst ha hb
  rw [hlen] at hl'
  obtain ⟨i, hi⟩ := oneRow_look h
  obtain ⟨e1, e2⟩ := mapM_one_differs hl hl' (fun j hj => line_look (hi j hj) fmt delim keys sizes)
  refine ⟨_, lines, lines', i, hx, hx', e1, e2, ?_⟩
  intro l hm
  rcases List.mem_append.mp hm with hm | hm
  · exact hn l hm
  · exact hn' l (List.mem_cons_of_mem _ hm)

theorem csvFields_plain (fs : List FieldData) (keys : List Str) (sizes : Dict Str Int)
    (h : ∀ f ∈ fs, f.type ≠ .char) {r : List Str × Dict Str Int} (hr : csvFields fs keys sizes = .ok r) :
    r.2 = sizes := by
  induction fs generalizing keys with
  | nil => cases hr; rfl
  | cons f fs ih =>
    have ih := fun keys hr => ih keys (fun x hx => h x (List.mem_cons_of_mem _ hx)) hr
    unfold csvFields at hr
    split at hr
    · exact ih _ hr
    · split at hr
      · rw [if_neg (h f (List.mem_cons_self ..))] at hr
        exact ih _ hr
      · exact ih _ hr

theorem csvFile_can {fmt : NpVal → Str} {delim : Str} {d d' : Dataset} (h : OneRowDiffers d d') {text : Str}
    (hp : ∀ f ∈ d.fields, f.type ≠ .char) (ht : csvFile fmt delim none none d = .ok text) :
    ∃ text', csvFile fmt delim none none d' = .ok text' := by
  obtain ⟨col, keys, sizes, lines, hc, hk, hl, -, -⟩ := csvFile_parts ht
  obtain ⟨col', hc', hlen⟩ := oneRow_column h hc
  have hs : sizes = [] := by
    unfold getFields at hk
    obtain ⟨⟨k, s⟩, h1, hk⟩ := except_bind_ok.mp hk
    obtain ⟨k', -, hk⟩ := except_bind_ok.mp hk
    cases hk
    exact csvFields_plain _ _ _ hp h1
  subst hs
  have : ∃ lines', (pyRange 0 col'.length).mapM (csvLine fmt delim d' keys []) = .ok lines' := by
    rw [hlen]
    apply mapM_elems_can
    intro j hj
    have hj : j < col.length := by
      unfold pyRange at hj
      rw [List.mem_range'_1] at hj
      omega
    obtain ⟨y, -, hy⟩ := (mapM_range_get hl).2 j hj
    unfold csvLine at hy ⊢
    obtain ⟨cells, hcs, -⟩ := except_bind_ok.mp hy
    obtain ⟨cells', hcs'⟩ : ∃ r, keys.mapM (csvCell fmt d' [] j) = .ok r := by
      apply mapM_elems_can
      intro k hkm
      obtain ⟨b, hb⟩ := mapM_elems hcs k hkm
      have hb : (dictGet d.data k >>= fun col => pyIndex col j >>= fun v => Except.ok (fmt v)) = .ok b := hb
      rw [look_bind] at hb
      obtain ⟨x, hx, -⟩ := except_bind_ok.mp hb
      obtain ⟨z, hz⟩ := oneRow_can h hx
      refine ⟨fmt z, ?_⟩
      show (dictGet d'.data k >>= fun col => pyIndex col j >>= fun v => Except.ok (fmt v)) = _
      rw [look_bind, hz]
      rfl
    rw [hcs']
    exact ⟨_, rfl⟩
  obtain ⟨lines', hl'⟩ := this
  exact ⟨_, csvFile_of_parts hc' ((oneRow_getFields h).trans hk) hl'⟩

theorem csvFile_lost {fmt : NpVal → Str} {delim : Str} {d : Dataset} {i : Nat} {text : Str}
    (hi : ∀ c ∈ d.data, i < c.2.length) (ht : csvFile fmt delim none none d = .ok text) :
    ∃ text', csvFile fmt delim none none (withoutRow i d) = .ok text' ∧ OneLineLess text text' := by
  obtain ⟨col, keys, sizes, lines, hc, hk, hl, hx, hn⟩ := csvFile_parts ht
  have hic : i < col.length := hi _ (column_mem hc)
  have hl' := mapM_one_less (g := csvLine fmt delim (withoutRow i d) keys sizes) hic hl
    (fun j => line_look (fun k => withoutRow_look i d k j) fmt delim keys sizes)
  refine ⟨_, csvFile_of_parts (withoutRow_column hc) hk (by rw [List.length_eraseIdx_of_lt hic]; exact hl'), _, lines, _, hx, rfl,
    ⟨i, by rw [(mapM_range_get hl).1]; exact hic, rfl⟩, hn⟩

theorem csvFile_oneRow {fmt : NpVal → Str} {delim : Str} {d : Dataset} {text : Str} (h : oneRow d = true)
    (ht : csvFile fmt delim none none d = .ok text) : OneLineOnly text := by
  obtain ⟨col, keys, sizes, lines, hc, hk, hl, hx, hn⟩ := csvFile_parts ht
  have h1 : col.length = 1 := of_decide_eq_true (List.all_eq_true.mp h _ (column_mem hc))
  have h2 := (mapM_range_get hl).1
  rw [h1] at h2
  obtain ⟨l, rfl⟩ := List.length_eq_one_iff.mp h2
  exact ⟨_, l, by rw [hx]; simp, hn⟩

end PyULog
