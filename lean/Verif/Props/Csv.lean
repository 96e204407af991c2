import Verif.Props.Extract
import Verif.Props.Writer
/-
Property theorems: C30 (shape and contents of the CSV files), C54 (file names).
-/
namespace PyULog
open Spec

/-! ### the specification of a CSV file -/

/-- what the fields of a dataset stand for: a number, a text of `n` characters, or padding -/
inductive Spec.CsvCol where
  | scalar (f : FieldData)
  | text (name : Str) (n : Nat)
  | pad (f : FieldData)

/-- name of an array element -/
def Spec.elemName (name : Str) (i : Nat) : Str := name ++ py! "[" ++ natDec i ++ py! "]"

/-- the fields of a column -/
def Spec.CsvCol.fields : CsvCol → List FieldData
  | .scalar f => [f]
  | .text name n => (List.range n).map fun i => ⟨elemName name i, .char⟩
  | .pad f => [f]

/-- the header of a column; padding has none -/
def Spec.CsvCol.title : CsvCol → Option Str
  | .scalar f => some f.name
  | .text name _ => some name
  | .pad _ => none

/-- the name looks like an array element -/
def Spec.IsElement (s : Str) : Prop := ∃ a b, s = a ++ py! "[" ++ b ++ py! "]"

/-- a column is described properly -/
def Spec.CsvCol.Ok : CsvCol → Prop
  | .scalar f => ¬ py! "_padding" <+: f.name ∧ (f.type = .char → ¬ IsElement f.name)
  | .text name n => 0 < n ∧ ¬ py! "_padding" <+: name ∧ '\n' ∉ name
  | .pad f => py! "_padding" <+: f.name

/-- the headers in log order -/
def Spec.titles (cols : List CsvCol) : List Str := cols.filterMap (·.title)

/-- the headers in the order of the file: the timestamp first -/
def Spec.csvHeader (cols : List CsvCol) : List Str :=
  py! "timestamp" :: (titles cols).filter fun k => k ≠ py! "timestamp"

/-- the text of a list of character codes: up to the first NUL -/
def Spec.textOf (l : List Int) : Str := (l.takeWhile (· ≠ 0)).map fun c => Char.ofNat c.toNat

/-- the size of the text with this header -/
def Spec.textSize (cols : List CsvCol) (k : Str) : Option Nat :=
  cols.findSome? fun
    | .text name n => if name = k then some n else none
    | _ => none

/-- the code of a character -/
def Spec.code : NpVal → Int
  | .int n => n
  | _ => 0

/-- a cell: the text for text columns, otherwise the printed number -/
def Spec.csvValue (fmt : NpVal → Str) (cols : List CsvCol) (d : Dataset) (i : Nat) (k : Str) : Str :=
  match textSize cols k with
  | some n => textOf ((List.range n).map fun j => code (cellAt d (elemName k j) i))
  | none => fmt (cellAt d k i)

/-- cells separated by the delimiter, ended by a newline -/
def Spec.csvRow (delim : Str) (cells : List Str) : Str := (cells.intersperse delim).flatten ++ py! "\n"

/-! ### joining and splitting -/

theorem pyJoin_eq (sep : Str) (l : List Str) : pyJoin sep l = (l.intersperse sep).flatten := by
  induction l with
  | nil => rfl
  | cons x xs ih =>
    cases xs with
    | nil => simp [pyJoin]
    | cons y ys =>
      rw [pyJoin, ih]
      · simp
      · intro h; cases h

theorem pySplit_clean {c : Char} {s : Str} (h : c ∉ s) : pySplit c s = [s] := by
  induction s with
  | nil => rfl
  | cons x xs ih =>
    rw [pySplit, if_neg (fun e => h (by simp [e])), ih (fun e => h (by simp [e]))]

theorem pySplit_at {c : Char} {s t : Str} (h : c ∉ s) : pySplit c (s ++ c :: t) = s :: pySplit c t := by
  induction s with
  | nil => simp [pySplit]
  | cons x xs ih =>
    rw [List.cons_append, pySplit, if_neg (fun e => h (by simp [e])), ih (fun e => h (by simp [e]))]

/-- splitting at the delimiter gives the cells when none contains it -/
theorem pySplit_join {c : Char} {l : List Str} (hne : l ≠ []) (h : ∀ s ∈ l, c ∉ s) :
    pySplit c (l.intersperse [c]).flatten = l := by
  induction l with
  | nil => exact absurd rfl hne
  | cons x xs ih =>
    cases xs with
    | nil => simpa using pySplit_clean (h x (by simp))
    | cons y ys =>
      have : ((x :: y :: ys).intersperse [c]).flatten = x ++ c :: ((y :: ys).intersperse [c]).flatten := by
        simp
      rw [this, pySplit_at (h x (by simp)), ih (by simp) (fun s hs => h s (by simp [hs]))]

/-! ### the columns found by get_fields -/

theorem csvFields_append (a b : List FieldData) (keys : List Str) (sizes : Dict Str Int) :
    csvFields (a ++ b) keys sizes = (csvFields a keys sizes).bind fun r => csvFields b r.1 r.2 := by
  induction a generalizing keys sizes with
  | nil => rfl
  | cons f fs ih =>
    rw [List.cons_append, csvFields, csvFields]
    split
    · exact ih _ _
    · split
      · split
        · rename_i index _ _
          cases pyInt index with
          | error e => rfl
          | ok i => exact ih _ _
        · exact ih _ _
      · exact ih _ _

theorem arrayPattern_elem {name : Str} {i : Nat} (hn : '\n' ∉ name) :
    arrayPattern (elemName name i) = some (name, natDec i) := by
  unfold arrayPattern
  have h1 : '\n' ∉ elemName name i := by
    unfold elemName
    simp only [List.mem_append, List.mem_cons, List.not_mem_nil, or_false, not_or]
    exact ⟨⟨⟨hn, by decide⟩, natDec_not_mem i (by unfold isDigitC; decide)⟩, by decide⟩
  rw [if_neg h1]
  have h2 : (elemName name i).reverse = ']' :: ((natDec i).reverse ++ '[' :: name.reverse) := by
    unfold elemName; simp
  rw [h2]
  show (if '[' ∈ ((natDec i).reverse ++ '[' :: name.reverse) then
    some (((((natDec i).reverse ++ '[' :: name.reverse).dropWhile (fun c => decide (c ≠ '['))).tail.reverse),
      (((natDec i).reverse ++ '[' :: name.reverse).takeWhile (fun c => decide (c ≠ '['))).reverse)
    else none) = _
  rw [if_pos (by simp)]
  have h3 : ∀ c ∈ (natDec i).reverse, (decide (c ≠ '[')) = true := by
    intro c hc
    rw [List.mem_reverse] at hc
    rw [decide_eq_true_eq]
    rintro rfl
    exact natDec_not_mem i (by unfold isDigitC; decide) hc
  rw [List.dropWhile_append_of_pos h3, List.takeWhile_append_of_pos h3]
  simp

theorem arrayPattern_isElement {s a b : Str} (h : arrayPattern s = some (a, b)) : IsElement s := by
  unfold arrayPattern at h
  split at h
  · cases h
  · split at h
    · rename_i r hr
      split at h
      · injection h with h
        injection h with h1 h2
        refine ⟨a, b, ?_⟩
        have hs : s = r.reverse ++ [']'] := by
          rw [← List.reverse_reverse s, hr]; simp
        rename_i hm
        have hcut : r = r.takeWhile (fun c => decide (c ≠ '[')) ++
            '[' :: (r.dropWhile (fun c => decide (c ≠ '['))).tail := by
          clear h1 h2 hs hr
          induction r with
          | nil => cases hm
          | cons x xs ih =>
            by_cases hx : x = '['
            · subst hx; simp
            · have : '[' ∈ xs := by
                rcases List.mem_cons.mp hm with h | h
                · exact absurd h.symm hx
                · exact h
              rw [List.takeWhile_cons_of_pos (by simp [hx]), List.dropWhile_cons_of_pos (by simp [hx])]
              rw [List.cons_append, ← ih this]
        rw [hs, ← h1, ← h2]
        have := congrArg List.reverse hcut
        rw [this]
        simp
      · cases h
    · cases h

theorem startsWith_iff (p s : Str) : startsWith p s = true ↔ p <+: s := by
  unfold startsWith
  exact List.isPrefixOf_iff_prefix

theorem prefix_before {p a b : Str} {c : Char} (hc : c ∉ p) (h : p <+: a ++ c :: b) : p <+: a := by
  induction p generalizing a with
  | nil => exact List.nil_prefix
  | cons x xs ih =>
    cases a with
    | nil =>
      rw [List.nil_append, List.cons_prefix_cons] at h
      exact absurd h.1.symm (fun e => hc (by simp [e]))
    | cons y ys =>
      rw [List.cons_append, List.cons_prefix_cons] at h
      exact List.cons_prefix_cons.mpr ⟨h.1, ih (fun e => hc (by simp [e])) h.2⟩

theorem padding_elem {name : Str} {i : Nat} (h : ¬ py! "_padding" <+: name) :
    ¬ py! "_padding" <+: elemName name i := by
  intro hp
  apply h
  unfold elemName at hp
  rw [List.append_assoc, List.append_assoc] at hp
  exact prefix_before (by decide) hp

theorem csvFields_elem {name : Str} {i : Nat} (hp : ¬ py! "_padding" <+: name) (hn : '\n' ∉ name)
    (fs : List FieldData) (keys : List Str) (sizes : Dict Str Int) :
    csvFields (⟨elemName name i, .char⟩ :: fs) keys sizes =
      csvFields fs (if i = 0 then keys ++ [name] else keys)
        (sizes.set name (max ((i : Int) + 1) ((sizes.get? name).getD 0))) := by
  rw [csvFields]
  rw [if_neg (fun h => padding_elem hp ((startsWith_iff _ _).mp h))]
  dsimp only
  rw [arrayPattern_elem hn]
  dsimp only
  rw [if_pos rfl, pyInt_natDec]
  show csvFields fs (if (i : Int) = 0 then _ else _) _ = _
  simp only [Int.natCast_eq_zero]

theorem csvFields_text {name : Str} (hp : ¬ py! "_padding" <+: name) (hn : '\n' ∉ name)
    (m k : Nat) (hk : 0 < k) (keys : List Str) (sizes : Dict Str Int) (hs : sizes.get? name = some (k : Int)) :
    ∃ sizes', csvFields ((List.range' k m).map fun i => ⟨elemName name i, .char⟩) keys sizes
        = .ok (keys, sizes') ∧
      ∀ k', sizes'.get? k' = if k' = name then some ((k + m : Nat) : Int) else sizes.get? k' := by
  induction m generalizing k sizes with
  | zero =>
    refine ⟨sizes, rfl, ?_⟩
    intro k'
    split
    · rename_i h; rw [h, hs]; rfl
    · rfl
  | succ m ih =>
    rw [List.range'_succ, List.map_cons, csvFields_elem hp hn, if_neg (by omega)]
    obtain ⟨s', h1, h2⟩ := ih (k + 1) (by omega)
      (sizes.set name (max ((k : Int) + 1) ((sizes.get? name).getD 0))) (by
        rw [Dict.get?_set_self, hs]
        simp only [Option.getD_some]
        congr 1
        omega)
    refine ⟨s', h1, ?_⟩
    intro k'
    rw [h2 k', Dict.get?_set]
    by_cases h : k' = name
    · rw [if_pos h, if_pos h]
      congr 2
      omega
    · rw [if_neg h, if_neg h, if_neg (fun e => h e.symm)]

theorem csvFields_col {col : CsvCol} (hok : col.Ok) (keys : List Str) (sizes : Dict Str Int)
    (hs : ∀ k, col.title = some k → sizes.get? k = none) :
    ∃ sizes', csvFields col.fields keys sizes = .ok (keys ++ col.title.toList, sizes') ∧
      ∀ k, sizes'.get? k = ((textSize [col] k).map fun (n : Nat) => (n : Int)).or (sizes.get? k) := by
  cases col with
  | scalar f =>
    refine ⟨sizes, ?_, fun k => rfl⟩
    show csvFields [f] keys sizes = _
    rw [csvFields, if_neg (fun h => hok.1 ((startsWith_iff _ _).mp h))]
    split
    · rename_i heq
      rw [if_neg (fun h => hok.2 h (arrayPattern_isElement heq))]
      rfl
    · rfl
  | pad f =>
    refine ⟨sizes, ?_, fun k => rfl⟩
    show csvFields [f] keys sizes = _
    rw [csvFields, if_pos ((startsWith_iff _ _).mpr hok)]
    simp [csvFields, CsvCol.title]
  | text name n =>
    obtain ⟨h0, hp, hn⟩ := hok
    obtain ⟨m, rfl⟩ : ∃ m, n = m + 1 := ⟨n - 1, by omega⟩
    have hnone := hs name rfl
    obtain ⟨s', h1, h2⟩ := csvFields_text hp hn m 1 (by omega) (keys ++ [name])
      (sizes.set name (max (((0 : Nat) : Int) + 1) ((sizes.get? name).getD 0))) (by
        rw [Dict.get?_set_self, hnone]; rfl)
    refine ⟨s', ?_, ?_⟩
    · show csvFields ((List.range (m + 1)).map _) keys sizes = _
      rw [List.range_eq_range', List.range'_succ, List.map_cons, csvFields_elem hp hn, if_pos rfl]
      exact h1
    · intro k
      rw [h2 k, Dict.get?_set]
      by_cases h : k = name
      · subst h
        simp [textSize, Nat.add_comm]
      · rw [if_neg h, if_neg (fun e => h e.symm)]
        have : ¬ name = k := fun e => h e.symm
        simp [textSize, this]

theorem csvFields_cols {cols : List CsvCol} (hok : ∀ c ∈ cols, c.Ok) (hnd : (titles cols).Nodup)
    (keys : List Str) (sizes : Dict Str Int) (hs : ∀ k ∈ titles cols, sizes.get? k = none) :
    ∃ sizes', csvFields (cols.flatMap (·.fields)) keys sizes = .ok (keys ++ titles cols, sizes') ∧
      ∀ k, sizes'.get? k = ((textSize cols k).map fun (n : Nat) => (n : Int)).or (sizes.get? k) := by
  induction cols generalizing keys sizes with
  | nil => exact ⟨sizes, by simp [csvFields, titles], fun k => rfl⟩
  | cons c cs ih =>
    have ht : titles (c :: cs) = c.title.toList ++ titles cs := by
      unfold titles
      rw [List.filterMap_cons]
      cases c.title <;> rfl
    have hts : ∀ k, textSize (c :: cs) k = (textSize [c] k).or (textSize cs k) := by
      intro k
      unfold textSize
      rw [List.findSome?_cons, List.findSome?_cons, List.findSome?_nil]
      split <;> simp
    rw [ht] at hnd hs ⊢
    obtain ⟨hn1, hn2, hn3⟩ := List.nodup_append.mp hnd
    obtain ⟨s1, a1, a2⟩ := csvFields_col (hok c (by simp)) keys sizes (by
      intro k hk
      exact hs k (by simp [hk]))
    obtain ⟨s2, b1, b2⟩ := ih (fun c hc => hok c (by simp [hc])) hn2 (keys ++ c.title.toList) s1 (by
      intro k hk
      rw [a2 k, hs k (by simp [hk]), Option.or_none]
      have : k ∉ c.title.toList := fun hc => hn3 k hc k hk rfl
      cases c with
      | scalar f => rfl
      | pad f => rfl
      | text name n =>
        have hne : ¬ name = k := fun e => this (by simp [CsvCol.title, e])
        simp [textSize, hne])
    refine ⟨s2, ?_, ?_⟩
    · rw [List.flatMap_cons, csvFields_append, a1]
      show csvFields _ _ _ = _
      rw [b1, List.append_assoc]
    · intro k
      rw [b2 k, a2 k, hts k]
      have hcs : ∀ n, textSize cs k = some n → textSize [c] k = none := by
        intro n hn
        have hk : k ∈ titles cs := by
          unfold textSize at hn
          obtain ⟨c', hc', hcn⟩ := List.exists_of_findSome?_eq_some hn
          cases c' with
          | scalar f => cases hcn
          | pad f => cases hcn
          | text name m =>
            dsimp only at hcn
            split at hcn
            · rename_i e
              exact List.mem_filterMap.mpr ⟨_, hc', by rw [← e]; rfl⟩
            · cases hcn
        cases c with
        | scalar f => rfl
        | pad f => rfl
        | text name m =>
          have hne : ¬ name = k := fun e => hn3 name (by simp [CsvCol.title]) k hk e
          simp [textSize, hne]
      cases hck : textSize cs k with
      | none => simp
      | some n => rw [hcs n hck]; simp

/-- **C30**, columns: the header is the timestamp followed by the name of every other number or text
once, in log order; padding has no column. -/
theorem C30_columns (d : Dataset) (cols : List CsvCol) (hd : d.fields = cols.flatMap (·.fields))
    (hok : ∀ c ∈ cols, c.Ok) (hnd : (titles cols).Nodup) (hts : py! "timestamp" ∈ titles cols) :
    ∃ sizes, getFields d = .ok (csvHeader cols, sizes) ∧
      ∀ k, sizes.get? k = (textSize cols k).map fun (n : Nat) => (n : Int) := by
  obtain ⟨s, h1, h2⟩ := csvFields_cols hok hnd [] [] (fun k _ => rfl)
  refine ⟨s, ?_, ?_⟩
  · unfold getFields
    rw [hd, h1]
    show (timestampFirst ([] ++ titles cols)).bind _ = _
    rw [List.nil_append, timestampFirst_spec hnd hts]
    rfl
  · intro k
    rw [h2 k]
    simp

/-! ### the cells -/

theorem npEqInt_int (a b : Int) : npEqInt (.int a) b = decide (a = b) := rfl

theorem readString_spec {d : Dataset} {n : Nat} {name : Str} {row : Nat} (m k : Nat) (codes : Nat → Int)
    (hcol : ∀ j, j < k + m → ∃ col, d.data.get? (elemName name j) = some col ∧ col.length = n)
    (hrow : row < n) (hcode : ∀ j, j < k + m → cellAt d (elemName name j) row = .int (codes j))
    (hr : ∀ j, j < k + m → 0 ≤ codes j ∧ codes j < 128) :
    readStringData d name row m k = .ok (textOf ((List.range' k m).map codes)) := by
  induction m generalizing k with
  | zero => rfl
  | succ m ih =>
    obtain ⟨col, c1, c2⟩ := hcol k (by omega)
    have hv : col[row]? = some (.int (codes k)) := by
      rw [← hcode k (by omega)]
      unfold cellAt
      rw [c1]
      simp [List.getD_eq_getElem?_getD, List.getElem?_eq_getElem (by omega : row < col.length)]
    have he : name ++ '[' :: natDec k ++ [']'] = elemName name k := by unfold elemName; simp
    rw [readStringData, he]
    unfold dictGet
    rw [c1]
    show (pyIndex col row).bind _ = _
    unfold pyIndex
    rw [hv]
    show (if npEqInt (.int (codes k)) 0 = true then _ else _) = _
    rw [npEqInt_int, List.range'_succ, List.map_cons]
    obtain ⟨r1, r2⟩ := hr k (by omega)
    by_cases h0 : codes k = 0
    · rw [if_pos (by simp [h0])]
      simp [textOf, h0]
    · rw [if_neg (by simp [h0])]
      show (pyChr (.int (codes k))).bind _ = _
      unfold pyChr
      dsimp only
      rw [if_neg (by omega), if_pos r2]
      show (readStringData d name row m (k + 1)).bind _ = _
      rw [ih (k + 1) (fun j hj => hcol j (by omega)) (fun j hj => hcode j (by omega))
        (fun j hj => hr j (by omega))]
      unfold textOf
      rw [List.takeWhile_cons_of_pos (by simp [h0])]
      rfl

/-- a character of 128 or more before the end of the text is a ValueError -/
theorem readString_negative {d : Dataset} {n : Nat} {name : Str} {row : Nat} (m k : Nat) (codes : Nat → Int)
    (hcol : ∀ j, j < k + m → ∃ col, d.data.get? (elemName name j) = some col ∧ col.length = n)
    (hrow : row < n) (hcode : ∀ j, j < k + m → cellAt d (elemName name j) row = .int (codes j))
    (hr : ∀ j, j < k + m → codes j < 128)
    (hneg : ∃ j, k ≤ j ∧ j < k + m ∧ codes j < 0 ∧ ∀ i, k ≤ i → i < j → codes i ≠ 0) :
    readStringData d name row m k = .error .valueError := by
  induction m generalizing k with
  | zero => obtain ⟨j, h1, h2, _⟩ := hneg; omega
  | succ m ih =>
    obtain ⟨j, j1, j2, j3, j4⟩ := hneg
    obtain ⟨col, c1, c2⟩ := hcol k (by omega)
    have hv : col[row]? = some (.int (codes k)) := by
      rw [← hcode k (by omega)]
      unfold cellAt
      rw [c1]
      simp [List.getD_eq_getElem?_getD, List.getElem?_eq_getElem (by omega : row < col.length)]
    have he : name ++ '[' :: natDec k ++ [']'] = elemName name k := by unfold elemName; simp
    rw [readStringData, he]
    unfold dictGet
    rw [c1]
    show (pyIndex col row).bind _ = _
    unfold pyIndex
    rw [hv]
    show (if npEqInt (.int (codes k)) 0 = true then _ else _) = _
    rw [npEqInt_int]
    have h0 : codes k ≠ 0 := by
      rcases Nat.eq_or_lt_of_le j1 with e | h
      · rw [e]; omega
      · exact j4 k (Nat.le_refl _) h
    rw [if_neg (by simp [h0])]
    show (pyChr (.int (codes k))).bind _ = _
    unfold pyChr
    dsimp only
    by_cases hk : codes k < 0
    · rw [if_pos hk]; rfl
    · rw [if_neg hk, if_pos (hr k (by omega))]
      show (readStringData d name row m (k + 1)).bind _ = _
      have : j ≠ k := fun e => hk (e ▸ j3)
      rw [ih (k + 1) (fun j hj => hcol j (by omega)) (fun j hj => hcode j (by omega))
        (fun j hj => hr j (by omega)) ⟨j, by omega, by omega, j3, fun i hi hij => j4 i (by omega) hij⟩]
      rfl

/-- the cells of a dataset are decoded: every field has a column of `n` entries, and the characters
of texts are ASCII -/
structure Spec.CsvData (d : Dataset) (cols : List CsvCol) (n : Nat) : Prop where
  fields : d.fields = cols.flatMap (·.fields)
  columns : ∀ f ∈ d.fields, ∃ col, d.data.get? f.name = some col ∧ col.length = n
  ascii : ∀ name m, CsvCol.text name m ∈ cols → ∀ j i, j < m → i < n →
    ∃ c : Int, cellAt d (elemName name j) i = .int c ∧ 0 ≤ c ∧ c < 128

theorem mem_csvHeader {cols : List CsvCol} (hts : py! "timestamp" ∈ titles cols) {k : Str}
    (hk : k ∈ csvHeader cols) : k ∈ titles cols := by
  rcases List.mem_cons.mp hk with rfl | h
  · exact hts
  · exact (List.mem_filter.mp h).1

theorem textSize_mem {cols : List CsvCol} {k : Str} {n : Nat} (h : textSize cols k = some n) :
    CsvCol.text k n ∈ cols := by
  unfold textSize at h
  obtain ⟨c, hc, hcn⟩ := List.exists_of_findSome?_eq_some h
  cases c with
  | scalar f => cases hcn
  | pad f => cases hcn
  | text name m =>
    dsimp only at hcn
    split at hcn
    · rename_i e
      injection hcn with hcn
      rw [← e, ← hcn]
      exact hc
    · cases hcn

theorem textSize_none {cols : List CsvCol} {k : Str} (h : textSize cols k = none) (hk : k ∈ titles cols) :
    ∃ f, CsvCol.scalar f ∈ cols ∧ f.name = k := by
  obtain ⟨c, hc, hck⟩ := List.mem_filterMap.mp hk
  cases c with
  | scalar f => injection hck with hck; exact ⟨f, hc, hck⟩
  | pad f => cases hck
  | text name m =>
    injection hck with hck
    unfold textSize at h
    have := List.findSome?_eq_none_iff.mp h _ hc
    rw [hck] at this
    simp at this

theorem csvCell_spec (fmt : NpVal → Str) {d : Dataset} {cols : List CsvCol} {n : Nat}
    (hd : CsvData d cols n) {sizes : Dict Str Int}
    (hs : ∀ k, sizes.get? k = (textSize cols k).map fun (n : Nat) => (n : Int))
    {k : Str} (hk : k ∈ titles cols) {i : Nat} (hi : i < n) :
    csvCell fmt d sizes i k = .ok (csvValue fmt cols d i k) := by
  unfold csvCell csvValue
  rw [hs k]
  cases ht : textSize cols k with
  | none =>
    obtain ⟨f, hf, rfl⟩ := textSize_none ht hk
    obtain ⟨col, c1, c2⟩ := hd.columns f (by
      rw [hd.fields]
      exact List.mem_flatMap.mpr ⟨_, hf, by simp [CsvCol.fields]⟩)
    have hv : col[i]? = some (cellAt d f.name i) := by
      unfold cellAt
      rw [c1]
      simp [List.getD_eq_getElem?_getD, List.getElem?_eq_getElem (by omega : i < col.length)]
    show (dictGet d.data f.name).bind _ = _
    unfold dictGet
    rw [c1]
    show (pyIndex col i).bind _ = _
    unfold pyIndex
    rw [hv]
    rfl
  | some m =>
    have hm := textSize_mem ht
    show readStringData d k i ((m : Int).toNat) 0 = _
    have hcodes : ∀ j, j < m → cellAt d (elemName k j) i = .int (code (cellAt d (elemName k j) i)) ∧
        0 ≤ code (cellAt d (elemName k j) i) ∧ code (cellAt d (elemName k j) i) < 128 := by
      intro j hj
      obtain ⟨c, h1, h2, h3⟩ := hd.ascii k m hm j i hj hi
      rw [h1]
      exact ⟨rfl, h2, h3⟩
    rw [Int.toNat_natCast, readString_spec (n := n) m 0 (fun j => code (cellAt d (elemName k j) i))
      _ hi (fun j hj => (hcodes j (by omega)).1) (fun j hj => (hcodes j (by omega)).2),
      ← List.range_eq_range']
    intro j hj
    exact hd.columns ⟨elemName k j, .char⟩ (by
      rw [hd.fields]
      refine List.mem_flatMap.mpr ⟨_, hm, ?_⟩
      exact List.mem_map.mpr ⟨j, List.mem_range.mpr (by omega), rfl⟩)

theorem mapM_ok_mem {α β : Type} {f : α → Except PyErr β} {l : List α} {r : List β} (h : l.mapM f = .ok r) {a : α}
    (ha : a ∈ l) : ∃ b, f a = .ok b := by
  induction l generalizing r with
  | nil => cases ha
  | cons x xs ih =>
    rw [List.mapM_cons] at h
    obtain ⟨b, hb, h⟩ := except_bind_ok.mp h
    obtain ⟨bs, hbs, h⟩ := except_bind_ok.mp h
    rcases List.mem_cons.mp ha with rfl | ha
    · exact ⟨b, hb⟩
    · exact ih hbs ha

theorem titles_inj {cols : List CsvCol} (hnd : (titles cols).Nodup) {a b : CsvCol} (ha : a ∈ cols)
    (hb : b ∈ cols) {k : Str} (hak : a.title = some k) (hbk : b.title = some k) : a = b := by
  induction cols with
  | nil => cases ha
  | cons c cs ih =>
    have ht : titles (c :: cs) = c.title.toList ++ titles cs := by
      unfold titles
      rw [List.filterMap_cons]
      cases c.title <;> rfl
    rw [ht] at hnd
    obtain ⟨_, hn2, hn3⟩ := List.nodup_append.mp hnd
    rcases List.mem_cons.mp ha with rfl | ha'
    · rcases List.mem_cons.mp hb with rfl | hb
      · rfl
      · exact absurd rfl (hn3 k (by simp [hak]) k (List.mem_filterMap.mpr ⟨b, hb, hbk⟩))
    · rcases List.mem_cons.mp hb with rfl | hb
      · exact absurd rfl (hn3 k (by simp [hbk]) k (List.mem_filterMap.mpr ⟨a, ha', hak⟩))
      · exact ih hn2 ha' hb

/-- **C30** for ASCII texts and windows that are reached: the file is the header line followed by one
line for every row in the window; every line has one cell for every column of the header. Numbers are
printed by `fmt`, texts up to the first NUL. Missing: other characters, for which the conversion fails
(`C30_non_ascii`). -/
theorem C30_file_partial (fmt : NpVal → Str) (delim : Str) (timeS timeE : Option Int) (d : Dataset)
    (cols : List CsvCol) (ts : List Nat) (hd : CsvData d cols ts.length)
    (hok : ∀ c ∈ cols, c.Ok) (hnd : (titles cols).Nodup) (hts : py! "timestamp" ∈ titles cols)
    (hcol : d.data.get? (py! "timestamp") = some (ts.map fun (t : Nat) => .int t))
    (hasc : ts.Pairwise (· ≤ ·)) (hr : ∀ t ∈ ts, t < 2 ^ 53)
    (xS : ExactBound timeS) (xE : ExactBound timeE)
    (rS : BoundReached ts timeS) (rE : BoundReached ts timeE) :
    csvFile fmt delim timeS timeE d = .ok (csvRow delim (csvHeader cols) ++
      (((List.range ts.length).filter fun i => inWindow timeS timeE (ts.getD i 0)).map fun i =>
        csvRow delim ((csvHeader cols).map (csvValue fmt cols d i))).flatten) := by
  obtain ⟨sizes, h1, h2⟩ := C30_columns d cols hd.fields hok hnd hts
  obtain ⟨s, e, hw, hrng⟩ := window_spec hasc hr xS xE rS rE
  unfold csvFile
  unfold dictGet
  rw [hcol]
  show (getFields d).bind _ = _
  rw [h1]
  show (window _ _ _).bind _ = _
  rw [hw]
  show ((pyRange s e).mapM (csvLine fmt delim d (csvHeader cols) sizes)).bind _ = _
  rw [hrng, mapM_ok (g := fun i => csvRow delim ((csvHeader cols).map (csvValue fmt cols d i)))]
  · show Except.ok _ = _
    unfold csvRow
    rw [pyJoin_eq]
  · intro i hi
    have hi' := List.mem_range.mp (List.mem_filter.mp hi).1
    unfold csvLine
    rw [mapM_ok (g := csvValue fmt cols d i)]
    · show Except.ok _ = _
      unfold csvRow
      rw [pyJoin_eq]
    · intro k hk
      exact csvCell_spec fmt hd h2 (mem_csvHeader hts hk) hi'

/-- **C30**, every dataset: whenever a file is written, it is a header line whose first column is the
timestamp, followed by lines with as many cells as the header has columns. -/
theorem C30_shape (fmt : NpVal → Str) (delim : Str) (timeS timeE : Option Int) (d : Dataset) (text : Str)
    (h : csvFile fmt delim timeS timeE d = .ok text) :
    ∃ (keys : List Str) (rows : List (List Str)),
      text = csvRow delim (py! "timestamp" :: keys) ++ (rows.map (csvRow delim)).flatten ∧
      ∀ row ∈ rows, row.length = keys.length + 1 := by
  unfold csvFile at h
  obtain ⟨column, _, h⟩ := except_bind_ok.mp h
  obtain ⟨⟨keys, sizes⟩, hk, h⟩ := except_bind_ok.mp h
  obtain ⟨⟨s, e⟩, hw, h⟩ := except_bind_ok.mp h
  obtain ⟨lines, hl, h⟩ := except_bind_ok.mp h
  injection h with h
  have hkeys : ∃ rest, keys = py! "timestamp" :: rest := by
    unfold getFields at hk
    obtain ⟨⟨k1, s1⟩, _, hk⟩ := except_bind_ok.mp hk
    obtain ⟨k2, hk2, hk⟩ := except_bind_ok.mp hk
    injection hk with hk
    injection hk with hk _
    unfold timestampFirst at hk2
    obtain ⟨rest, _, hk2⟩ := except_bind_ok.mp hk2
    injection hk2 with hk2
    exact ⟨rest, by rw [← hk, ← hk2]⟩
  obtain ⟨rest, rfl⟩ := hkeys
  obtain ⟨rows, hr1, hr2⟩ : ∃ (rows : List (List Str)), lines = rows.map (csvRow delim) ∧
      ∀ row ∈ rows, row.length = rest.length + 1 := by
    clear h
    revert hl
    generalize pyRange s e = idx
    intro hl
    induction idx generalizing lines with
    | nil =>
      rw [List.mapM_nil] at hl
      injection hl with hl
      exact ⟨[], by rw [← hl]; rfl, by simp⟩
    | cons i is ih =>
      rw [List.mapM_cons] at hl
      obtain ⟨line, h1, hl⟩ := except_bind_ok.mp hl
      obtain ⟨ls, h2, hl⟩ := except_bind_ok.mp hl
      injection hl with hl
      obtain ⟨rows, r1, r2⟩ := ih ls h2
      unfold csvLine at h1
      obtain ⟨cells, hc, h1⟩ := except_bind_ok.mp h1
      injection h1 with h1
      refine ⟨cells :: rows, ?_, ?_⟩
      · rw [← hl, List.map_cons, ← r1, ← h1]
        unfold csvRow
        rw [pyJoin_eq]
      · intro row hrow
        rcases List.mem_cons.mp hrow with rfl | hrow
        · have := (mapM_inv hc).1
          simpa using this
        · exact r2 row hrow
  refine ⟨rest, rows, ?_, hr2⟩
  rw [← h, hr1]
  unfold csvRow
  rw [pyJoin_eq]

/-- **C30**, reading a line back: splitting at the delimiter gives the cells when no cell contains it. -/
theorem C30_cells (c : Char) (cells : List Str) (hne : cells ≠ [])
    (h : ∀ s ∈ cells, c ∉ s) : pySplit c ((csvRow [c] cells).dropLast) = cells := by
  unfold csvRow
  rw [List.dropLast_concat]
  exact pySplit_join hne h

/-- The failing part of **C30**: a character of 128 or more in a text makes the conversion of its
dataset fail with ValueError. -/
theorem C30_non_ascii (fmt : NpVal → Str) (delim : Str) (d : Dataset)
    (cols : List CsvCol) (ts : List Nat) (hf : d.fields = cols.flatMap (·.fields))
    (hcols : ∀ f ∈ d.fields, ∃ col, d.data.get? f.name = some col ∧ col.length = ts.length)
    (hok : ∀ c ∈ cols, c.Ok) (hnd : (titles cols).Nodup) (hts : py! "timestamp" ∈ titles cols)
    (hcol : d.data.get? (py! "timestamp") = some (ts.map fun (t : Nat) => .int t))
    (name : Str) (m i : Nat) (hm : CsvCol.text name m ∈ cols) (hi : i < ts.length)
    (codes : Nat → Int) (hc : ∀ j, j < m → cellAt d (elemName name j) i = .int (codes j))
    (hr : ∀ j, j < m → codes j < 128)
    (hneg : ∃ j, j < m ∧ codes j < 0 ∧ ∀ i, i < j → codes i ≠ 0) :
    ∀ text, csvFile fmt delim none none d ≠ .ok text := by
  intro text h
  obtain ⟨sizes, h1, h2⟩ := C30_columns d cols hf hok hnd hts
  unfold csvFile dictGet at h
  rw [hcol] at h
  change (getFields d).bind _ = _ at h
  rw [h1] at h
  change ((pyRange 0 (ts.map fun (t : Nat) => NpVal.int t).length).mapM
    (csvLine fmt delim d (csvHeader cols) sizes)).bind _ = _ at h
  obtain ⟨lines, hl, _⟩ := except_bind_ok.mp h
  have hmem : i ∈ pyRange 0 (ts.map fun (t : Nat) => NpVal.int t).length := by
    unfold pyRange
    rw [List.mem_range'_1, List.length_map]
    omega
  obtain ⟨line, hline⟩ := mapM_ok_mem hl hmem
  unfold csvLine at hline
  obtain ⟨cells, hcells, _⟩ := except_bind_ok.mp hline
  have hname : name ∈ csvHeader cols := by
    have ht : name ∈ titles cols := List.mem_filterMap.mpr ⟨_, hm, rfl⟩
    by_cases he : name = py! "timestamp"
    · unfold csvHeader; rw [he]; exact List.mem_cons_self
    · exact List.mem_cons_of_mem _ (List.mem_filter.mpr ⟨ht, by simpa using he⟩)
  obtain ⟨cell, hcell⟩ := mapM_ok_mem hcells hname
  unfold csvCell at hcell
  have hsz : textSize cols name = some m := by
    cases ht : textSize cols name with
    | none =>
      unfold textSize at ht
      have := List.findSome?_eq_none_iff.mp ht _ hm
      simp at this
    | some m' =>
      have hm' := textSize_mem ht
      have hinj := titles_inj hnd hm hm' rfl rfl
      injection hinj with _ hinj
      rw [hinj]
  rw [h2 name, hsz] at hcell
  change readStringData d name i ((m : Int).toNat) 0 = _ at hcell
  rw [Int.toNat_natCast, readString_negative (n := ts.length) m 0 codes] at hcell
  · cases hcell
  · intro j hj
    exact hcols ⟨elemName name j, .char⟩ (by
      rw [hf]
      refine List.mem_flatMap.mpr ⟨_, hm, ?_⟩
      exact List.mem_map.mpr ⟨j, List.mem_range.mpr (by omega), rfl⟩)
  · exact hi
  · intro j hj; exact hc j (by omega)
  · intro j hj; exact hr j (by omega)
  · obtain ⟨j, a, b, c⟩ := hneg
    exact ⟨j, by omega, by omega, b, fun i _ h => c i h⟩

/-! ### examples -/

/-- a dataset with a number, a text of three characters and padding -/
def Sample.csv (chars : List (List NpVal)) : Dataset :=
  { multiId := 0
    msgId := 1
    name := py! "a"
    fields := [⟨py! "x", .i16⟩, ⟨py! "s[0]", .char⟩, ⟨py! "s[1]", .char⟩, ⟨py! "s[2]", .char⟩,
      ⟨py! "timestamp", .u64⟩, ⟨py! "_padding0[0]", .u8⟩]
    tsIdx := 1
    data := [(py! "x", [.int 1, .int 2]), (py! "s[0]", chars.getD 0 []), (py! "s[1]", chars.getD 1 []),
      (py! "s[2]", chars.getD 2 []), (py! "timestamp", [.int 7, .int 9]),
      (py! "_padding0[0]", [.int 0, .int 0])] }

/-- its columns -/
def Sample.csvCols : List CsvCol :=
  [.scalar ⟨py! "x", .i16⟩, .text (py! "s") 3, .scalar ⟨py! "timestamp", .u64⟩,
    .pad ⟨py! "_padding0[0]", .u8⟩]

/-- printing for the examples -/
def Sample.fmt : NpVal → Str
  | .int n => intDec n
  | _ => []

theorem Sample.csvCols_ok : (∀ c ∈ Sample.csvCols, c.Ok) ∧ (titles Sample.csvCols).Nodup ∧
    py! "timestamp" ∈ titles Sample.csvCols := by
  refine ⟨?_, by decide, by decide⟩
  intro c hc
  simp only [Sample.csvCols, List.mem_cons, List.not_mem_nil, or_false] at hc
  rcases hc with rfl | rfl | rfl | rfl
  · exact ⟨by decide, fun h => by cases h⟩
  · exact ⟨by decide, by decide, by decide⟩
  · exact ⟨by decide, fun h => by cases h⟩
  · show _ <+: _; decide

/-- the hypotheses of `C30_file_partial` hold for it -/
theorem Sample.csv_data : CsvData (Sample.csv [[.int 104, .int 0], [.int 105, .int 106], [.int 0, .int 106]])
    Sample.csvCols 2 := by
  refine ⟨by decide, ?_, ?_⟩
  · intro f hf
    simp only [Sample.csv, List.mem_cons, List.not_mem_nil, or_false] at hf
    rcases hf with rfl | rfl | rfl | rfl | rfl | rfl <;> exact ⟨_, rfl, rfl⟩
  · intro name m hm j i hj hi
    simp only [Sample.csvCols, List.mem_cons, List.not_mem_nil, or_false, reduceCtorEq, false_or,
      CsvCol.text.injEq] at hm
    obtain ⟨rfl, rfl⟩ := hm
    have h1 : ∀ j : Fin 3, ∀ i : Fin 2, 0 ≤ code (cellAt (Sample.csv [[.int 104, .int 0],
        [.int 105, .int 106], [.int 0, .int 106]]) (elemName (py! "s") j.1) i.1) ∧
        code (cellAt (Sample.csv [[.int 104, .int 0], [.int 105, .int 106], [.int 0, .int 106]])
          (elemName (py! "s") j.1) i.1) < 128 ∧
        cellAt (Sample.csv [[.int 104, .int 0], [.int 105, .int 106], [.int 0, .int 106]])
          (elemName (py! "s") j.1) i.1 = .int (code (cellAt (Sample.csv [[.int 104, .int 0],
            [.int 105, .int 106], [.int 0, .int 106]]) (elemName (py! "s") j.1) i.1)) := by
      decide
    obtain ⟨a, b, c⟩ := h1 ⟨j, hj⟩ ⟨i, hi⟩
    exact ⟨_, c, a, b⟩

example : (csvFile Sample.fmt (py! ",") none none
      (Sample.csv [[.int 104, .int 0], [.int 105, .int 106], [.int 0, .int 106]])).toOption
    = some (py! "timestamp,x,s\n7,1,hi\n9,2,\n") := by decide +kernel

/-- a text with a byte of 128 or more -/
example : (csvFile Sample.fmt (py! ",") none none
      (Sample.csv [[.int 104, .int 0], [.int (-61), .int 106], [.int 0, .int 106]])).toOption = none := by
  decide +kernel

/-- The failing part of **C30**: texts are not quoted, so a text with a comma gives a line with more
cells than the header has columns. -/
theorem C30_unescaped : ∃ (d : Dataset) (header line : Str),
    csvFile Sample.fmt (py! ",") none (some 0) d = .ok (header ++ '\n' :: line ++ py! "\n9,2,\n") ∧
    (pySplit ',' header).length = 3 ∧ (pySplit ',' line).length = 4 := by
  refine ⟨Sample.csv [[.int 104, .int 0], [.int 44, .int 106], [.int 105, .int 106]],
    py! "timestamp,x,s", py! "7,1,h,i", ?_, by decide, by decide⟩
  have : (csvFile Sample.fmt (py! ",") none (some 0)
      (Sample.csv [[.int 104, .int 0], [.int 44, .int 106], [.int 105, .int 106]])).toOption
      = some (py! "timestamp,x,s\n7,1,h,i\n9,2,\n") := by decide +kernel
  exact ok_of_toOption this

/-! ### file names -/

theorem replaceSlash_clean {s : Str} (h : '/' ∉ s) : replaceSlash s = s := by
  unfold replaceSlash
  conv => rhs; rw [← List.map_id s]
  apply List.map_congr_left
  intro c hc
  rw [if_neg (fun e => h (by rw [← e]; exact hc))]
  rfl

/-- a number after the last underscore can be told apart -/
theorem under_inj {a b : Str} {m n : Nat} {t : Str}
    (h : a ++ '_' :: natDec m ++ t = b ++ '_' :: natDec n ++ t) : a = b ∧ m = n := by
  have h := List.append_cancel_right h
  have h' := congrArg List.reverse h
  simp only [List.reverse_append, List.reverse_cons, List.append_assoc, List.singleton_append] at h'
  have key : ∀ (x y : Str) (p q : Str), (∀ c ∈ x, isDigitC c) → (∀ c ∈ y, isDigitC c) →
      x ++ '_' :: p = y ++ '_' :: q → x = y ∧ p = q := by
    intro x
    induction x with
    | nil =>
      intro y p q _ hy e
      cases y with
      | nil => simpa using e
      | cons z zs =>
        rw [List.nil_append, List.cons_append] at e
        injection e with e _
        have := hy z (by simp)
        rw [← e] at this
        exact absurd this (by unfold isDigitC; decide)
    | cons w ws ih =>
      intro y p q hx hy e
      cases y with
      | nil =>
        rw [List.nil_append, List.cons_append] at e
        injection e with e _
        have := hx w (by simp)
        rw [e] at this
        exact absurd this (by unfold isDigitC; decide)
      | cons z zs =>
        rw [List.cons_append, List.cons_append] at e
        injection e with e1 e2
        obtain ⟨h1, h2⟩ := ih zs p q (fun c hc => hx c (by simp [hc])) (fun c hc => hy c (by simp [hc])) e2
        exact ⟨by rw [e1, h1], h2⟩
  obtain ⟨h1, h2⟩ := key _ _ _ _ (fun c hc => natDec_chars m c (by simpa using hc))
    (fun c hc => natDec_chars n c (by simpa using hc)) h'
  exact ⟨List.reverse_inj.mp h2, natDec_inj (List.reverse_inj.mp h1)⟩

theorem csvName_inj {pre : Str} {d e : Dataset} (h : csvName pre d = csvName pre e) :
    replaceSlash d.name = replaceSlash e.name ∧ d.multiId = e.multiId := by
  unfold csvName at h
  have h1 : ∀ x : Dataset, pre ++ '_' :: replaceSlash x.name ++ '_' :: natDec x.multiId ++ py! ".csv"
      = (pre ++ '_' :: replaceSlash x.name) ++ '_' :: natDec x.multiId ++ py! ".csv" := by
    intro x; simp
  rw [h1, h1] at h
  obtain ⟨h2, h3⟩ := under_inj h
  have h4 := List.append_cancel_left h2
  injection h4 with _ h4
  exact ⟨h4, h3⟩

theorem foldlM_files (fmt : NpVal → Str) (pre delim : Str) (timeS timeE : Option Int)
    (ds : List Dataset) (acc files : Dict Str Str)
    (hn : (acc.keys ++ ds.map (csvName pre)).Nodup)
    (h : ds.foldlM (fun files d => do
      let text ← csvFile fmt delim timeS timeE d
      .ok (files.set (csvName pre d) text)) acc = Except.ok (ε := PyErr) files) :
    ∃ texts, ds.mapM (csvFile fmt delim timeS timeE) = .ok texts ∧
      files = acc ++ (ds.map (csvName pre)).zip texts := by
  induction ds generalizing acc with
  | nil =>
    injection h with h
    exact ⟨[], rfl, by simp [h]⟩
  | cons d ds ih =>
    rw [List.foldlM_cons] at h
    obtain ⟨acc', h1, h⟩ := except_bind_ok.mp h
    obtain ⟨text, h0, h1⟩ := except_bind_ok.mp h1
    injection h1 with h1
    have hnot : csvName pre d ∉ acc.keys := by
      intro hc
      rw [List.nodup_append] at hn
      exact hn.2.2 _ hc _ (by simp) rfl
    rw [Dict.set_of_not_mem _ _ _ hnot] at h1
    obtain ⟨texts, h2, h3⟩ := ih acc' (by
      rw [← h1]
      simpa [Dict.keys] using hn) h
    refine ⟨text :: texts, ?_, ?_⟩
    · rw [List.mapM_cons, h0, h2]; rfl
    · rw [h3, ← h1]; simp

/-- **C54** for names without `/`, different in (name, multi id): every dataset is written to its own
file, and no file is overwritten. -/
theorem C54_one_file_each_partial (fmt : NpVal → Str) (pre delim : Str) (timeS timeE : Option Int)
    (u : ULog) (files : Dict Str Str)
    (hslash : ∀ d ∈ u.dataList, '/' ∉ d.name)
    (hdist : (u.dataList.map fun d => (d.name, d.multiId)).Nodup)
    (h : convertCsv fmt pre delim timeS timeE u = .ok files) :
    ∃ texts, u.dataList.mapM (csvFile fmt delim timeS timeE) = .ok texts ∧
      files = (u.dataList.map (csvName pre)).zip texts ∧ files.length = u.dataList.length ∧
      files.keys.Nodup := by
  have hn : (u.dataList.map (csvName pre)).Nodup := by
    unfold List.Nodup at hdist ⊢
    rw [List.pairwise_map] at hdist ⊢
    refine List.Pairwise.imp_of_mem ?_ hdist
    intro a b ha hb hne e
    obtain ⟨h1, h2⟩ := csvName_inj e
    rw [replaceSlash_clean (hslash a ha), replaceSlash_clean (hslash b hb)] at h1
    exact hne (by rw [h1, h2])
  obtain ⟨texts, h1, h2⟩ := foldlM_files fmt pre delim timeS timeE u.dataList [] files
    (by simpa [Dict.keys] using hn) h
  rw [List.nil_append] at h2
  have hlen := (mapM_inv h1).1
  refine ⟨texts, h1, h2, ?_, ?_⟩
  · rw [h2, List.length_zip, List.length_map]; omega
  · rw [h2]
    unfold Dict.keys
    rw [List.map_fst_zip (by rw [List.length_map]; omega)]
    exact hn

/-- Two topic names that give the same file name: equal up to the difference between `/` and `_`. -/
def Spec.SameUpToSlash : Str → Str → Prop
  | [], [] => True
  | c :: cs, d :: ds => (c = d ∨ c ∈ ['/', '_'] ∧ d ∈ ['/', '_']) ∧ SameUpToSlash cs ds
  | _, _ => False

theorem sameUpToSlash_iff (a b : Str) : Spec.SameUpToSlash a b ↔ replaceSlash a = replaceSlash b := by
  unfold replaceSlash
  induction a generalizing b with
  | nil => cases b <;> simp [Spec.SameUpToSlash]
  | cons c cs ih =>
    cases b with
    | nil => simp [Spec.SameUpToSlash]
    | cons d ds =>
      rw [Spec.SameUpToSlash, ih, List.map_cons, List.map_cons, List.cons.injEq]
      refine and_congr_left' ?_
      by_cases h1 : c = '/' <;> by_cases h2 : d = '/'
      · simp [h1, h2]
      · subst h1
        rw [if_pos rfl, if_neg h2]
        simp [h2, eq_comm]
      · subst h2
        rw [if_pos rfl, if_neg h1]
        simp [h1]
      · rw [if_neg h1, if_neg h2]
        simp only [List.mem_cons, h1, h2, List.not_mem_nil, or_false, false_or]
        constructor
        · rintro (h | ⟨h, h'⟩)
          · exact h
          · rw [h, h']
        · exact Or.inl

/-- **C54**, exactly: two datasets share an output file if and only if they have the same instance number
and names that differ in `/` against `_` only. -/
theorem C54_shared_iff (pre : Str) (d e : Dataset) :
    csvName pre d = csvName pre e ↔ Spec.SameUpToSlash d.name e.name ∧ d.multiId = e.multiId := by
  rw [sameUpToSlash_iff]
  constructor
  · exact csvName_inj
  · rintro ⟨h1, h2⟩
    unfold csvName
    rw [h1, h2]

/-- the entry for `k` in a list of files as they are written one after the other: the last one counts -/
def Spec.lastText (k : Str) : List (Str × Str) → Option Str
  | [] => none
  | (k', t) :: rest => (lastText k rest).or (if k' = k then some t else none)

theorem foldlM_last (fmt : NpVal → Str) (pre delim : Str) (timeS timeE : Option Int)
    (ds : List Dataset) (acc files : Dict Str Str)
    (h : ds.foldlM (fun files d => do
      let text ← csvFile fmt delim timeS timeE d
      .ok (files.set (csvName pre d) text)) acc = Except.ok (ε := PyErr) files) :
    ∃ texts, ds.mapM (csvFile fmt delim timeS timeE) = .ok texts ∧
      ∀ k, files.get? k = (Spec.lastText k ((ds.map (csvName pre)).zip texts)).or (acc.get? k) := by
  induction ds generalizing acc with
  | nil =>
    injection h with h
    exact ⟨[], rfl, fun k => by rw [h]; rfl⟩
  | cons d ds ih =>
    rw [List.foldlM_cons] at h
    obtain ⟨acc', h1, h⟩ := except_bind_ok.mp h
    obtain ⟨text, h0, h1⟩ := except_bind_ok.mp h1
    injection h1 with h1
    obtain ⟨texts, h2, h3⟩ := ih acc' h
    refine ⟨text :: texts, ?_, ?_⟩
    · rw [List.mapM_cons, h0, h2]; rfl
    · intro k
      rw [h3, ← h1, List.map_cons, List.zip_cons_cons, Spec.lastText]
      by_cases hk : csvName pre d = k
      · subst hk
        rw [Dict.get?_set_self, if_pos rfl]
        cases Spec.lastText (csvName pre d) ((ds.map (csvName pre)).zip texts) <;> rfl
      · rw [Dict.get?_set_ne _ _ hk, if_neg hk, Option.or_none]

/-- **C54**, exactly, for every log: the file of a name holds the text of the last dataset that is written
under this name; no other files are written. -/
theorem C54_last_wins (fmt : NpVal → Str) (pre delim : Str) (timeS timeE : Option Int)
    (u : ULog) (files : Dict Str Str) (h : convertCsv fmt pre delim timeS timeE u = .ok files) :
    ∃ texts, u.dataList.mapM (csvFile fmt delim timeS timeE) = .ok texts ∧
      ∀ k, files.get? k = Spec.lastText k ((u.dataList.map (csvName pre)).zip texts) := by
  obtain ⟨texts, h1, h2⟩ := foldlM_last fmt pre delim timeS timeE u.dataList [] files h
  exact ⟨texts, h1, fun k => by rw [h2]; simp [Dict.get?]⟩

/-- The failing part of **C54**: the datasets `a/b` and `a_b` are written to the same file, and the
first one is lost. -/
theorem C54_slash : ∃ u : ULog, (u.dataList.map fun d => (d.name, d.multiId)).Nodup ∧
    u.dataList.length = 2 ∧
    ∃ text, convertCsv Sample.fmt (py! "log") (py! ",") none none u = .ok [(py! "log_a_b_0.csv", text)] := by
  let d1 : Dataset := { Sample.csv [[.int 0, .int 0], [.int 0, .int 0], [.int 0, .int 0]] with
    name := py! "a/b" }
  let d2 : Dataset := { Sample.csv [[.int 0, .int 0], [.int 0, .int 0], [.int 0, .int 0]] with
    name := py! "a_b" }
  refine ⟨{ dataList := [d1, d2] }, by decide, rfl, py! "timestamp,x,s\n7,1,\n9,2,\n", ?_⟩
  apply ok_of_toOption
  decide +kernel

example : Spec.SameUpToSlash (py! "a/b_c") (py! "a_b/c") := by simp [Spec.SameUpToSlash]
example : ¬ Spec.SameUpToSlash (py! "a/b") (py! "a-b") := by simp [Spec.SameUpToSlash]
example : Spec.lastText ['x'] [(['x'], ['1']), (['y'], ['2']), (['x'], ['3'])] = some ['3'] := by decide

/-- the hypotheses of `C54_one_file_each_partial` hold for two datasets -/
example : ∃ u : ULog, u.dataList.length = 2 ∧ (∀ d ∈ u.dataList, '/' ∉ d.name) ∧
    (u.dataList.map fun d => (d.name, d.multiId)).Nodup ∧
    (convertCsv Sample.fmt (py! "log") (py! ",") none none u).toOption.isSome = true := by
  let d1 : Dataset := Sample.csv [[.int 0, .int 0], [.int 0, .int 0], [.int 0, .int 0]]
  exact ⟨{ dataList := [d1, { d1 with multiId := 1 }] }, rfl, by decide, by decide, by decide +kernel⟩

end PyULog
