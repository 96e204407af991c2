import Verif.Lemmas.Loaded
import Verif.Lemmas.Basic
/-
Property theorems: C25 (get_dataset), C26 (list_value_changes), C27 (version information),
C28 (equality of datasets).
-/
namespace PyULog
open Spec

/-! ### C25 -/

theorem filter_first {p : α → Bool} {l : List α} {d : α} :
    (l.filter p)[0]? = some d ↔
      ∃ pre post, l = pre ++ d :: post ∧ p d = true ∧ ∀ e ∈ pre, p e = false := by
  induction l with
  | nil => simp
  | cons x xs ih =>
    by_cases hx : p x = true
    · rw [List.filter_cons_of_pos hx]
      simp only [List.getElem?_cons_zero, Option.some.injEq]
      constructor
      · rintro rfl
        exact ⟨[], xs, rfl, hx, by simp⟩
      · rintro ⟨pre, post, h1, h2, h3⟩
        cases pre with
        | nil => simp only [List.nil_append, List.cons.injEq] at h1; exact h1.1
        | cons y ys =>
          simp only [List.cons_append, List.cons.injEq] at h1
          have := h3 y (by simp)
          rw [← h1.1, hx] at this
          cases this
    · rw [List.filter_cons_of_neg hx, ih]
      constructor
      · rintro ⟨pre, post, h1, h2, h3⟩
        refine ⟨x :: pre, post, by rw [h1]; rfl, h2, ?_⟩
        intro e he
        rcases List.mem_cons.mp he with rfl | he
        · simpa using hx
        · exact h3 e he
      · rintro ⟨pre, post, h1, h2, h3⟩
        cases pre with
        | nil =>
          simp only [List.nil_append, List.cons.injEq] at h1
          rw [h1.1] at hx
          exact absurd h2 hx
        | cons y ys =>
          simp only [List.cons_append, List.cons.injEq] at h1
          exact ⟨ys, post, h1.2, h2, fun e he => h3 e (List.mem_cons_of_mem _ he)⟩

/-- **C25**: `get_dataset(name, i)` returns the first dataset with that name and instance. -/
theorem C25_get_dataset (u : ULog) (name : Str) (i : Int) (d : Dataset) :
    getDataset u name i = .ok d ↔
      ∃ pre post, u.dataList = pre ++ d :: post ∧ d.name = name ∧ (d.multiId : Int) = i ∧
        ∀ e ∈ pre, ¬ (e.name = name ∧ (e.multiId : Int) = i) := by
  have key := filter_first (p := fun d : Dataset => decide (d.name = name ∧ (d.multiId : Int) = i))
    (l := u.dataList) (d := d)
  simp only [decide_eq_true_eq, decide_eq_false_iff_not] at key
  unfold getDataset pyIndex
  constructor
  · intro h
    split at h
    · rename_i x hx
      injection h with h
      subst h
      obtain ⟨pre, post, h1, ⟨h2, h3⟩, h4⟩ := key.mp hx
      exact ⟨pre, post, h1, h2, h3, h4⟩
    · cases h
  · rintro ⟨pre, post, h1, h2, h3, h4⟩
    rw [key.mpr ⟨pre, post, h1, ⟨h2, h3⟩, h4⟩]

/-- **C25**: the only failure is IndexError, exactly when no dataset has that name and instance. -/
theorem C25_not_found (u : ULog) (name : Str) (i : Int) (e : PyErr) :
    getDataset u name i = .error e ↔
      e = .indexError ∧ ∀ d ∈ u.dataList, ¬ (d.name = name ∧ (d.multiId : Int) = i) := by
  unfold getDataset pyIndex
  constructor
  · intro h
    split at h
    · cases h
    · rename_i hx
      injection h with h
      refine ⟨h.symm, ?_⟩
      rw [List.getElem?_eq_none_iff] at hx
      have h0 := List.length_eq_zero_iff.mp (Nat.le_zero.mp hx)
      rw [List.filter_eq_nil_iff] at h0
      intro d hd
      simpa using h0 d hd
  · rintro ⟨rfl, h⟩
    have : u.dataList.filter (fun d => decide (d.name = name ∧ (d.multiId : Int) = i)) = [] := by
      rw [List.filter_eq_nil_iff]
      intro d hd
      simpa using h d hd
    rw [this]
    rfl

/-! ### C26 -/

theorem whereTrue_spec (mask : List Bool) :
    (whereTrue mask).Pairwise (· < ·) ∧
      ∀ i, i ∈ whereTrue mask ↔ mask[i]? = some true := by
  refine ⟨List.Pairwise.filter _ List.pairwise_lt_range, ?_⟩
  intro i
  unfold whereTrue
  simp only [List.mem_filter, List.mem_range, List.getD_eq_getElem?_getD]
  constructor
  · rintro ⟨h1, h2⟩
    rw [List.getElem?_eq_getElem h1] at h2 ⊢
    simpa using h2
  · intro h
    obtain ⟨h1, h2⟩ := List.getElem?_eq_some_iff.mp h
    exact ⟨h1, by rw [h]; rfl⟩

/-- the rows kept by masking both columns -/
theorem mask_rows (f : NpVal → Bool) (t x : List NpVal) (h : t.length = x.length) :
    ∃ t' x', maskBy (t.map f) t = .ok t' ∧ maskBy (t.map f) x = .ok x' ∧ t'.length = x'.length ∧
      t'.zip x' = (t.zip x).filter (fun p => f p.1) := by
  refine ⟨_, _, if_pos (by simp), if_pos (by simp [h]), ?_⟩
  induction t generalizing x with
  | nil => simp
  | cons a t ih =>
    cases x with
    | nil => simp at h
    | cons b x =>
      obtain ⟨h1, h2⟩ := ih x (by simpa using h)
      by_cases ha : f a = true
      · simp only [List.map_cons, List.zip_cons_cons, List.filterMap_cons, ha, if_true,
          List.length_cons, h1, true_and]
        rw [List.filter_cons_of_pos (by simpa using ha), h2]
      · have ha : f a = false := by simpa using ha
        simp only [List.map_cons, List.zip_cons_cons, List.filterMap_cons, ha, Bool.false_eq_true,
          if_false, h1, true_and]
        rw [List.filter_cons_of_neg (by simp [ha]), h2]

/-- the positions of `rows` where the value changes -/
def Spec.ChangeAt (rows : List (NpVal × NpVal)) (i : Nat) : Prop :=
  ∃ r, rows[i]? = some r ∧
    (i = 0 ∨ ∃ q, rows[i - 1]? = some q ∧ ¬ SameNumber q.2 r.2)

/-- the number zero, of any type and with any sign -/
def Spec.IsZero : NpVal → Prop
  | .int n => n = 0
  | .f32 b => mag32 b = 0
  | .f64 b => mag64 b = 0

instance (v : NpVal) : Decidable (IsZero v) := by
  cases v <;> unfold IsZero <;> infer_instance

theorem isZero_iff (v : NpVal) : npEqInt v 0 = true ↔ IsZero v := by
  cases v with
  | int n => simp [npEqInt, IsZero]
  | f32 b =>
    show eq32 b (Fmt.b32.ofInt 0) = true ↔ mag32 b = 0
    rw [show Fmt.b32.ofInt 0 = 0 by decide +kernel]
    have h1 : eq32 b 0 = true ↔ b % 2 ^ 31 = 0 := by
      unfold eq32
      constructor
      · intro h
        rcases Bool.or_eq_true _ _ ▸ (Bool.and_eq_true _ _ ▸ h).2 with h | h
        · rw [of_decide_eq_true h]
        · exact of_decide_eq_true (Bool.and_eq_true _ _ ▸ h).1
      · intro h
        have hn : isNan32 b = false := by
          unfold isNan32
          rw [Bool.and_eq_false_iff, decide_eq_false_iff_not, decide_eq_false_iff_not]
          omega
        rw [hn, show isNan32 0 = false by decide, decide_eq_true h]
        simp
    have h2 : mag32 b = 0 ↔ b % 2 ^ 31 = 0 := by
      unfold mag32
      split
      · rename_i h
        unfold exp32 at h
        unfold frac32
        omega
      · rename_i h
        have hp : 0 < (2 ^ 23 + frac32 b) * 2 ^ (exp32 b - 1) :=
          Nat.mul_pos (by omega) (Nat.pow_pos (by omega))
        unfold exp32 at h
        constructor
        · intro h0; omega
        · intro h0; omega
    rw [h1, h2]
  | f64 b =>
    show eq64 b (Fmt.b64.ofInt 0) = true ↔ mag64 b = 0
    rw [show Fmt.b64.ofInt 0 = 0 by decide +kernel]
    have h1 : eq64 b 0 = true ↔ b % 2 ^ 63 = 0 := by
      unfold eq64
      constructor
      · intro h
        rcases Bool.or_eq_true _ _ ▸ (Bool.and_eq_true _ _ ▸ h).2 with h | h
        · rw [of_decide_eq_true h]
        · exact of_decide_eq_true (Bool.and_eq_true _ _ ▸ h).1
      · intro h
        have hn : isNan64 b = false := by
          unfold isNan64
          rw [Bool.and_eq_false_iff, decide_eq_false_iff_not, decide_eq_false_iff_not]
          omega
        rw [hn, show isNan64 0 = false by decide, decide_eq_true h]
        simp
    have h2 : mag64 b = 0 ↔ b % 2 ^ 63 = 0 := by
      unfold mag64
      split
      · rename_i h
        unfold exp64 at h
        unfold frac64
        omega
      · rename_i h
        have hp : 0 < (2 ^ 52 + frac64 b) * 2 ^ (exp64 b - 1) :=
          Nat.mul_pos (by omega) (Nat.pow_pos (by omega))
        unfold exp64 at h
        constructor
        · intro h0; omega
        · intro h0; omega
    rw [h1, h2]

/-- **C26**: `list_value_changes` ignores the samples with timestamp 0 and lists, in order, the first
remaining sample and every later one whose value is not the same number as that of the remaining
sample before it. -/
theorem C26_value_changes (d : Dataset) (field : Str) (t x : List NpVal)
    (ht : d.data.get? (py! "timestamp") = some t) (hx : d.data.get? field = some x)
    (hl : t.length = x.length) (hr : ∀ v ∈ x, InRange v) :
    ∃ (out rows : List (NpVal × NpVal)) (idx : List Nat), listValueChanges d field = .ok out ∧
      rows = (t.zip x).filter (fun p => ¬ IsZero p.1) ∧
      idx.Pairwise (· < ·) ∧ (∀ i, i ∈ idx ↔ ChangeAt rows i) ∧
      out.map some = idx.map (rows[·]?) := by
  obtain ⟨t', x', m1, m2, hl', hz⟩ := mask_rows (fun v => !npEqInt v 0) t x hl
  have hrows : t'.zip x' = (t.zip x).filter (fun p => ¬ IsZero p.1) := by
    rw [hz]
    apply List.filter_congr
    intro p _
    have := isZero_iff p.1
    cases h : npEqInt p.1 0 with
    | true => simp [this.mp h]
    | false =>
      have hn : ¬ IsZero p.1 := fun hc => by rw [this.mpr hc] at h; cases h
      simp [hn]
  have hr' : ∀ v ∈ x', InRange v := by
    intro v hv
    obtain ⟨k, hk, rfl⟩ := List.mem_iff_getElem.mp hv
    have hk' : k < (t'.zip x').length := by simp only [List.length_zip]; omega
    have : (t'.zip x')[k] ∈ (t.zip x).filter (fun p => !npEqInt p.1 0) :=
      hz ▸ List.getElem_mem hk'
    have := (List.mem_filter.mp this).1
    have := hr _ (List.of_mem_zip this).2
    simpa using this
  have hm : listValueChanges d field = (match t', x' with
    | t0 :: _, x0 :: _ =>
      let idx := (whereTrue ((x'.dropLast.zip x'.tail).map fun p => !npEq p.1 p.2)).map (· + 1)
      .ok ((t0, x0) :: idx.filterMap fun i => match t'[i]?, x'[i]? with
        | some a, some b => some (a, b)
        | _, _ => none)
    | _, _ => .ok []) := by
    unfold listValueChanges dictGet
    rw [ht, hx]
    show (maskBy _ t).bind _ = _
    rw [m1]
    show (maskBy _ x).bind _ = _
    rw [m2]
    rfl
  cases t' with
  | nil =>
    have hx0 : x' = [] := List.length_eq_zero_iff.mp hl'.symm
    subst hx0
    refine ⟨[], [], [], hm, by rw [← hrows]; rfl, List.Pairwise.nil, ?_, rfl⟩
    intro i
    simp [ChangeAt]
  | cons t0 ts =>
    cases x' with
    | nil => simp at hl'
    | cons x0 xs =>
      have hlen : ts.length = xs.length := by simpa using hl'
      refine ⟨_, _, 0 :: (whereTrue (((x0 :: xs).dropLast.zip (x0 :: xs).tail).map
        fun p => !npEq p.1 p.2)).map (· + 1), hm, hrows, ?_, ?_, ?_⟩
      · refine List.Pairwise.cons ?_ ?_
        · intro a ha
          obtain ⟨b, _, rfl⟩ := List.mem_map.mp ha
          omega
        · rw [List.pairwise_map]
          exact (whereTrue_spec _).1.imp (by omega)
      · intro i
        simp only [List.mem_cons, List.mem_map, (whereTrue_spec _).2]
        constructor
        · rintro (rfl | ⟨k, hk, rfl⟩)
          · exact ⟨(t0, x0), by rfl, Or.inl rfl⟩
          · rw [List.getElem?_map, Option.map_eq_some_iff] at hk
            obtain ⟨p, hp, hne⟩ := hk
            obtain ⟨hp1, hp2⟩ := List.getElem?_zip_eq_some.mp hp
            have hklt : k < xs.length := by
              have := (List.getElem?_eq_some_iff.mp hp2).1
              simpa using this
            have e1 : (x0 :: xs)[k]? = some p.1 := by
              rw [List.getElem?_dropLast, if_pos (by simpa using hklt)] at hp1
              exact hp1
            have e2 : (x0 :: xs)[k + 1]? = some p.2 := by simpa using hp2
            have q1 : ∃ a, (t0 :: ts)[k]? = some a := ⟨_, List.getElem?_eq_getElem (by simp; omega)⟩
            have q2 : ∃ a, (t0 :: ts)[k + 1]? = some a :=
              ⟨_, List.getElem?_eq_getElem (by simp; omega)⟩
            obtain ⟨a, ha⟩ := q1
            obtain ⟨b, hb⟩ := q2
            refine ⟨(b, p.2), List.getElem?_zip_eq_some.mpr ⟨hb, e2⟩, Or.inr ⟨(a, p.1), ?_, ?_⟩⟩
            · exact List.getElem?_zip_eq_some.mpr ⟨ha, e1⟩
            · intro hs
              have := (npEq_iff (hr' _ (List.mem_of_getElem? e1)) (hr' _ (List.mem_of_getElem? e2))).mpr hs
              simp [this] at hne
        · rintro ⟨r, h1, rfl | ⟨q, h2, h3⟩⟩
          · exact Or.inl rfl
          · cases i with
            | zero => exact Or.inl rfl
            | succ k =>
              refine Or.inr ⟨k, ?_, rfl⟩
              obtain ⟨_, r2⟩ := List.getElem?_zip_eq_some.mp h1
              obtain ⟨_, q2⟩ := List.getElem?_zip_eq_some.mp h2
              simp only [Nat.add_sub_cancel] at q2
              have hklt : k < xs.length := by
                have := (List.getElem?_eq_some_iff.mp r2).1
                simpa using this
              rw [List.getElem?_map, Option.map_eq_some_iff]
              refine ⟨(q.2, r.2), List.getElem?_zip_eq_some.mpr ⟨?_, by simpa using r2⟩, ?_⟩
              · rw [List.getElem?_dropLast, if_pos (by simpa using hklt)]
                exact q2
              · have : npEq q.2 r.2 = false := by
                  cases hh : npEq q.2 r.2 with
                  | false => rfl
                  | true =>
                    exact absurd ((npEq_iff (hr' _ (List.mem_of_getElem? q2))
                      (hr' _ (List.mem_of_getElem? r2))).mp hh) h3
                simp [this]
      · simp only [List.map_cons]
        refine congr (congrArg _ (by rfl)) ?_
        have hall : ∀ i ∈ (whereTrue (((x0 :: xs).dropLast.zip (x0 :: xs).tail).map
            fun p => !npEq p.1 p.2)).map (· + 1), i < (t0 :: ts).length := by
          intro i hi
          obtain ⟨k, hk, rfl⟩ := List.mem_map.mp hi
          rw [(whereTrue_spec _).2] at hk
          have := (List.getElem?_eq_some_iff.mp hk).1
          simp at this
          simp
          omega
        revert hall
        generalize (whereTrue (((x0 :: xs).dropLast.zip (x0 :: xs).tail).map
            fun p => !npEq p.1 p.2)).map (· + 1) = L
        intro hall
        induction L with
        | nil => rfl
        | cons i L ih =>
          have hi := hall i (by simp)
          have e1 := List.getElem?_eq_getElem hi
          have e2 := List.getElem?_eq_getElem (l := x0 :: xs) (i := i) (by simp at hi ⊢; omega)
          have e3 : ((t0 :: ts).zip (x0 :: xs))[i]? = some ((t0 :: ts)[i], (x0 :: xs)[i]'(by
              simp at hi ⊢; omega)) := List.getElem?_zip_eq_some.mpr ⟨e1, e2⟩
          simp only [List.filterMap_cons, e1, e2, List.map_cons, e3]
          rw [ih fun j hj => hall j (List.mem_cons_of_mem _ hj)]

/-- **C26**: the list determines the value of every remaining sample: the value of a sample that is
a number is that of the last change at or before it. -/
theorem C26_reconstruct (rows : List (NpVal × NpVal)) (i : Nat) (r : NpVal × NpVal)
    (hi : rows[i]? = some r) (hn : ¬ IsNaN r.2) :
    ∃ j q, j ≤ i ∧ ChangeAt rows j ∧ rows[j]? = some q ∧ SameNumber q.2 r.2 ∧
      ∀ k, j < k → k ≤ i → ¬ ChangeAt rows k := by
  induction i generalizing r with
  | zero =>
    exact ⟨0, r, Nat.le_refl _, ⟨r, hi, Or.inl rfl⟩, hi, SameNumber.refl hn, by omega⟩
  | succ i ih =>
    by_cases hc : ChangeAt rows (i + 1)
    · exact ⟨i + 1, r, Nat.le_refl _, hc, hi, SameNumber.refl hn, by omega⟩
    · have hlt : i < rows.length := by
        have := (List.getElem?_eq_some_iff.mp hi).1
        omega
      have hq := List.getElem?_eq_getElem hlt
      have hs : SameNumber rows[i].2 r.2 := by
        refine Classical.byContradiction fun hs => hc ⟨r, hi, Or.inr ⟨rows[i], by simp, hs⟩⟩
      obtain ⟨j, q, h1, h2, h3, h4, h5⟩ := ih rows[i] hq hs.not_nan.1
      refine ⟨j, q, by omega, h2, h3, h4.trans hs, ?_⟩
      intro k hk1 hk2
      by_cases hk : k = i + 1
      · subst hk; exact hc
      · exact h5 k hk1 (by omega)

/-- **C26**: the failures: a missing column is a KeyError. -/
theorem C26_missing (d : Dataset) (field : Str)
    (h : d.data.get? (py! "timestamp") = none ∨ d.data.get? field = none) :
    listValueChanges d field = .error .keyError := by
  unfold listValueChanges dictGet
  rcases h with h | h
  · rw [h]; rfl
  · cases ht : d.data.get? (py! "timestamp") with
    | none => rfl
    | some t => rw [h]; rfl

/-- a column with a zero timestamp, a repeated value, a NaN and zeros of both signs -/
def Sample.changes : Dataset :=
  { multiId := 0, msgId := 1, name := py! "a", tsIdx := 0,
    fields := [⟨py! "timestamp", .u64⟩, ⟨py! "x", .f32⟩],
    data := [(py! "timestamp", [.int 0, .int 1, .int 2, .int 3, .int 4, .int 5, .int 6]),
      (py! "x", [.f32 7, .f32 0x3f800000, .f32 0x3f800000, .f32 0, .f32 0x80000000, .f32 0x7fc00000,
        .f32 0x7fc00000])] }

example : (listValueChanges Sample.changes (py! "x")).toOption
    = some [(.int 1, .f32 0x3f800000), (.int 3, .f32 0), (.int 5, .f32 0x7fc00000),
        (.int 6, .f32 0x7fc00000)] := by decide +kernel

example : ∃ t x, Sample.changes.data.get? (py! "timestamp") = some t ∧
    Sample.changes.data.get? (py! "x") = some x ∧ t.length = x.length ∧
    (∀ v ∈ t, ∃ n, v = .int n) ∧ ∀ v ∈ x, InRange v := by
  refine ⟨_, _, rfl, rfl, rfl, ?_, ?_⟩
  · intro v hv
    simp at hv
    rcases hv with rfl | rfl | rfl | rfl | rfl | rfl | rfl <;> exact ⟨_, rfl⟩
  · intro v hv
    simp at hv
    rcases hv with rfl | rfl | rfl | rfl | rfl <;> simp [InRange]

/-! ### C27 -/

/-- **C27**: the four numbers are the bytes of the 32-bit version, most significant first. -/
theorem C27_version_bytes (u : ULog) (key : Str) (n : Nat) (hn : n < 2 ^ 32)
    (h : u.info.get? key = some (.int n)) :
    ∃ a b c t : Nat, getVersionInfo u key = .ok (some (a, b, c, t)) ∧
      a < 256 ∧ b < 256 ∧ c < 256 ∧ t < 256 ∧ n = a * 2 ^ 24 + b * 2 ^ 16 + c * 2 ^ 8 + t := by
  refine ⟨n / 2 ^ 24 % 256, n / 2 ^ 16 % 256, n / 2 ^ 8 % 256, n % 256, ?_, ?_⟩
  · unfold getVersionInfo
    rw [h]
    simp
  · omega

/-- **C27**: no version without the key. -/
theorem C27_missing (u : ULog) (key : Str) (h : u.info.get? key = none) :
    getVersionInfo u key = .ok none ∧ getVersionInfoStr u key = .ok none := by
  have : getVersionInfo u key = .ok none := by unfold getVersionInfo; rw [h]
  refine ⟨this, ?_⟩
  unfold getVersionInfoStr
  rw [this]
  rfl

/-- **C27**: a value that is no integer is a TypeError. -/
theorem C27_no_integer (u : ULog) (key : Str) (v : Value) (h : u.info.get? key = some v)
    (hv : (∃ s, v = .str s) ∨ (∃ b, v = .bytes b) ∨ ∃ b, v = .float b) :
    getVersionInfo u key = .error .typeError ∧ getVersionInfoStr u key = .error .typeError := by
  have : getVersionInfo u key = .error .typeError := by
    unfold getVersionInfo
    rw [h]
    rcases hv with ⟨s, rfl⟩ | ⟨b, rfl⟩ | ⟨b, rfl⟩ <;> rfl
  refine ⟨this, ?_⟩
  unfold getVersionInfoStr
  rw [this]
  rfl

example : (getVersionInfo { info := [(py! "ver_sw_release", .str (py! "1.14"))] }).toOption = none := by decide

/-- the suffix of a release type -/
def Spec.releaseSuffix (t : Nat) : Option Str :=
  if t ∈ List.range' 0 64 then none
  else if t ∈ List.range' 64 64 then some (py! " (alpha)")
  else if t ∈ List.range' 128 64 then some (py! " (beta)")
  else if t ∈ List.range' 192 63 then some (py! " (RC)")
  else some []

/-- **C27**: the text is `vA.B.C` with the suffix of the release type, none for development versions. -/
theorem C27_version_text (u : ULog) (key : Str) (a b c t : Nat)
    (ha : a < 256) (hb : b < 256) (hc : c < 256) (ht : t < 256)
    (h : u.info.get? key = some (.int (a * 2 ^ 24 + b * 2 ^ 16 + c * 2 ^ 8 + t : Nat))) :
    getVersionInfoStr u key = .ok ((releaseSuffix t).map fun s =>
      py! "v" ++ natDec a ++ py! "." ++ natDec b ++ py! "." ++ natDec c ++ s) := by
  have hv : getVersionInfo u key = .ok (some (a, b, c, t)) := by
    unfold getVersionInfo
    rw [h]
    simp only [Except.ok.injEq, Option.some.injEq, Prod.mk.injEq]
    omega
  have hd : ∀ n : Nat, intDec n = natDec n := by
    intro n
    unfold intDec
    rw [if_neg (by omega)]
    rfl
  unfold getVersionInfoStr
  rw [hv]
  show (if (t : Int) ≥ 64 then _ else _) = _
  unfold releaseSuffix
  simp only [List.mem_range'_1, hd]
  have n0 : (0 ≤ t ∧ t < 0 + 64) = (t < 64) := by rw [eq_iff_iff]; omega
  have i0 : ((t : Int) ≥ 64) = ¬ t < 64 := by rw [eq_iff_iff]; omega
  have i1 : ((t : Int) < 128) = (t < 128) := by rw [eq_iff_iff]; omega
  have i2 : ((t : Int) < 192) = (t < 192) := by rw [eq_iff_iff]; omega
  have i3 : ((t : Int) < 255) = (t < 255) := by rw [eq_iff_iff]; omega
  simp only [n0, i0, i1, i2, i3]
  by_cases h1 : t < 64
  · rw [if_neg (by omega), if_pos h1]; rfl
  · rw [if_pos h1, if_neg h1]
    by_cases h2 : t < 128
    · simp [show 64 ≤ t by omega, h2]
    · by_cases h3 : t < 192
      · simp [h2, h3, show 128 ≤ t by omega]
      · by_cases h4 : t < 255
        · simp [h2, h3, h4, show 192 ≤ t by omega]
        · simp [h2, h3, h4]

example : (getVersionInfoStr { info := [(py! "ver_sw_release", .int 0x010c03ff)] }).toOption
    = some (some (py! "v1.12.3")) := by decide +kernel

example : (getVersionInfoStr { info := [(py! "ver_sw_release", .int 0x010c03c0)] }).toOption
    = some (some (py! "v1.12.3 (RC)")) := by decide +kernel

/-! ### C28 -/

theorem arrayEqual_iff {l r : List NpVal} (hl : ∀ v ∈ l, InRange v) (hr : ∀ v ∈ r, InRange v) :
    arrayEqual l r = true ↔ l.length = r.length ∧ ∀ p ∈ l.zip r, SameOrNaN p.1 p.2 := by
  unfold arrayEqual
  simp only [Bool.and_eq_true, decide_eq_true_eq, List.all_eq_true]
  constructor
  · rintro ⟨⟨h1, h2⟩, h3⟩
    refine ⟨h1, ?_⟩
    intro p hp
    have hnn : npIsNan p.1 = npIsNan p.2 := by
      obtain ⟨k, hk, rfl⟩ := List.mem_iff_getElem.mp hp
      simp only [List.length_zip] at hk
      have a1 : (l.map npIsNan)[k]? = (r.map npIsNan)[k]? := by rw [h2]
      rw [List.getElem?_map, List.getElem?_map, List.getElem?_eq_getElem (by omega),
        List.getElem?_eq_getElem (by omega)] at a1
      simpa using a1
    have m := List.of_mem_zip hp
    cases hn : npIsNan p.1 with
    | true => exact Or.inr ⟨(npIsNan_iff _).mp hn, (npIsNan_iff _).mp (hnn ▸ hn)⟩
    | false =>
      exact Or.inl ((npEq_iff (hl _ m.1) (hr _ m.2)).mp
        (h3 p (List.mem_filter.mpr ⟨hp, by simp [hn]⟩)))
  · rintro ⟨h1, h2⟩
    refine ⟨⟨h1, ?_⟩, ?_⟩
    · apply List.ext_getElem
      · simpa using h1
      · intro k hk hk'
        simp only [List.length_map] at hk hk'
        have hz : k < (l.zip r).length := by simp only [List.length_zip]; omega
        have := h2 _ (List.getElem_mem hz)
        simp only [List.getElem_zip] at this
        simp only [List.getElem_map]
        rw [Bool.eq_iff_iff, npIsNan_iff, npIsNan_iff]
        rcases this with h | ⟨h, h'⟩
        · exact ⟨fun c => absurd c h.not_nan.1, fun c => absurd c h.not_nan.2⟩
        · exact ⟨fun _ => h', fun _ => h⟩
    · intro p hp
      obtain ⟨hp, hn⟩ := List.mem_filter.mp hp
      have m := List.of_mem_zip hp
      rcases h2 p hp with h | ⟨h, _⟩
      · exact (npEq_iff (hl _ m.1) (hr _ m.2)).mpr h
      · rw [← npIsNan_iff] at h
        simp [h] at hn

theorem keysEq_iff {a b : List Str} : keysEq a b = true ↔ ∀ k, k ∈ a ↔ k ∈ b := by
  unfold keysEq
  simp only [Bool.and_eq_true, List.all_eq_true, decide_eq_true_eq]
  exact ⟨fun h k => ⟨h.1 k, h.2 k⟩, fun h => ⟨fun k hk => (h k).mp hk, fun k hk => (h k).mpr hk⟩⟩

theorem vals_inRange {d : Dataset} (h : ColumnsInRange d) : ∀ c ∈ d.data.vals, ∀ v ∈ c, InRange v := by
  intro c hc
  obtain ⟨p, hp, rfl⟩ := List.mem_map.mp hc
  exact h p hp

/-- **C28**: comparing a dataset with an equal copy gives True, whatever it contains. -/
theorem C28_refl (d : Dataset) (h : ColumnsInRange d) : dataEq d d = true := by
  unfold dataEq
  simp only [decide_true, Bool.true_and, Bool.and_eq_true, List.all_eq_true]
  refine ⟨keysEq_iff.mpr fun _ => Iff.rfl, ?_⟩
  intro p hp
  have hm := List.of_mem_zip hp
  have heq : p.1 = p.2 := by
    obtain ⟨k, hk, rfl⟩ := List.mem_iff_getElem.mp hp
    simp
  rw [← heq]
  have hr := vals_inRange h p.1 hm.1
  refine (arrayEqual_iff hr hr).mpr ⟨rfl, ?_⟩
  intro q hq
  have : q.1 = q.2 := by
    obtain ⟨k, hk, rfl⟩ := List.mem_iff_getElem.mp hq
    simp
  rw [this]
  exact SameOrNaN.refl _

theorem zip_swap_mem {l : List α} {r : List β} {p : β × α} (h : p ∈ r.zip l) : (p.2, p.1) ∈ l.zip r := by
  obtain ⟨k, hk, rfl⟩ := List.mem_iff_getElem.mp h
  simp only [List.length_zip] at hk
  have hz : k < (l.zip r).length := by simp only [List.length_zip]; omega
  have := List.getElem_mem hz
  simpa using this

/-- **C28**: the comparison is symmetric. -/
theorem C28_symm (a b : Dataset) (ha : ColumnsInRange a) (hb : ColumnsInRange b) :
    dataEq a b = dataEq b a := by
  have key : ∀ a b : Dataset, ColumnsInRange a → ColumnsInRange b → dataEq a b = true →
      dataEq b a = true := by
    intro a b ha hb h
    unfold dataEq at h ⊢
    simp only [Bool.and_eq_true, decide_eq_true_eq, List.all_eq_true, keysEq_iff] at h ⊢
    obtain ⟨⟨⟨⟨⟨h1, h2⟩, h3⟩, h4⟩, h5⟩, h6, h7⟩ := h
    refine ⟨⟨⟨⟨⟨h1.symm, h2.symm⟩, h3.symm⟩, h4.symm⟩, h5.symm⟩, fun k => (h6 k).symm, ?_⟩
    intro p hp
    have hp' := zip_swap_mem hp
    have m := List.of_mem_zip hp'
    have := (arrayEqual_iff (vals_inRange ha _ m.1) (vals_inRange hb _ m.2)).mp (h7 _ hp')
    refine (arrayEqual_iff (vals_inRange hb _ m.2) (vals_inRange ha _ m.1)).mpr ⟨this.1.symm, ?_⟩
    intro q hq
    exact (this.2 _ (zip_swap_mem hq)).symm
  rw [Bool.eq_iff_iff]
  exact ⟨key a b ha hb, key b a hb ha⟩

/-- what two equal datasets have in common: everything, with the values of the columns compared as
numbers (NaN counts as equal to NaN) -/
def Spec.SameData (a b : Dataset) : Prop :=
  a.multiId = b.multiId ∧ a.msgId = b.msgId ∧ a.name = b.name ∧ a.fields = b.fields ∧
  a.tsIdx = b.tsIdx ∧ a.data.map (·.1) = b.data.map (·.1) ∧
  ∀ p ∈ a.data.zip b.data, p.1.2.length = p.2.2.length ∧ ∀ q ∈ p.1.2.zip p.2.2, SameOrNaN q.1 q.2

/-- **C28**: datasets in field order compare equal exactly when they have the same content. -/
theorem C28_iff_same (a b : Dataset) (ha : ColumnsInRange a) (hb : ColumnsInRange b)
    (fa : FieldOrder a) (fb : FieldOrder b) : dataEq a b = true ↔ SameData a b := by
  unfold dataEq SameData
  simp only [Bool.and_eq_true, decide_eq_true_eq, List.all_eq_true, keysEq_iff]
  have hz : a.data.vals.zip b.data.vals = (a.data.zip b.data).map fun p => (p.1.2, p.2.2) := by
    unfold Dict.vals
    rw [List.zip_map]
    rfl
  have har : ∀ p ∈ a.data.zip b.data, (arrayEqual p.1.2 p.2.2 = true ↔
      p.1.2.length = p.2.2.length ∧ ∀ q ∈ p.1.2.zip p.2.2, SameOrNaN q.1 q.2) := by
    intro p hp
    have m := List.of_mem_zip hp
    exact arrayEqual_iff (ha _ m.1) (hb _ m.2)
  constructor
  · rintro ⟨⟨⟨⟨⟨h1, h2⟩, h3⟩, h4⟩, h5⟩, h6, h7⟩
    refine ⟨h1, h2, h3, h4, h5, by rw [fa, fb, h4], ?_⟩
    intro p hp
    exact (har p hp).mp (h7 (p.1.2, p.2.2) (by rw [hz]; exact List.mem_map.mpr ⟨p, hp, rfl⟩))
  · rintro ⟨h1, h2, h3, h4, h5, h6, h7⟩
    refine ⟨⟨⟨⟨⟨h1, h2⟩, h3⟩, h4⟩, h5⟩, ?_, ?_⟩
    · intro k
      show k ∈ a.data.map (·.1) ↔ k ∈ b.data.map (·.1)
      rw [h6]
    · intro p hp
      rw [hz] at hp
      obtain ⟨q, hq, rfl⟩ := List.mem_map.mp hp
      exact (har q hq).mpr (h7 q hq)

/-- **C28**: for datasets of loaded logs `==` means same content. -/
theorem C28_loaded {fuel fuel' : Nat} {cfg cfg' : Cfg} {bs bs' : Bytes} {u u' : ULog}
    (h : load fuel cfg bs = .ok u) (h' : load fuel' cfg' bs' = .ok u') (a b : Dataset)
    (ha : a ∈ u.dataList) (hb : b ∈ u'.dataList) : dataEq a b = true ↔ SameData a b := by
  obtain ⟨a1, a2, _⟩ := loaded_dataset h ha
  obtain ⟨b1, b2, _⟩ := loaded_dataset h' hb
  exact C28_iff_same a b a2 b2 a1 b1

/-- **C28**, limit: the order of the columns is not checked, so two datasets with the same column
names in a different order compare equal although the columns of the same name differ. -/
theorem C28_order_not_checked : ∃ a b : Dataset, dataEq a b = true ∧
    a.data.get? (py! "x") ≠ b.data.get? (py! "x") :=
  ⟨{ multiId := 0, msgId := 0, name := py! "a", tsIdx := 0, fields := [],
     data := [(py! "x", [.int 1]), (py! "y", [.int 2])] },
   { multiId := 0, msgId := 0, name := py! "a", tsIdx := 0, fields := [],
     data := [(py! "y", [.int 1]), (py! "x", [.int 2])] }, by decide +kernel, by decide +kernel⟩

example : ColumnsInRange Sample.changes ∧ FieldOrder Sample.changes ∧
    dataEq Sample.changes Sample.changes = true := by
  refine ⟨?_, rfl, by decide +kernel⟩
  intro c hc v hv
  simp only [Sample.changes, List.mem_cons, List.not_mem_nil, or_false] at hc
  rcases hc with rfl | rfl
  · simp only [List.mem_cons, List.not_mem_nil, or_false] at hv
    rcases hv with rfl | rfl | rfl | rfl | rfl | rfl | rfl <;> simp [InRange]
  · simp only [List.mem_cons, List.not_mem_nil, or_false] at hv
    rcases hv with rfl | rfl | rfl | rfl | rfl | rfl | rfl <;> simp [InRange]

end PyULog
