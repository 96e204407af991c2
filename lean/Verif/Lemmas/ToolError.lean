import Verif.Spec.ToolError
import Verif.Lemmas.CsvError
import Verif.Lemmas.LoadedFits
import Verif.Props.Tools
import Verif.Props.Info
/-
Lemmas about the exceptions of the tools that list or extract.
-/
namespace PyULog
open Spec

/-- a `map` stops at the first element with an exception -/
theorem mapM_stops {α β : Type} {f : α → Except PyErr β} {l : List α} {e : PyErr} :
    l.mapM f = .error e ↔ ∃ before a after, l = before ++ a :: after ∧ f a = .error e ∧ ∀ x ∈ before, ∃ y, f x = .ok y := by
  induction l with
  | nil =>
    refine ⟨fun h => (by cases h), ?_⟩
    rintro ⟨b, _, _, h, _⟩
    cases b <;> cases h
  | cons x xs ih =>
    rw [List.mapM_cons]
    constructor
    · intro h
      rcases except_bind_error.mp h with h | ⟨y, hy, h⟩
      · exact ⟨[], x, xs, rfl, h, fun _ hx => by cases hx⟩
      · rcases except_bind_error.mp h with h | ⟨ys, _, h⟩
        · obtain ⟨b, a, r, h1, h2, h3⟩ := ih.mp h
          refine ⟨x :: b, a, r, by rw [h1]; rfl, h2, ?_⟩
          intro z hz
          rcases List.mem_cons.mp hz with rfl | hz
          · exact ⟨y, hy⟩
          · exact h3 z hz
        · cases h
    · rintro ⟨b, a, r, h1, h2, h3⟩
      cases b with
      | nil =>
        injection h1 with h1 _
        subst h1
        exact except_bind_error.mpr (.inl h2)
      | cons z b =>
        injection h1 with h1 h4
        subst h1
        obtain ⟨y, hy⟩ := h3 _ (List.mem_cons_self ..)
        refine except_bind_error.mpr (.inr ⟨y, hy, except_bind_error.mpr (.inl ?_)⟩)
        exact ih.mpr ⟨b, a, r, h4, h2, fun x hx => h3 x (List.mem_cons_of_mem _ hx)⟩

/-- with one kind of exception, any element will do -/
theorem mapM_raises {α β : Type} {f : α → Except PyErr β} {l : List α} {k e : PyErr}
    (hf : ∀ a ∈ l, ∀ e', f a = .error e' → e' = k) :
    l.mapM f = .error e ↔ e = k ∧ ∃ a ∈ l, f a = .error k := by
  constructor
  · intro h
    obtain ⟨b, a, r, h1, h2, _⟩ := mapM_stops.mp h
    have hm : a ∈ l := by rw [h1]; simp
    have := hf a hm e h2
    subst this
    exact ⟨rfl, a, hm, h2⟩
  · rintro ⟨rfl, a, hm, h⟩
    exact mapM_one_error hf hm h

/-- the column of a name that no unnamed field can have -/
theorem column_field {d : Dataset} (hd : LoadedData d) {k : Str} (hk : k.head? ≠ some 'f') (hne : k ≠ []) :
    d.data.get? k = none ↔ ∀ f ∈ d.fields, f.name ≠ k := by
  constructor
  · intro h f hf hn
    obtain ⟨n, _, _, hr⟩ := hd.rows
    obtain ⟨col, hc, _⟩ := hr f hf (by rw [hn]; exact hne)
    rw [hn, h] at hc
    cases hc
  · intro h
    cases hc : d.data.get? k with
    | none => rfl
    | some col =>
      obtain ⟨i, f, h1, h2, _⟩ := hd.named k col hc
      exact absurd (columnName_of h2 hk) (h f (List.mem_of_getElem? h1))

theorem dictGet_error {κ α : Type} [DecidableEq κ] {d : Dict κ α} {k : κ} {e : PyErr} :
    dictGet d k = .error e ↔ e = .keyError ∧ d.get? k = none := by
  unfold dictGet
  cases h : d.get? k with
  | none => constructor
            · intro h; injection h with h; exact ⟨h.symm, rfl⟩
            · rintro ⟨rfl, _⟩; rfl
  | some v => exact ⟨fun h => (by cases h), fun ⟨_, h⟩ => (by cases h)⟩

/-- a loop whose steps raise for reasons that do not depend on what was collected -/
theorem foldlM_raises {α β : Type} {f : β → α → Except PyErr β} {P : α → Prop} {l : List α} {k e : PyErr}
    (hf : ∀ b, ∀ a ∈ l, ∀ e', f b a = .error e' ↔ e' = k ∧ P a) (b : β) :
    l.foldlM f b = .error e ↔ e = k ∧ ∃ a ∈ l, P a := by
  induction l generalizing b with
  | nil => exact ⟨fun h => (by cases h), fun ⟨_, _, h, _⟩ => (by cases h)⟩
  | cons a l ih =>
    rw [List.foldlM_cons]
    have hl := fun b => ih (fun b' a' h' => hf b' a' (List.mem_cons_of_mem _ h')) b
    constructor
    · intro h
      rcases except_bind_error.mp h with h | ⟨b', _, h⟩
      · obtain ⟨h1, h2⟩ := (hf b a (List.mem_cons_self ..) e).mp h
        exact ⟨h1, a, List.mem_cons_self .., h2⟩
      · obtain ⟨h1, a', h2, h3⟩ := (hl b').mp h
        exact ⟨h1, a', List.mem_cons_of_mem _ h2, h3⟩
    · rintro ⟨rfl, a', h2, h3⟩
      rcases List.mem_cons.mp h2 with rfl | h2
      · exact except_bind_error.mpr (.inl ((hf b a' (List.mem_cons_self ..) _).mpr ⟨rfl, h3⟩))
      · cases hb : f b a with
        | error e' =>
          obtain ⟨rfl, _⟩ := (hf b a (List.mem_cons_self ..) e').mp hb
          rfl
        | ok b' =>
          exact (hl b').mpr ⟨rfl, a', h2, h3⟩

/-- a byte of a column of type uint8_t -/
theorem u8_value {v : NpVal} (h : Typed .u8 v) : ∃ n : Nat, n < 256 ∧ v = .int n := by
  obtain ⟨b, _, rfl⟩ := h
  exact ⟨_, leAt_lt b 0 1, rfl⟩

theorem integer_value {t : BT} {v : NpVal} (h1 : t ≠ .f32) (h2 : t ≠ .f64) (h : Typed t v) : ∃ n : Int, v = .int n := by
  obtain ⟨b, _, rfl⟩ := h
  cases t <;> first | exact absurd rfl h1 | exact absurd rfl h2 | exact ⟨_, rfl⟩

/-- the values of a column of a name that no unnamed field can have are of the type of a field of this name -/
theorem column_typed {d : Dataset} (hd : LoadedData d) {k : Str} {col : List NpVal} (hk : k.head? ≠ some 'f')
    (h : d.data.get? k = some col) : ∃ f ∈ d.fields, f.name = k ∧ ∀ v ∈ col, Typed f.type v := by
  obtain ⟨i, f, h1, h2, h3⟩ := hd.named k col h
  exact ⟨f, List.mem_of_getElem? h1, columnName_of h2 hk, h3⟩

theorem elemName_data (k : Nat) : (elemName (py! "data") k).head? ≠ some 'f' ∧ elemName (py! "data") k ≠ [] := by
  constructor
  · exact fun h => by cases h
  · exact fun h => by cases h

/-- fields of a loaded dataset with the same name are the same -/
theorem field_unique {d : Dataset} (hd : LoadedData d) {f g : FieldData} (hf : f ∈ d.fields) (hg : g ∈ d.fields)
    (hn : f.name = g.name) (h0 : f.name ≠ []) : f = g := by
  obtain ⟨i, hi, rfl⟩ := List.mem_iff_getElem.mp hf
  obtain ⟨j, hj, rfl⟩ := List.mem_iff_getElem.mp hg
  have hlen : (columnNames d.fields).length = d.fields.length := by unfold columnNames; simp
  have hat : ∀ k (hk : k < d.fields.length), d.fields[k].name ≠ [] →
      (columnNames d.fields)[k]'(by omega) = d.fields[k].name := by
    intro k hk hne
    unfold columnNames
    simp only [List.getElem_map, List.getElem_zipIdx, Nat.zero_add]
    exact columnName_named _ hne
  have hij : i = j := by
    refine (List.getElem_inj (xs := columnNames d.fields) (h₀ := by omega) (h₁ := by omega) hd.unique).mp ?_
    rw [hat i hi h0, hat j hj (hn ▸ h0), hn]
  subst hij
  rfl

/-- the fields of the name of a column have one type, which the values have -/
theorem column_fieldOf {d : Dataset} (hd : LoadedData d) {k : Str} {col : List NpVal} (hk : k.head? ≠ some 'f') (h0 : k ≠ [])
    (h : d.data.get? k = some col) : ∃ t, FieldOf d k t ∧ ∀ v ∈ col, Typed t v := by
  obtain ⟨f, hf, h1, h2⟩ := column_typed hd hk h
  refine ⟨f.type, ⟨⟨f, hf, h1⟩, ?_⟩, h2⟩
  intro g hg hgn
  rw [field_unique hd hg hf (hgn.trans h1.symm) (by rw [hgn]; exact h0)]

/-- the elements of a row of a loaded dataset can be read exactly if all columns are there -/
theorem gpsBytes_error {d : Dataset} (hd : LoadedData d) {n i len : Nat}
    (hn : ∀ c ∈ d.data, c.2.length = n) (hi : i < n) {e : PyErr} :
    gpsBytes d i len = .error e ↔ e = .keyError ∧ ∃ k ∈ List.range len, ∀ f ∈ d.fields, f.name ≠ elemName (py! "data") k := by
  have hstep : ∀ k e', gpsElem d i k = .error e' ↔ e' = .keyError ∧ ∀ f ∈ d.fields, f.name ≠ elemName (py! "data") k := by
    intro k e'
    have hname : py! "data[" ++ natDec k ++ py! "]" = elemName (py! "data") k := rfl
    rw [← column_field hd (elemName_data k).1 (elemName_data k).2]
    cases hc : d.data.get? (elemName (py! "data") k) with
    | none =>
      unfold gpsElem
      rw [hname]
      dsimp only
      rw [dictGet_error.mpr ⟨rfl, hc⟩]
      exact ⟨fun h => (by cases h; exact ⟨rfl, rfl⟩), fun ⟨h, _⟩ => (by subst h; rfl)⟩
    | some col =>
      obtain ⟨t, h1, h2⟩ := column_fieldOf hd (elemName_data k).1 (elemName_data k).2 hc
      have hl : i < col.length := by
        have := hn _ (Dict.mem_of_get? _ _ _ hc)
        dsimp only at this
        omega
      obtain ⟨b, hb, hv⟩ := h2 col[i] (List.getElem_mem hl)
      rw [gpsElem_spec h1 hb hc (by rw [List.getElem?_eq_getElem hl, hv])]
      exact ⟨fun h => (by cases h), fun ⟨_, h⟩ => (by cases h)⟩
  unfold gpsBytes
  rw [except_map_error]
  constructor
  · intro h
    obtain ⟨h1, k, h2, h3⟩ := (mapM_raises (k := .keyError) fun k _ e' h => ((hstep k e').mp h).1).mp h
    exact ⟨h1, k, h2, ((hstep k _).mp h3).2⟩
  · rintro ⟨rfl, k, h2, h3⟩
    exact (mapM_raises (k := .keyError) fun k _ e' h => ((hstep k e').mp h).1).mpr ⟨rfl, k, h2, (hstep k _).mpr ⟨rfl, h3⟩⟩

/-- the instance of a row is a number, and decides -/
theorem instance_value {d : Dataset} (hd : LoadedData d) (ht : ∀ f ∈ d.fields, f.name = py! "instance" → f.type ≠ .f32 ∧ f.type ≠ .f64)
    {n i : Nat} {lens : List NpVal} {required : Int} (hn : ∀ c ∈ d.data, c.2.length = n) (hi : i < n) (hll : lens.length = n) :
    ∃ v, ((d.data.get? (py! "instance")).getD (List.replicate lens.length (.int 0)))[i]? = some (.int v) ∧
      (v = required ↔ OfInstance d required i) := by
  cases hc : d.data.get? (py! "instance") with
  | none =>
    refine ⟨0, ?_, ?_⟩
    · show (List.replicate lens.length (NpVal.int 0))[i]? = _
      rw [List.getElem?_replicate, if_pos (by omega)]
    · have hno := (column_field hd (k := py! "instance") (by decide) (by decide)).mp hc
      constructor
      · rintro rfl
        exact .inr ⟨hno, rfl⟩
      · rintro (⟨col, h, _⟩ | ⟨_, h⟩)
        · rw [hc] at h; cases h
        · exact h.symm
  | some col =>
    obtain ⟨f, hf, h1, h2⟩ := column_typed hd (k := py! "instance") (by decide) hc
    have hcl : col.length = n := hn _ (Dict.mem_of_get? _ _ _ hc)
    obtain ⟨t1, t2⟩ := ht f hf h1
    obtain ⟨v, hv⟩ := integer_value t1 t2 (h2 col[i] (List.getElem_mem (by omega)))
    have hgv : col[i]? = some (.int v) := by rw [List.getElem?_eq_getElem (by omega), hv]
    refine ⟨v, hgv, ?_⟩
    constructor
    · rintro rfl
      exact .inl ⟨col, hc, hgv⟩
    · rintro (⟨col', h, h'⟩ | ⟨h, _⟩)
      · rw [hc] at h
        injection h with h
        subst h
        rw [hgv] at h'
        injection h' with h'
        injection h' with h'
      · exact absurd h1 (h f hf)

/-- a step of the loop with a float for the length -/
theorem gpsStep_float {d : Dataset} (hd : LoadedData d)
    (ht : ∀ f ∈ d.fields, (f.name = py! "len" → f.type = .f32 ∨ f.type = .f64) ∧ (f.name = py! "instance" → f.type ≠ .f32 ∧ f.type ≠ .f64))
    {n i : Nat} {lens : List NpVal} {required : Int}
    (hn : ∀ c ∈ d.data, c.2.length = n) (hi : i < n) (hl : d.data.get? (py! "len") = some lens) {files : Bytes × Bytes} {e : PyErr} :
    gpsStep d lens ((d.data.get? (py! "instance")).getD (List.replicate lens.length (.int 0))) required files i = .error e ↔
      e = .typeError ∧ OfInstance d required i := by
  have hll : lens.length = n := hn _ (Dict.mem_of_get? _ _ _ hl)
  obtain ⟨f, hf, h1, h2⟩ := column_typed hd (k := py! "len") (by decide) hl
  have hg : lens[i]? = some lens[i] := List.getElem?_eq_getElem (by omega)
  have hte : ∀ t, gpsLen t lens[i] = .error .typeError := by
    intro t
    obtain ⟨b, _, hv⟩ := h2 lens[i] (List.getElem_mem (by omega))
    rw [hv]
    rcases (ht f hf).1 h1 with h | h <;> rw [h] <;> rfl
  obtain ⟨v, hv1, hv2⟩ := instance_value (required := required) hd (fun f hf => (ht f hf).2) hn hi hll
  unfold gpsStep
  rw [pyIndex_iff.mpr hv1, pyIndex_iff.mpr hg]
  rw [ok_bind, ok_bind, npEqInt_int]
  by_cases hr : v = required
  · rw [if_pos (by simp [hr]), hte]
    exact ⟨fun h => (by cases h; exact ⟨rfl, hv2.mp hr⟩), fun ⟨h, _⟩ => (by subst h; rfl)⟩
  · rw [if_neg (by simpa using hr)]
    exact ⟨fun h => (by cases h), fun ⟨_, h⟩ => absurd (hv2.mpr h) hr⟩

/-- a step of the loop -/
theorem gpsStep_error {d : Dataset} (hd : LoadedData d) (ht : GpsTypes d) {n i : Nat} {lens : List NpVal} {required : Int}
    (hn : ∀ c ∈ d.data, c.2.length = n) (hi : i < n) (hl : d.data.get? (py! "len") = some lens) {files : Bytes × Bytes} {e : PyErr} :
    gpsStep d lens ((d.data.get? (py! "instance")).getD (List.replicate lens.length (.int 0))) required files i = .error e ↔
      e = .keyError ∧ OfInstance d required i ∧ ∃ k : Nat, ∃ m : Int, ReadAt d (py! "len") i (.int m) ∧ (k : Int) < m % 128 ∧
        ∀ f ∈ d.fields, f.name ≠ elemName (py! "data") k := by
  have hll : lens.length = n := hn _ (Dict.mem_of_get? _ _ _ hl)
  obtain ⟨f, hf, h1, h2⟩ := column_typed hd (k := py! "len") (by decide) hl
  rw [(ht f hf).1 h1] at h2
  have hlt : FieldOf d (py! "len") .u8 := ⟨⟨f, hf, h1⟩, fun g hg hgn => (ht g hg).1 hgn⟩
  obtain ⟨m, hm, hv⟩ := u8_value (h2 lens[i] (List.getElem_mem (by omega)))
  have hg : lens[i]? = some (.int m) := by rw [List.getElem?_eq_getElem (by omega), hv]
  have hread : ∀ m' : Int, ReadAt d (py! "len") i (.int m') ↔ m' = m := by
    intro m'
    constructor
    · rintro ⟨col, hc, h⟩
      rw [hl] at hc
      injection hc with hc
      subst hc
      rw [hg] at h
      injection h with h
      injection h with h
      exact h.symm
    · rintro rfl
      exact ⟨lens, hl, hg⟩
  obtain ⟨v, hv1, hv2⟩ := instance_value (required := required) hd (fun f hf => (ht f hf).2) hn hi hll
  have hmod : (if m / 128 % 2 = 1 then m % 128 else m) = m % 128 := by
    split <;> omega
  unfold gpsStep
  rw [pyIndex_iff.mpr hv1, pyIndex_iff.mpr hg]
  rw [ok_bind, ok_bind, npEqInt_int]
  by_cases hr : v = required
  · rw [if_pos (by simp [hr])]
    rw [gpsLen_u8 hlt hm, ok_bind]
    have key : gpsBytes d i (m % 128) = .error e ↔ e = .keyError ∧ OfInstance d required i ∧ ∃ k : Nat, ∃ m : Int,
        ReadAt d (py! "len") i (.int m) ∧ (k : Int) < m % 128 ∧ ∀ f ∈ d.fields, f.name ≠ elemName (py! "data") k := by
      rw [gpsBytes_error hd hn hi]
      constructor
      · rintro ⟨rfl, k, hk, h⟩
        have := List.mem_range.mp hk
        exact ⟨rfl, hv2.mp hr, k, m, (hread _).mpr rfl, by omega, h⟩
      · rintro ⟨rfl, _, k, m', h1, h2, h3⟩
        have := (hread _).mp h1
        subst this
        exact ⟨rfl, k, List.mem_range.mpr (by omega), h3⟩
    have hb : ∀ {g : Bytes → Except PyErr (Bytes × Bytes)} {len : Nat}, (∀ bs, ∃ r, g bs = .ok r) →
        ((gpsBytes d i len >>= g) = .error e ↔ gpsBytes d i len = .error e) := by
      intro g len hgood
      constructor
      · intro h
        rcases except_bind_error.mp h with h | ⟨bs, _, h⟩
        · exact h
        · obtain ⟨r, hr⟩ := hgood bs
          rw [hr] at h
          cases h
      · intro h
        exact except_bind_error.mpr (.inl h)
    split
    · rw [hb fun bs => ⟨_, rfl⟩]
      exact key
    · rename_i h
      rw [hb fun bs => ⟨_, rfl⟩]
      have : m % 128 = m := by omega
      rw [this] at key
      exact key
  · rw [if_neg (by simp [hr])]
    constructor
    · intro h; cases h
    · rintro ⟨_, h, _⟩
      exact absurd (hv2.mpr h) hr

end PyULog
