import Verif.Spec.Args
import Verif.Lemmas.Basic
import Verif.Lemmas.Digits
import Verif.Props.FormatText
import Verif.Lemmas.Errors
/-
How the model of `parse_args` treats each kind of word.
-/
namespace PyULog
open Spec

/-! ### option strings -/

theorem table_keys (d : CliDecl) : d.table.keys = optionNames d := by
  unfold CliDecl.table Dict.keys optionNames
  rw [List.flatMap_cons, List.map_append, List.map_flatMap, List.flatMap_def]
  have h : ∀ o : OptDecl, List.map Prod.fst (o.names.map fun n => (n, o)) = o.names := by
    intro o
    rw [List.map_map]
    simp [Function.comp_def]
  simp only [h]
  rfl

theorem table_mem {d : CliDecl} {n : Str} {o : OptDecl} :
    (n, o) ∈ d.table ↔ (o = helpOpt ∨ o ∈ d.opts) ∧ n ∈ o.names := by
  unfold CliDecl.table
  simp only [List.mem_flatMap, List.mem_cons, List.mem_map, Prod.mk.injEq]
  constructor
  · rintro ⟨x, hx, m, hm, rfl, rfl⟩
    exact ⟨hx, hm⟩
  · rintro ⟨hx, hm⟩
    exact ⟨o, hx, n, hm, rfl, rfl⟩

theorem table_get {d : CliDecl} (hd : Orderly d) {n : Str} {o : OptDecl} (ho : o = helpOpt ∨ o ∈ d.opts) (hn : n ∈ o.names) :
    d.table.get? n = some o :=
  Dict.get?_of_mem _ _ _ (by rw [table_keys]; exact hd.distinct) (table_mem.mpr ⟨ho, hn⟩)

theorem names_mem {d : CliDecl} {n : Str} {o : OptDecl} (ho : o ∈ d.opts) (hn : n ∈ o.names) : n ∈ optionNames d := by
  unfold optionNames
  refine List.mem_cons_of_mem _ (List.mem_cons_of_mem _ ?_)
  exact List.mem_flatten.mpr ⟨_, List.mem_map.mpr ⟨o, ho, rfl⟩, hn⟩

theorem table_none {d : CliDecl} {n : Str} (h : n ∉ optionNames d) : d.table.get? n = none := by
  rw [Dict.get?_eq_none_iff, table_keys]
  exact h

theorem table_name {d : CliDecl} {m : Str × OptDecl} (h : m ∈ d.table) : m.1 ∈ optionNames d := by
  rw [← table_keys]
  exact List.mem_map.mpr ⟨m, h, rfl⟩

/-- the only element with a property -/
theorem filterMap_single {α β : Type} {f : α → Option β} {l : List α} {a : α} {b : β} (hm : a ∈ l) (hf : f a = some b)
    (hn : l.Nodup) (ho : ∀ x ∈ l, x ≠ a → f x = none) : l.filterMap f = [b] := by
  induction l with
  | nil => cases hm
  | cons y l ih =>
    rw [List.nodup_cons] at hn
    by_cases hy : y = a
    · subst hy
      rw [List.filterMap_cons, hf]
      dsimp only
      have : l.filterMap f = [] := by
        rw [List.filterMap_eq_nil_iff]
        intro x hx
        exact ho x (List.mem_cons_of_mem _ hx) (fun e => hn.1 (e ▸ hx))
      rw [this]
    · rw [List.filterMap_cons, ho y (List.mem_cons_self ..) hy]
      exact ih ((List.mem_cons.mp hm).resolve_left fun e => hy e.symm) hn.2 fun x hx => ho x (List.mem_cons_of_mem _ hx)

theorem nodup_of_keys {κ α : Type} {d : Dict κ α} (h : (d.map (·.1)).Nodup) : List.Nodup d := by
  rw [List.nodup_iff_pairwise_ne, List.pairwise_map] at h
  rw [List.nodup_iff_pairwise_ne]
  exact h.imp fun hne e => hne (by rw [e])

theorem table_nodup {d : CliDecl} (hd : Orderly d) : List.Nodup d.table := by
  apply nodup_of_keys
  have := table_keys d
  unfold Dict.keys at this
  rw [this]
  exact hd.distinct

theorem table_key_eq {d : CliDecl} (hd : Orderly d) {m m' : Str × OptDecl} (h : m ∈ d.table) (h' : m' ∈ d.table)
    (he : m.1 = m'.1) : m = m' := by
  have h1 := Dict.get?_of_mem _ m.1 m.2 (by rw [table_keys]; exact hd.distinct) h
  have h2 := Dict.get?_of_mem _ m'.1 m'.2 (by rw [table_keys]; exact hd.distinct) h'
  rw [← he, h1] at h2
  exact Prod.ext he (Option.some.inj h2)

theorem pre_iff (p s : Str) : startsWith p s = true ↔ p <+: s := by
  unfold startsWith
  exact List.isPrefixOf_iff_prefix

theorem letter_ne {c : Char} (h : AsciiLetter c) : c ≠ '-' ∧ c ≠ '=' ∧ isDig c = false := by
  have h1 : c ≠ '-' := by rintro rfl; revert h; decide
  have h2 : c ≠ '=' := by rintro rfl; revert h; decide
  refine ⟨h1, h2, ?_⟩
  have all : ∀ n : Fin 128, AsciiLetter (Char.ofNat n) → isDig (Char.ofNat n) = false := by decide +kernel
  have hc : c.toNat < 128 := by unfold AsciiLetter at h; omega
  have := all ⟨c.toNat, hc⟩
  rw [Char.ofNat_toNat] at this
  exact this h

/-! ### words -/

theorem partitionEq_none {s : Str} (h : '=' ∉ s) : partitionEq s = (s, false, []) := by
  have h1 : ∀ l : Str, '=' ∉ l → l.takeWhile (fun c => decide (c ≠ '=')) = l ∧ l.dropWhile (fun c => decide (c ≠ '=')) = [] := by
    intro l
    induction l with
    | nil => intro _; exact ⟨rfl, rfl⟩
    | cons c l ih =>
      intro hl
      rw [List.mem_cons, not_or] at hl
      obtain ⟨a, b⟩ := ih hl.2
      have hc : decide (c ≠ '=') = true := by simpa using fun e => hl.1 e.symm
      rw [List.takeWhile_cons, List.dropWhile_cons, if_pos hc, if_pos hc, a, b]
      exact ⟨rfl, rfl⟩
  unfold partitionEq
  rw [(h1 s h).1, (h1 s h).2]
  rfl

theorem partitionEq_some {s v : Str} (h : '=' ∉ s) : partitionEq (s ++ '=' :: v) = (s, true, v) := by
  have hc : ∀ c ∈ s, decide (c ≠ '=') = true := by
    intro c hc
    simp only [ne_eq, decide_eq_true_eq]
    rintro rfl
    exact h hc
  unfold partitionEq
  rw [List.takeWhile_append_of_pos hc, List.dropWhile_append_of_pos hc,
    List.takeWhile_cons_of_neg (by decide), List.dropWhile_cons_of_neg (by decide), List.append_nil]
  rfl

/-- the first two characters of an option string -/
theorem shape_cases {d : CliDecl} (hd : Orderly d) {n : Str} (h : n ∈ optionNames d) :
    ∃ c r, n = '-' :: c :: r ∧ (AsciiLetter c ∨ (c = '-' ∧ r ≠ [])) := by
  obtain ⟨_, h2, h3⟩ := hd.shape n h
  cases n with
  | nil => cases h2
  | cons x n =>
    have : x = '-' := by simpa using h2
    subst this
    cases n with
    | nil =>
      rcases h3 with ⟨c, hc, _⟩ | ⟨h, _⟩
      · cases hc
      · cases h
    | cons c r =>
      refine ⟨c, r, rfl, ?_⟩
      rcases h3 with ⟨c', hc, hl⟩ | ⟨h, hl⟩
      · have : c = c' := by simpa using hc
        exact .inl (this ▸ hl)
      · refine .inr ⟨by simpa using h, ?_⟩
        rintro rfl
        simp at hl

theorem parse_exact {d : CliDecl} (hd : Orderly d) {o : OptDecl} (ho : o = helpOpt ∨ o ∈ d.opts) {s : Str} (hs : s ∈ o.names)
    (hm : s ∈ optionNames d) : parseOptional d s = .ok (some ⟨some o, s, false, none⟩) := by
  obtain ⟨c, r, rfl, _⟩ := shape_cases hd hm
  unfold parseOptional
  rw [if_neg (by simp), if_neg (by simp [startsWith]), table_get hd ho hs]

/-- a word of a dash and digits is no beginning of an option string, and the other way round -/
theorem digits_apart {d : CliDecl} (hd : Orderly d) {n : Str} (h : n ∈ optionNames d) {x : Char} (hx : isDig x = true) {r : Str} :
    ¬ ['-', x] <+: n ∧ n ≠ '-' :: x :: r := by
  obtain ⟨c, r', rfl, hc⟩ := shape_cases hd h
  have hne : c ≠ x := by
    rintro rfl
    rcases hc with hc | ⟨rfl, _⟩
    · rw [(letter_ne hc).2.2] at hx; cases hx
    · revert hx; decide
  constructor
  · rintro ⟨t, ht⟩
    injection ht with _ ht
    injection ht with ht _
    exact hne ht.symm
  · intro he
    injection he with _ he
    injection he with he _
    exact hne he

theorem negativeNumber_digits {x : Char} {ds : Str} (h : ∀ c ∈ x :: ds, isDig c = true) :
    negativeNumber ('-' :: x :: ds) = true := by
  have hb : beforeEnd ('-' :: x :: ds) = '-' :: x :: ds := by
    unfold beforeEnd
    split
    · next r hr =>
      have : '\n' ∈ ('-' :: x :: ds).reverse := by rw [hr]; simp
      rw [List.mem_reverse, List.mem_cons] at this
      rcases this with h1 | h1
      · exact absurd h1 (by decide)
      · exact absurd (h _ h1) (by decide)
    · rfl
  have ht : ∀ l : Str, (∀ c ∈ l, isDig c = true) → l.takeWhile isDig = l ∧ l.dropWhile isDig = [] := by
    intro l
    induction l with
    | nil => intro _; exact ⟨rfl, rfl⟩
    | cons c l ih =>
      intro hl
      obtain ⟨a, b⟩ := ih fun y hy => hl y (List.mem_cons_of_mem _ hy)
      rw [List.takeWhile_cons, List.dropWhile_cons, if_pos (hl c (List.mem_cons_self ..)),
        if_pos (hl c (List.mem_cons_self ..)), a, b]
      exact ⟨rfl, rfl⟩
  unfold negativeNumber
  rw [hb]
  show (match (x :: ds).dropWhile isDig with
    | [] => !((x :: ds).takeWhile isDig).isEmpty
    | '.' :: f => !f.isEmpty && f.all isDig
    | _ => false) = true
  rw [(ht _ h).1, (ht _ h).2]
  rfl

/-- words that no option string begins with -/
theorem parse_foreign {d : CliDecl} {w : Str} (h : Foreign d w) : parseOptional d w =
    if negativeNumber w then .ok none else if ' ' ∈ w then .ok none else .ok (some ⟨none, w, false, none⟩) := by
  obtain ⟨c, r, rfl, h2, hp⟩ := h
  have hno : '-' :: c :: r ∉ optionNames d := by
    intro hm
    refine hp _ hm (List.takeWhile_prefix _)
  have hpart : ∀ b, partitionEq ('-' :: c :: r) = b → d.table.get? b.1 = none := by
    rintro b rfl
    refine table_none fun hm => hp _ hm ?_
    exact List.prefix_refl _
  have htup : optionTuples d ('-' :: c :: r) = [] := by
    unfold optionTuples
    split
    · dsimp only
      rw [List.filterMap_eq_nil_iff]
      intro m hm
      rw [if_neg]
      rw [pre_iff]
      exact hp _ (table_name hm)
    · rw [List.filterMap_eq_nil_iff]
      intro m hm
      rw [if_neg (fun he => h2 (by have := table_name hm; rw [he] at this; exact this)), if_neg]
      rw [pre_iff]
      intro hpre
      exact hp _ (table_name hm) ((List.takeWhile_prefix _).trans hpre)
  have hnone : (if (partitionEq ('-' :: c :: r)).2.1 then d.table.get? (partitionEq ('-' :: c :: r)).1 else none) = none := by
    rw [hpart _ rfl]
    split <;> rfl
  unfold parseOptional
  rw [if_neg (by simp), if_neg (by simp [startsWith]), table_none hno]
  dsimp only
  rw [if_neg (by simp), hnone, htup]

/-- words that do not look like an option -/
theorem parse_plain {d : CliDecl} (hd : Orderly d) {s : Str} (h : PlainWord d s) : parseOptional d s = .ok none := by
  by_cases hsp : ' ' ∈ s ∧ Foreign d s
  · rw [parse_foreign hsp.2, if_pos hsp.1, ite_self]
  unfold parseOptional
  by_cases he : s = []
  · rw [if_pos he]
  rw [if_neg he]
  cases s with
  | nil => exact absurd rfl he
  | cons c r =>
    by_cases hc : c = '-'
    · subst hc
      rw [if_neg (by simp [startsWith])]
      rcases h with h | h | ⟨ds, h, hne, hds⟩ | h
      rotate_left 3
      · exact absurd h hsp
      · exact absurd rfl h
      · have : r = [] := by simpa using h
        subst this
        rw [table_none]
        · rfl
        · intro hm
          obtain ⟨_, _, h, _⟩ := shape_cases hd hm
          cases h
      · injection h with _ h
        subst h
        obtain ⟨x, ds, rfl⟩ := List.exists_cons_of_ne_nil hne
        have hdig : ∀ y ∈ x :: ds, isDig y = true := by
          intro y hy
          unfold isDig
          obtain ⟨k, hk⟩ := hds y hy
          rw [digit_iff.mpr hk]
          rfl
        have hx := hdig x (List.mem_cons_self ..)
        have hxd : x ≠ '-' := by rintro rfl; revert hx; decide
        have heq : '=' ∉ '-' :: x :: ds := by
          intro hm
          rcases List.mem_cons.mp hm with h1 | h1
          · exact absurd h1 (by decide)
          · exact absurd (hdig _ h1) (by decide)
        rw [table_none fun hm => (digits_apart hd hm hx (r := ds)).2 rfl]
        dsimp only
        rw [if_neg (by simp), partitionEq_none heq]
        dsimp only
        have ho : optionTuples d ('-' :: x :: ds) = [] := by
          unfold optionTuples
          have hs : ¬ startsWith (py! "--") ('-' :: x :: ds) = true := by
            rw [pre_iff]
            rintro ⟨t, ht⟩
            injection ht with _ ht
            injection ht with ht _
            exact hxd ht.symm
          rw [if_neg hs, List.filterMap_eq_nil_iff]
          intro m hm
          have := digits_apart hd (table_name hm) hx (r := [])
          rw [if_neg (show ¬ m.1 = List.take 2 ('-' :: x :: ds) from this.2), if_neg]
          rw [pre_iff]
          intro hp
          exact this.1 (List.IsPrefix.trans ⟨ds, rfl⟩ hp)
        rw [ho]
        dsimp only
        rw [negativeNumber_digits hdig]
        rfl
    · have hs : startsWith (py! "-") (c :: r) = false := by
        rw [Bool.eq_false_iff]
        intro hs
        obtain ⟨t, ht⟩ := (pre_iff _ _).mp hs
        injection ht with ht _
        exact hc ht.symm
      rw [hs]
      rfl

/-- the beginning of one option string with two dashes -/
theorem tuples_long {d : CliDecl} (hd : Orderly d) {o : OptDecl} (ho : o ∈ d.opts) {s n : Str} (hn : n ∈ o.names)
    (h2 : py! "--" <+: s) (he : '=' ∉ s) (hp : s <+: n) (hu : ∀ m ∈ optionNames d, s <+: m → m = n) :
    optionTuples d s = [⟨some o, n, false, none⟩] ∧ ∀ v, optionTuples d (s ++ '=' :: v) = [⟨some o, n, true, some v⟩] := by
  have hmem : (n, o) ∈ d.table := table_mem.mpr ⟨.inr ho, hn⟩
  have hother : ∀ m ∈ d.table, m ≠ (n, o) → ¬ startsWith s m.1 = true := by
    intro m hm hne hs
    rw [pre_iff] at hs
    exact hne (table_key_eq hd hm hmem (hu m.1 (table_name hm) hs))
  constructor
  · unfold optionTuples
    rw [if_pos ((pre_iff _ _).mpr h2), partitionEq_none he]
    dsimp only
    refine filterMap_single hmem ?_ (table_nodup hd) ?_
    · rw [if_pos ((pre_iff _ _).mpr hp)]
      rfl
    · intro m hm hne
      rw [if_neg (hother m hm hne)]
  · intro v
    unfold optionTuples
    rw [if_pos ((pre_iff _ _).mpr (h2.trans ⟨_, rfl⟩)), partitionEq_some he]
    dsimp only
    refine filterMap_single hmem ?_ (table_nodup hd) ?_
    · rw [if_pos ((pre_iff _ _).mpr hp)]
      rfl
    · intro m hm hne
      rw [if_neg (hother m hm hne)]

theorem two_dashes {s : Str} (h : py! "--" <+: s) : s ≠ [] ∧ startsWith (py! "-") s = true := by
  obtain ⟨t, rfl⟩ := h
  exact ⟨by simp, by simp [startsWith]⟩

/-- an option string or its beginning -/
theorem parse_spelled {d : CliDecl} (hd : Orderly d) {o : OptDecl} (ho : o ∈ d.opts) {s : Str} (h : Spelled d s o) :
    ∃ n, parseOptional d s = .ok (some ⟨some o, n, false, none⟩) := by
  rcases h with h | ⟨n, hn, h2, h3, he, hp, hu⟩
  · exact ⟨s, parse_exact hd (.inr ho) h (names_mem ho h)⟩
  · by_cases hm : s ∈ optionNames d
    · have : s = n := hu s hm (List.prefix_refl s)
      subst this
      exact ⟨s, parse_exact hd (.inr ho) hn hm⟩
    · refine ⟨n, ?_⟩
      unfold parseOptional
      rw [if_neg (two_dashes h2).1, (two_dashes h2).2, table_none hm]
      dsimp only
      rw [if_neg (by decide), if_neg (by omega), partitionEq_none he]
      dsimp only
      rw [if_neg (by decide), (tuples_long hd ho hn h2 he hp hu).1]

/-- an option string or its beginning, with a value behind a `=` -/
theorem parse_equals {d : CliDecl} (hd : Orderly d) {o : OptDecl} (ho : o ∈ d.opts) {s : Str} (h : Spelled d s o) (v : Str) :
    ∃ n, parseOptional d (s ++ '=' :: v) = .ok (some ⟨some o, n, true, some v⟩) := by
  have hno : s ++ '=' :: v ∉ optionNames d := by
    intro hm
    exact (hd.shape _ hm).1 (by simp)
  have key : s ≠ [] → '=' ∉ s → startsWith (py! "-") s = true → (s ∈ optionNames d → s ∈ o.names) →
      (s ∉ optionNames d → ∃ n, optionTuples d (s ++ '=' :: v) = [⟨some o, n, true, some v⟩]) →
      ∃ n, parseOptional d (s ++ '=' :: v) = .ok (some ⟨some o, n, true, some v⟩) := by
    intro hne he hst h1 h2
    have hst' : startsWith (py! "-") (s ++ '=' :: v) = true := (pre_iff _ _).mpr (((pre_iff _ _).mp hst).trans ⟨_, rfl⟩)
    have hlen : ¬ (s ++ '=' :: v).length = 1 := by
      have := List.length_pos_iff.mpr hne
      simp only [List.length_append, List.length_cons]
      omega
    by_cases hm : s ∈ optionNames d
    · refine ⟨s, ?_⟩
      unfold parseOptional
      rw [if_neg (by simp), hst', table_none hno]
      dsimp only
      rw [if_neg (by decide), if_neg hlen, partitionEq_some he]
      dsimp only
      rw [if_pos rfl, table_get hd (.inr ho) (h1 hm)]
    · obtain ⟨n, hn⟩ := h2 hm
      refine ⟨n, ?_⟩
      unfold parseOptional
      rw [if_neg (by simp), hst', table_none hno]
      dsimp only
      rw [if_neg (by decide), if_neg hlen, partitionEq_some he]
      dsimp only
      rw [if_pos rfl, table_none hm, hn]
  rcases h with h | ⟨n, hn, h2, h3, he, hp, hu⟩
  · have hm := names_mem ho h
    obtain ⟨c, r, rfl, _⟩ := shape_cases hd hm
    exact key (by simp) (hd.shape _ hm).1 (by simp [startsWith]) (fun _ => h) fun hx => absurd hm hx
  · refine key (two_dashes h2).1 he (two_dashes h2).2 ?_ fun _ => ⟨n, (tuples_long hd ho hn h2 he hp hu).2 v⟩
    intro hm
    rw [hu s hm (List.prefix_refl s)]
    exact hn

/-- what follows the letter of an option -/
def explOf (e : Str) : Bool × Option Str :=
  match e with
  | [] => (false, none)
  | '=' :: v => (true, some v)
  | _ => (false, some e)

/-- a dash and the letter of an option -/
theorem parse_short {d : CliDecl} (hd : Orderly d) {o : OptDecl} (ho : o ∈ d.opts) {c : Char} (h : ['-', c] ∈ o.names) (e : Str) :
    parseOptional d ('-' :: c :: e) = .ok (some ⟨some o, ['-', c], (explOf e).1, (explOf e).2⟩) := by
  have hm := names_mem ho h
  have hshort := hd.short _ hm rfl
  by_cases he : e = []
  · subst he
    exact parse_exact hd (.inr ho) h hm
  have hc : AsciiLetter c := by
    obtain ⟨c', r, h1, h2⟩ := shape_cases hd hm
    injection h1 with _ h1
    injection h1 with h1 h3
    subst h1
    rcases h2 with h2 | ⟨_, h2⟩
    · exact h2
    · exact absurd h3.symm h2
  obtain ⟨hc1, hc2, _⟩ := letter_ne hc
  have hlong : ∀ t, t ≠ [] → '-' :: c :: t ∉ optionNames d := by
    intro t ht hx
    have := hshort _ hx ⟨t, rfl⟩
    injection this with _ this
    injection this with _ this
    exact ht this
  have hno := hlong e he
  unfold parseOptional
  rw [if_neg (by simp), if_neg (by simp [startsWith]), table_none hno]
  dsimp only
  rw [if_neg (by simp)]
  by_cases hq : e.head? = some '='
  · obtain ⟨v, rfl⟩ : ∃ v, e = '=' :: v := by
      cases e with
      | nil => cases hq
      | cons x v => exact ⟨v, by rw [show x = '=' by simpa using hq]⟩
    have : partitionEq ('-' :: c :: '=' :: v) = (['-', c], true, v) :=
      partitionEq_some (s := ['-', c]) (by
        intro hx
        simp only [List.mem_cons, List.not_mem_nil, or_false] at hx
        rcases hx with hx | hx
        · exact absurd hx (by decide)
        · exact hc2 hx.symm)
    rw [this]
    dsimp only
    rw [if_pos rfl, table_get hd (.inr ho) h]
    rfl
  · have hexpl : explOf e = (false, some e) := by
      unfold explOf
      split
      · exact absurd rfl he
      · exact absurd rfl hq
      · rfl
    have hpart : (if (partitionEq ('-' :: c :: e)).2.1 = true then d.table.get? (partitionEq ('-' :: c :: e)).1 else none) = none := by
      split
      · apply table_none
        have : (partitionEq ('-' :: c :: e)).1 = '-' :: c :: e.takeWhile (fun c => decide (c ≠ '=')) := by
          unfold partitionEq
          dsimp only
          rw [List.takeWhile_cons, if_pos (by decide), List.takeWhile_cons, if_pos (by simpa using hc2)]
        rw [this]
        apply hlong
        cases e with
        | nil => exact absurd rfl he
        | cons x e =>
          rw [List.takeWhile_cons, if_pos]
          · simp
          · simpa using hq
      · rfl
    rw [hpart]
    dsimp only
    have htup : optionTuples d ('-' :: c :: e) = [⟨some o, ['-', c], false, some e⟩] := by
      unfold optionTuples
      have hs : ¬ startsWith (py! "--") ('-' :: c :: e) = true := by
        rw [pre_iff]
        rintro ⟨t, ht⟩
        injection ht with _ ht
        injection ht with ht _
        exact hc1 ht.symm
      rw [if_neg hs]
      have hmem : (['-', c], o) ∈ d.table := table_mem.mpr ⟨.inr ho, h⟩
      refine filterMap_single hmem ?_ (table_nodup hd) ?_
      · rw [if_pos (show (['-', c], o).1 = List.take 2 ('-' :: c :: e) from rfl)]
        rfl
      · intro m hm' hne
        have h1 : ¬ m.1 = ['-', c] := fun hx => hne (table_key_eq hd hm' hmem hx)
        rw [if_neg (show ¬ m.1 = List.take 2 ('-' :: c :: e) from h1), if_neg]
        rw [pre_iff]
        intro hp
        exact h1 (hshort _ (table_name hm') (List.IsPrefix.trans ⟨e, rfl⟩ hp))
    rw [htup, hexpl]

/-! ### actions -/

theorem exit_bind {a : α} {f : α → Except Nat β} : (Except.ok a >>= f) = f a := rfl

theorem exit_bind_ok {x : Except Nat α} {f : α → Except Nat β} {b : β} :
    (x >>= f) = .ok b ↔ ∃ a, x = .ok a ∧ f a = .ok b := by
  cases x <;> simp [bind, Except.bind]

theorem convert_reads {isDir : Str → Bool} {t : ArgType} {s : Str} {x : ArgVal} (h : ValueOf isDir t s x) :
    convertArg isDir t s = .ok x := by
  cases h with
  | text => rfl
  | int h =>
    unfold convertArg
    dsimp only
    rw [(C61_int _ _).mpr h]
  | dir h =>
    unfold convertArg
    dsimp only
    rw [if_pos h]

theorem takeOpt_store {isDir : Str → Bool} {o : OptDecl} {t : ArgType} {s : Str} {x : ArgVal} (ha : o.action = .store t)
    (h : ValueOf isDir t s x) (ns : Dict Str ArgVal) : takeOpt isDir ns (o, [s]) = .ok (ns.set o.dest x) := by
  unfold takeOpt
  rw [ha]
  dsimp only
  rw [convert_reads h]
  rfl

theorem takeOpt_flag {isDir : Str → Bool} {o : OptDecl} (ha : o.action = .storeTrue) (l : List Str)
    (ns : Dict Str ArgVal) : takeOpt isDir ns (o, l) = .ok (ns.set o.dest (.bool true)) := by
  unfold takeOpt
  rw [ha]

theorem takes_store {o : OptDecl} {t : ArgType} (h : o.action = .store t) : o.takes = true := by
  unfold OptDecl.takes; rw [h]

theorem takes_flag {o : OptDecl} (h : o.action = .storeTrue) : o.takes = false := by
  unfold OptDecl.takes; rw [h]

/-- the options of a list are set one after the other -/
def setAll (l : List (OptDecl × ArgVal)) (ns : Dict Str ArgVal) : Dict Str ArgVal :=
  l.foldl (fun ns p => ns.set p.1.dest p.2) ns

theorem optActions_none {d : CliDecl} {rest : List Tok} {fuel : Nat} {o : OptDecl} {name : Str} {sep : Bool} :
    optActions d rest fuel o name sep none = if o.takes then
      (match rest with
      | .arg s :: r => .ok ([(o, [s])], [], r)
      | _ => .error 2)
    else .ok ([(o, [])], [], rest) := by
  unfold optActions
  rfl

theorem optActions_takes {d : CliDecl} {rest : List Tok} {fuel : Nat} {o : OptDecl} {name : Str} {sep : Bool} {e : Str}
    (h : o.takes = true) : optActions d rest fuel o name sep (some e) = .ok ([(o, [e])], [], rest) := by
  unfold optActions
  rw [if_pos h]

theorem optActions_more {d : CliDecl} {rest : List Tok} {fuel : Nat} {o o' : OptDecl} {c c' : Char} {e : Str}
    (h : o.takes = false) (hc : c ≠ '-') (hc' : c' ≠ '-') (hg : d.table.get? ['-', c'] = some o') :
    optActions d rest (fuel + 1) o ['-', c] false (some (c' :: e)) =
      (optActions d rest fuel o' ['-', c'] (explOf e).1 (explOf e).2).map fun x => ((o, []) :: x.1, x.2) := by
  have hs : startsWith (py! "--") ['-', c] = false := by
    rw [Bool.eq_false_iff]
    intro hs
    obtain ⟨t, ht⟩ := (pre_iff _ _).mp hs
    injection ht with _ ht
    injection ht with ht _
    exact hc ht.symm
  rw [optActions, if_neg (by rw [h]; decide), if_neg (by rw [hs]; decide)]
  dsimp only
  rw [if_neg (by simpa using hc'), hg]
  dsimp only
  have hm : ∀ y : Except Nat (List (OptDecl × List Str) × List Str × List Tok),
      (y >>= fun x => .ok ((o, []) :: x.1, x.2)) = y.map fun x => ((o, []) :: x.1, x.2) := by
    intro y; cases y <;> rfl
  split
  · exact hm _
  · exact hm _
  · next h1 h2 =>
    have : explOf e = (false, some e) := by
      unfold explOf
      split
      · exact absurd rfl h1
      · exact absurd rfl (h2 _)
      · rfl
    rw [this]
    exact hm _

/-- the length of an explicit argument -/
def explLen (e : Option Str) : Nat := match e with | some e => e.length | none => 0

theorem explLen_le (e : Str) : explLen (explOf e).2 ≤ e.length := by
  unfold explOf
  split <;> simp [explLen]

/-- the actions of a bundle, the words behind it being arguments -/
theorem bundle_actions {d : CliDecl} (hd : Orderly d) {isDir : Str → Bool} {b : Str} {w : Option Str}
    {l : List (OptDecl × ArgVal)} (h : Bundle d isDir b w l) :
    ∃ c e o, b = c :: e ∧ o ∈ d.opts ∧ ['-', c] ∈ o.names ∧ ∀ fuel, explLen (explOf e).2 ≤ fuel → ∀ rest, ∃ acts,
      optActions d (w.toList.map Tok.arg ++ rest) fuel o ['-', c] (explOf e).1 (explOf e).2 = .ok (acts, [], rest) ∧
      ∀ ns, acts.foldlM (takeOpt isDir) ns = .ok (setAll l ns) := by
  have hlet : ∀ {o : OptDecl} {c : Char}, o ∈ d.opts → ['-', c] ∈ o.names → c ≠ '-' ∧ c ≠ '=' := by
    intro o c ho hn
    obtain ⟨c', r, h1, h2⟩ := shape_cases hd (names_mem ho hn)
    injection h1 with _ h1
    injection h1 with h1 h3
    subst h1
    rcases h2 with h2 | ⟨_, h2⟩
    · exact ⟨(letter_ne h2).1, (letter_ne h2).2.1⟩
    · exact absurd h3.symm h2
  induction h with
  | @flag o c ho hn ha =>
    refine ⟨c, [], o, rfl, ho, hn, fun fuel _ rest => ⟨[(o, [])], ?_, fun ns => ?_⟩⟩
    · show optActions d _ fuel o _ _ none = _
      rw [optActions_none, if_neg (by rw [takes_flag ha]; decide)]
      rfl
    · show (takeOpt isDir ns (o, [])) >>= _ = _
      rw [takeOpt_flag ha]
      rfl
  | @attached o c t v x ho hn ha hv hq hr =>
    refine ⟨c, v, o, rfl, ho, hn, fun fuel _ rest => ⟨[(o, [v])], ?_, fun ns => ?_⟩⟩
    · have : explOf v = (false, some v) := by
        unfold explOf
        split
        · exact absurd rfl hv
        · exact absurd rfl hq
        · rfl
      rw [this]
      exact optActions_takes (takes_store ha)
    · show (takeOpt isDir ns (o, [v])) >>= _ = _
      rw [takeOpt_store ha hr]
      rfl
  | @equals o c t v x ho hn ha hr =>
    refine ⟨c, '=' :: v, o, rfl, ho, hn, fun fuel _ rest => ⟨[(o, [v])], ?_, fun ns => ?_⟩⟩
    · exact optActions_takes (takes_store ha)
    · show (takeOpt isDir ns (o, [v])) >>= _ = _
      rw [takeOpt_store ha hr]
      rfl
  | @next o c t v x ho hn ha hp hr =>
    refine ⟨c, [], o, rfl, ho, hn, fun fuel _ rest => ⟨[(o, [v])], ?_, fun ns => ?_⟩⟩
    · show optActions d (.arg v :: rest) fuel o _ _ none = _
      rw [optActions_none, if_pos (takes_store ha)]
    · show (takeOpt isDir ns (o, [v])) >>= _ = _
      rw [takeOpt_store ha hr]
      rfl
  | @more o c b w l ho hn ha hb ih =>
    obtain ⟨c', e, o', rfl, ho', hn', hact⟩ := ih
    have hx : explOf (c' :: e) = (false, some (c' :: e)) := by
      unfold explOf
      split
      · next hx => cases hx
      · next hx => injection hx with hx _; exact absurd hx (hlet ho' hn').2
      · rfl
    refine ⟨c, c' :: e, o, rfl, ho, hn, fun fuel hf rest => ?_⟩
    rw [hx] at hf
    have hf : e.length + 1 ≤ fuel := hf
    obtain ⟨fuel, rfl⟩ : ∃ k, fuel = k + 1 := ⟨fuel - 1, by omega⟩
    obtain ⟨acts, h1, h2⟩ := hact fuel (by have := explLen_le e; omega) rest
    refine ⟨(o, []) :: acts, ?_, fun ns => ?_⟩
    · rw [hx]
      dsimp only
      rw [optActions_more (takes_flag ha) (hlet ho hn).1 (hlet ho' hn').1 (table_get hd (.inr ho') hn'), h1]
      rfl
    · rw [List.foldlM_cons, takeOpt_flag ha, exit_bind, h2]
      rfl

/-! ### the loop -/

theorem posMatch_len {opt : Bool} {ts r : List Tok} {a : List Str} (h : posMatch opt ts = some (a, r)) :
    r.length ≤ ts.length := by
  unfold posMatch at h
  have hd : ∀ l : List Tok, (l.dropWhile Tok.isDash).length ≤ l.length := fun l => (List.dropWhile_sublist _).length_le
  dsimp only at h
  split at h
  · next s r' hr =>
    have h1 := hd ts
    rw [hr] at h1
    have h2 := hd r'
    injection h with h
    injection h with _ h
    subst h
    simp only [List.length_cons] at h1
    omega
  · split at h
    · injection h with h
      injection h with _ h
      subst h
      exact hd ts
    · cases h

theorem optActions_len {d : CliDecl} {rest : List Tok} : ∀ {fuel : Nat} {o : OptDecl} {name : Str} {sep : Bool}
    {e : Option Str} {x : List (OptDecl × List Str) × List Str × List Tok},
    optActions d rest fuel o name sep e = .ok x → x.2.2.length ≤ rest.length := by
  have hnone : ∀ {fuel : Nat} {o : OptDecl} {name : Str} {sep : Bool}
      {x : List (OptDecl × List Str) × List Str × List Tok},
      optActions d rest fuel o name sep none = .ok x → x.2.2.length ≤ rest.length := by
    intro fuel o name sep x h
    rw [optActions_none] at h
    split at h
    · cases rest with
      | nil => cases h
      | cons t r =>
        cases t <;> cases h
        simp
    · cases h; exact Nat.le_refl _
  intro fuel
  induction fuel with
  | zero =>
    intro o name sep e x h
    cases e with
    | none => exact hnone h
    | some e =>
      unfold optActions at h
      split at h
      · cases h; exact Nat.le_refl _
      · split at h
        · cases h
        · cases e <;> cases h
  | succ fuel ih =>
    intro o name sep e x h
    cases e with
    | none => exact hnone h
    | some e =>
      unfold optActions at h
      split at h
      · cases h; exact Nat.le_refl _
      · split at h
        · cases h
        · cases e with
          | nil => cases h
          | cons c e =>
            dsimp only at h
            split at h
            · cases h
            · split at h
              · cases h; exact Nat.le_refl _
              · split at h <;>
                  (obtain ⟨y, hy, h⟩ := exit_bind_ok.mp h
                   cases h
                   have := ih hy
                   exact this)

theorem consumeOpt_len {d : CliDecl} {isDir : Str → Bool} {st : ArgSt} {s : Str} {f : Found} {rest : List Tok}
    {x : ArgSt × List Tok} (h : consumeOpt d isDir st s f rest = .ok x) : x.2.length ≤ rest.length := by
  unfold consumeOpt at h
  split at h
  · cases h; exact Nat.le_refl _
  · obtain ⟨y, hy, h⟩ := exit_bind_ok.mp h
    obtain ⟨ns, _, h⟩ := exit_bind_ok.mp h
    cases h
    exact optActions_len hy

theorem argLoop_opt {d : CliDecl} {isDir : Str → Bool} {n : Nat} {s : Str} {f : Found} {rest : List Tok} {st : ArgSt} :
    argLoop d isDir (n + 1) (.opt s f :: rest) st
      = consumeOpt d isDir st s f rest >>= fun x => argLoop d isDir n x.2 x.1 := rfl

theorem argLoop_end {d : CliDecl} {isDir : Str → Bool} {n : Nat} {ts : List Tok} {st : ArgSt}
    (h : ts.any Tok.isOpt = false) : argLoop d isDir (n + 1) ts st
      = .ok { (consumePos st ts).1 with extras := (consumePos st ts).1.extras ++ (consumePos st ts).2.map Tok.text } := by
  unfold argLoop
  rw [if_neg (by rw [h]; decide)]

theorem argLoop_arg {d : CliDecl} {isDir : Str → Bool} {n : Nat} {t : Tok} {rest : List Tok} {st : ArgSt}
    (ht : t.isOpt = false) (h : (t :: rest).any Tok.isOpt = true) : argLoop d isDir (n + 1) (t :: rest) st
      = if (consumePos st (t :: rest)).2.length < (t :: rest).length then
          argLoop d isDir n (consumePos st (t :: rest)).2 (consumePos st (t :: rest)).1
        else
          match (t :: rest).dropWhile fun t => !t.isOpt with
          | .opt s f :: rest' =>
            consumeOpt d isDir { (consumePos st (t :: rest)).1 with
                extras := (consumePos st (t :: rest)).1.extras ++ ((t :: rest).takeWhile fun t => !t.isOpt).map Tok.text }
              s f rest' >>= fun x => argLoop d isDir n x.2 x.1
          | _ => .ok (consumePos st (t :: rest)).1 := by
  conv => lhs; unfold argLoop
  rw [if_pos h]
  cases t with
  | opt s f => cases ht
  | arg s => rfl
  | dash => rfl

/-- more fuel than strings makes no difference -/
theorem argLoop_fuel {d : CliDecl} {isDir : Str → Bool} : ∀ {n m : Nat} {ts : List Tok} {st : ArgSt},
    ts.length < n → ts.length < m → argLoop d isDir n ts st = argLoop d isDir m ts st := by
  intro n
  induction n with
  | zero => intro m ts st h _; exact absurd h (Nat.not_lt_zero _)
  | succ n ih =>
    intro m ts st h h'
    obtain ⟨m, rfl⟩ : ∃ k, m = k + 1 := ⟨m - 1, by omega⟩
    have hbind : ∀ {st s f rest}, rest.length < n → rest.length < m →
        (consumeOpt d isDir st s f rest >>= fun x => argLoop d isDir n x.2 x.1)
          = consumeOpt d isDir st s f rest >>= fun x => argLoop d isDir m x.2 x.1 := by
      intro st s f rest h1 h2
      cases hc : consumeOpt d isDir st s f rest with
      | error e => rfl
      | ok x =>
        have := consumeOpt_len hc
        rw [exit_bind, exit_bind]
        exact ih (by omega) (by omega)
    cases hany : ts.any Tok.isOpt with
    | false => rw [argLoop_end hany, argLoop_end hany]
    | true =>
      cases ts with
      | nil => cases hany
      | cons t rest =>
        cases ht : t.isOpt with
        | true =>
          cases t with
          | arg s => cases ht
          | dash => cases ht
          | opt s f =>
            simp only [List.length_cons] at h h'
            rw [argLoop_opt, argLoop_opt]
            exact hbind (by omega) (by omega)
        | false =>
          rw [argLoop_arg ht hany, argLoop_arg ht hany]
          split
          · exact ih (by omega) (by omega)
          · split
            · next s f r hr =>
              have := (List.dropWhile_sublist (fun t : Tok => !t.isOpt) (l := t :: rest)).length_le
              rw [hr] at this
              simp only [List.length_cons] at this h h'
              exact hbind (by omega) (by omega)
            · rfl

/-- the loop with enough fuel -/
def argRun (d : CliDecl) (isDir : Str → Bool) (ts : List Tok) (st : ArgSt) : Except Nat ArgSt :=
  argLoop d isDir (ts.length + 1) ts st

theorem argRun_opt {d : CliDecl} {isDir : Str → Bool} {s : Str} {f : Found} {rest : List Tok} {st : ArgSt} :
    argRun d isDir (.opt s f :: rest) st
      = consumeOpt d isDir st s f rest >>= fun x => argRun d isDir x.2 x.1 := by
  unfold argRun
  rw [argLoop_opt]
  cases hc : consumeOpt d isDir st s f rest with
  | error e => rfl
  | ok x =>
    have := consumeOpt_len hc
    rw [exit_bind, exit_bind]
    exact argLoop_fuel (by simp only [List.length_cons]; omega) (by omega)

theorem argRun_end {d : CliDecl} {isDir : Str → Bool} {ts : List Tok} {st : ArgSt} (h : ts.any Tok.isOpt = false) :
    argRun d isDir ts st
      = .ok { (consumePos st ts).1 with extras := (consumePos st ts).1.extras ++ (consumePos st ts).2.map Tok.text } :=
  argLoop_end h

/-- positional arguments are taken when the first string is none of an option but one follows -/
theorem argRun_pos {d : CliDecl} {isDir : Str → Bool} {t : Tok} {rest : List Tok} {st : ArgSt} (ht : t.isOpt = false)
    (h : (t :: rest).any Tok.isOpt = true) (hl : (consumePos st (t :: rest)).2.length < (t :: rest).length) :
    argRun d isDir (t :: rest) st = argRun d isDir (consumePos st (t :: rest)).2 (consumePos st (t :: rest)).1 := by
  unfold argRun
  rw [argLoop_arg ht h, if_pos hl]
  exact argLoop_fuel hl (by omega)

/-! ### lines -/

theorem plain_dash {d : CliDecl} {s : Str} (h : PlainWord d s) : s ≠ py! "--" := by
  rintro rfl
  rcases h with h | h | ⟨ds, h, _, hd⟩ | ⟨h, _⟩
  · exact h rfl
  · cases h
  · injection h with _ h
    subst h
    obtain ⟨k, hk⟩ := hd '-' (List.mem_singleton.mpr rfl)
    have : isDig '-' = true := by
      unfold isDig
      rw [digit_iff.mpr hk]
      rfl
    exact absurd this (by decide)
  · exact absurd h (by decide)

theorem classify_plain {d : CliDecl} (hd : Orderly d) {s : Str} (h : PlainWord d s) (ws : List Str) :
    classify d (s :: ws) = (classify d ws).map fun ts => .arg s :: ts := by
  rw [classify, if_neg (plain_dash h), parse_plain hd h, exit_bind]
  cases classify d ws <;> rfl

theorem classify_found {d : CliDecl} {s : Str} {f : Found} (h : parseOptional d s = .ok (some f)) (hs : s ≠ py! "--")
    (ws : List Str) : classify d (s :: ws) = (classify d ws).map fun ts => .opt s f :: ts := by
  rw [classify, if_neg hs, h, exit_bind]
  cases classify d ws <;> rfl

theorem classify_plains {d : CliDecl} (hd : Orderly d) {fs : List Str} (h : ∀ s ∈ fs, PlainWord d s) (ws : List Str) :
    classify d (fs ++ ws) = (classify d ws).map fun ts => fs.map Tok.arg ++ ts := by
  induction fs with
  | nil => cases h : classify d ws <;> simp [Except.map, h]
  | cons s fs ih =>
    rw [List.cons_append, classify_plain hd (h s List.mem_cons_self), ih fun x hx => h x (List.mem_cons_of_mem _ hx)]
    cases classify d ws <;> rfl

theorem spelled_dash {d : CliDecl} (hd : Orderly d) {o : OptDecl} (ho : o ∈ d.opts) {s : Str} (h : Spelled d s o) :
    s ≠ py! "--" ∧ s ≠ [] := by
  rcases h with h | ⟨n, _, _, h3, _⟩
  · obtain ⟨c, r, rfl, h2⟩ := shape_cases hd (names_mem ho h)
    refine ⟨?_, by simp⟩
    intro he
    injection he with _ he
    injection he with hc hr
    rcases h2 with h2 | ⟨_, h2⟩
    · exact (letter_ne h2).1 hc
    · exact h2 hr
  · constructor <;> (rintro rfl; revert h3; decide)

theorem flag_found {d : CliDecl} {isDir : Str → Bool} {o : OptDecl} (ha : o.action = .storeTrue) (s n : Str) (st : ArgSt)
    (r : List Tok) : consumeOpt d isDir st s ⟨some o, n, false, none⟩ r
      = .ok ({ st with ns := setAll [(o, .bool true)] st.ns }, r) := by
  unfold consumeOpt
  dsimp only
  rw [optActions_none, if_neg (by rw [takes_flag ha]; decide), exit_bind, List.foldlM_cons, takeOpt_flag ha, exit_bind,
    List.foldlM_nil]
  show Except.ok _ = _
  simp only [List.append_nil]
  rfl

theorem value_found {d : CliDecl} {isDir : Str → Bool} {o : OptDecl} {t : ArgType} (ha : o.action = .store t) {v : Str}
    {x : ArgVal} (hr : ValueOf isDir t v x) (s n : Str) (st : ArgSt)
    (r : List Tok) : consumeOpt d isDir st s ⟨some o, n, false, none⟩ (.arg v :: r)
      = .ok ({ st with ns := setAll [(o, x)] st.ns }, r) := by
  unfold consumeOpt
  dsimp only
  rw [optActions_none, if_pos (takes_store ha)]
  dsimp only
  rw [exit_bind, List.foldlM_cons, takeOpt_store ha hr, exit_bind, List.foldlM_nil]
  show Except.ok _ = _
  simp only [List.append_nil]
  rfl

theorem equals_found {d : CliDecl} {isDir : Str → Bool} {o : OptDecl} {t : ArgType} (ha : o.action = .store t) {v : Str}
    {x : ArgVal} (hr : ValueOf isDir t v x) (s n : Str) (st : ArgSt)
    (r : List Tok) : consumeOpt d isDir st s ⟨some o, n, true, some v⟩ r
      = .ok ({ st with ns := setAll [(o, x)] st.ns }, r) := by
  unfold consumeOpt
  dsimp only
  rw [optActions_takes (takes_store ha), exit_bind, List.foldlM_cons, takeOpt_store ha hr, exit_bind, List.foldlM_nil]
  show Except.ok _ = _
  simp only [List.append_nil]
  rfl

/-- the words of an option become an option and arguments, which set the values -/
theorem says_tokens {d : CliDecl} (hd : Orderly d) {isDir : Str → Bool} {w : List Str} {l : List (OptDecl × ArgVal)}
    (h : Says d isDir w l) : ∃ (s : Str) (f : Found) (as : List Str), (∀ ws, classify d (w ++ ws) = (classify d ws).map fun ts => .opt s f :: (as.map Tok.arg ++ ts)) ∧
      ∀ st r, consumeOpt d isDir st s f (as.map Tok.arg ++ r) = .ok ({ st with ns := setAll l st.ns }, r) := by
  cases h with
  | @bundle b w l h =>
    have hw : ∀ v ∈ w.toList, PlainWord d v := by
      clear hd
      induction h with
      | flag => intro v hv; cases hv
      | attached => intro v hv; cases hv
      | equals => intro v hv; cases hv
      | next _ _ _ hp _ => intro v hv; rw [List.mem_singleton.mp hv]; exact hp
      | more _ _ _ _ ih => exact ih
    obtain ⟨c, e, o, rfl, ho, hn, hact⟩ := bundle_actions hd h
    have hp := parse_short hd ho hn e
    refine ⟨'-' :: c :: e, ⟨some o, ['-', c], (explOf e).1, (explOf e).2⟩, w.toList, fun ws => ?_, fun st r => ?_⟩
    · rw [List.cons_append, classify_found hp, classify_plains hd hw]
      · cases classify d ws <;> rfl
      · intro he
        injection he with _ he
        injection he with he _
        subst he
        obtain ⟨c', r, h1, h2⟩ := shape_cases hd (names_mem ho hn)
        injection h1 with _ h1
        injection h1 with h1 h3
        subst h1
        rcases h2 with h2 | ⟨_, h2⟩
        · exact (letter_ne h2).1 rfl
        · exact h2 h3.symm
    · unfold consumeOpt
      dsimp only
      obtain ⟨acts, h1, h2⟩ := hact (explLen (explOf e).2) (Nat.le_refl _) r
      refine exit_bind_ok.mpr ⟨_, h1, ?_⟩
      dsimp only
      rw [h2, exit_bind, List.append_nil]
  | @flag o s ho hs ha =>
    obtain ⟨n, hp⟩ := parse_spelled hd ho hs
    refine ⟨s, ⟨some o, n, false, none⟩, [], fun ws => ?_, fun st r => flag_found ha _ _ _ _⟩
    exact classify_found hp (spelled_dash hd ho hs).1 ws
  | @value o s t v x ho hs ha hv hr =>
    obtain ⟨n, hp⟩ := parse_spelled hd ho hs
    refine ⟨s, ⟨some o, n, false, none⟩, [v], fun ws => ?_, fun st r => value_found ha hr _ _ _ _⟩
    rw [List.cons_append, classify_found hp (spelled_dash hd ho hs).1, List.cons_append, List.nil_append, classify_plain hd hv]
    cases classify d ws <;> rfl
  | @equals o s t v x ho hs ha hr =>
    obtain ⟨n, hp⟩ := parse_equals hd ho hs v
    refine ⟨s ++ '=' :: v, ⟨some o, n, true, some v⟩, [], fun ws => ?_, fun st r => equals_found ha hr _ _ _ _⟩
    refine classify_found hp ?_ ws
    intro he
    have : '=' ∈ s ++ '=' :: v := by simp
    rw [he] at this
    revert this
    decide

theorem setAll_append (l m : List (OptDecl × ArgVal)) (ns : Dict Str ArgVal) : setAll (l ++ m) ns = setAll m (setAll l ns) :=
  List.foldl_append

/-- the words of a line are read as options that set their values -/
theorem line_tokens {d : CliDecl} (hd : Orderly d) {isDir : Str → Bool} {w : List Str} {l : List (OptDecl × ArgVal)}
    (h : Line d isDir w l) : ∃ ts, (∀ ws, classify d (w ++ ws) = (classify d ws).map fun us => ts ++ us) ∧
      (w ≠ [] → ∃ t ts', ts = t :: ts' ∧ t.isOpt = true) ∧ (w = [] → ts = []) ∧
      ∀ st r, argRun d isDir (ts ++ r) st = argRun d isDir r { st with ns := setAll l st.ns } := by
  induction h with
  | nil =>
    refine ⟨[], fun ws => ?_, fun h => absurd rfl h, fun _ => rfl, fun st r => rfl⟩
    cases h : classify d ws <;> simp [Except.map, h]
  | @cons w l ws ls hs _ ih =>
    obtain ⟨s, f, as, h1, h2⟩ := says_tokens hd hs
    obtain ⟨ts, h3, h4, h5, h6⟩ := ih
    refine ⟨.opt s f :: (as.map Tok.arg ++ ts), fun vs => ?_, fun _ => ⟨_, _, rfl, rfl⟩, fun he => ?_, fun st r => ?_⟩
    · rw [List.append_assoc, h1, h3]
      cases classify d vs with
      | error e => rfl
      | ok us => simp [Except.map]
    · exfalso
      have := (List.append_eq_nil_iff.mp he).1
      subst this
      cases hs
    · rw [List.cons_append, argRun_opt, List.append_assoc, h2, exit_bind, h6, setAll_append]

/-! ### file names -/

/-- the arguments without options get the file names in turn -/
def setPos : List PosDecl → List Str → Dict Str ArgVal → Dict Str ArgVal
  | [], _, ns => ns
  | p :: ps, [], ns => setPos ps [] (ns.set p.dest .none)
  | p :: ps, f :: fs, ns => setPos ps fs (ns.set p.dest (.str f))

/-- what follows file names: the end of the line or an option -/
def StopsHere (r : List Tok) : Prop := ∀ t, r.head? = some t → t.isOpt = true

theorem stops_dash {r : List Tok} (h : StopsHere r) : r.takeWhile Tok.isDash = [] ∧ r.dropWhile Tok.isDash = r := by
  cases r with
  | nil => exact ⟨rfl, rfl⟩
  | cons t r =>
    have := h t rfl
    cases t with
    | opt s f => exact ⟨rfl, rfl⟩
    | arg s => cases this
    | dash => cases this

theorem args_dash {fs : List Str} {r : List Tok} (h : StopsHere r) :
    (fs.map Tok.arg ++ r).takeWhile Tok.isDash = [] ∧ (fs.map Tok.arg ++ r).dropWhile Tok.isDash = fs.map Tok.arg ++ r := by
  cases fs with
  | nil => exact stops_dash h
  | cons f fs => exact ⟨rfl, rfl⟩

theorem posMatch_arg {opt : Bool} {f : Str} {fs : List Str} {r : List Tok} (h : StopsHere r) :
    posMatch opt ((f :: fs).map Tok.arg ++ r) = some ([f], fs.map Tok.arg ++ r) := by
  unfold posMatch
  dsimp only
  rw [show List.dropWhile Tok.isDash ((f :: fs).map Tok.arg ++ r) = .arg f :: (fs.map Tok.arg ++ r) from rfl,
    show List.takeWhile Tok.isDash ((f :: fs).map Tok.arg ++ r) = [] from rfl]
  dsimp only
  rw [(args_dash h).1, (args_dash h).2]
  rfl

theorem posMatch_stop {opt : Bool} {r : List Tok} (h : StopsHere r) :
    posMatch opt r = if opt then some ([], r) else none := by
  unfold posMatch
  dsimp only
  rw [(stops_dash h).1, (stops_dash h).2]
  cases r with
  | nil => rfl
  | cons t r =>
    have := h t rfl
    cases t with
    | opt s f => rfl
    | arg s => cases this
    | dash => cases this

theorem takePos_none {p : PosDecl} (h : p.opt = true) (ns : Dict Str ArgVal) : takePos ns (p, []) = ns.set p.dest .none := by
  unfold takePos
  dsimp only
  rw [show ([] : List Str).erase (py! "--") = [] from rfl]
  dsimp only
  rw [if_pos h]

theorem takePos_one {p : PosDecl} {f : Str} (h : f ≠ py! "--") (ns : Dict Str ArgVal) :
    takePos ns (p, [f]) = ns.set p.dest (.str f) := by
  unfold takePos
  dsimp only
  rw [List.erase_cons_tail (by simpa using h)]
  rfl

theorem takePos_dash {p : PosDecl} {f : Str} (ns : Dict Str ArgVal) :
    takePos ns (p, [py! "--", f]) = ns.set p.dest (.str f) := by
  unfold takePos
  dsimp only
  rw [List.erase_cons_head]

/-- the optional arguments that are left get nothing -/
theorem match_rest {ps : List PosDecl} (hp : ∀ p ∈ ps, p.opt = true) {r : List Tok} (h : StopsHere r) :
    (matchPartial ps r).2 = ([], r) ∧ ∀ ns, (matchPartial ps r).1.foldl takePos ns = setPos ps [] ns := by
  induction ps with
  | nil => exact ⟨rfl, fun _ => rfl⟩
  | cons p ps ih =>
    obtain ⟨h1, h2⟩ := ih fun q hq => hp q (List.mem_cons_of_mem _ hq)
    have hpo := hp p List.mem_cons_self
    unfold matchPartial
    rw [posMatch_stop h, if_pos hpo]
    refine ⟨h1, fun ns => ?_⟩
    dsimp only
    rw [List.foldl_cons, takePos_none hpo]
    exact h2 _

/-- file names, not more than arguments, not less than needed -/
theorem match_files {ps : List PosDecl} {fs : List Str} (hl : fs.length ≤ ps.length)
    (hp : ∀ p ∈ ps.drop fs.length, p.opt = true) (hf : ∀ f ∈ fs, f ≠ py! "--") {r : List Tok} (h : StopsHere r) :
    (matchPartial ps (fs.map Tok.arg ++ r)).2 = ([], r) ∧
      ∀ ns, (matchPartial ps (fs.map Tok.arg ++ r)).1.foldl takePos ns = setPos ps fs ns := by
  induction fs generalizing ps with
  | nil => exact match_rest hp h
  | cons f fs ih =>
    cases ps with
    | nil => cases hl
    | cons p ps =>
      obtain ⟨h1, h2⟩ := ih (Nat.le_of_succ_le_succ hl) hp fun x hx => hf x (List.mem_cons_of_mem _ hx)
      unfold matchPartial
      rw [posMatch_arg h]
      refine ⟨h1, fun ns => ?_⟩
      dsimp only
      rw [List.foldl_cons, takePos_one (hf f List.mem_cons_self)]
      exact h2 _

/-- the same behind a `--` -/
theorem match_dash {ps : List PosDecl} {f : Str} {fs : List Str} (hl : (f :: fs).length ≤ ps.length)
    (hp : ∀ p ∈ ps.drop (f :: fs).length, p.opt = true) (hf : ∀ f ∈ fs, f ≠ py! "--") :
    (matchPartial ps (.dash :: (f :: fs).map Tok.arg)).2 = ([], []) ∧
      ∀ ns, (matchPartial ps (.dash :: (f :: fs).map Tok.arg)).1.foldl takePos ns = setPos ps (f :: fs) ns := by
  have hs : StopsHere [] := by intro t ht; cases ht
  cases ps with
  | nil => cases hl
  | cons p ps =>
    obtain ⟨h1, h2⟩ := match_files (Nat.le_of_succ_le_succ hl) hp hf hs
    rw [List.append_nil] at h1 h2
    have hm : posMatch p.opt (.dash :: (f :: fs).map Tok.arg) = some ([py! "--", f], fs.map Tok.arg) := by
      unfold posMatch
      dsimp only
      rw [show List.dropWhile Tok.isDash (.dash :: (f :: fs).map Tok.arg) = .arg f :: fs.map Tok.arg from rfl,
        show List.takeWhile Tok.isDash (.dash :: (f :: fs).map Tok.arg) = [.dash] from rfl]
      dsimp only
      have := args_dash (fs := fs) hs
      rw [List.append_nil] at this
      rw [this.1, this.2]
      rfl
    unfold matchPartial
    rw [hm]
    refine ⟨h1, fun ns => ?_⟩
    dsimp only
    rw [List.foldl_cons, takePos_dash]
    exact h2 _

/-! ### the values -/

theorem bundle_opts {d : CliDecl} {isDir : Str → Bool} {b : Str} {w : Option Str} {l : List (OptDecl × ArgVal)}
    (h : Bundle d isDir b w l) : ∀ p ∈ l, p.1 ∈ d.opts := by
  induction h with
  | flag ho => intro p hp; rw [List.mem_singleton.mp hp]; exact ho
  | attached ho => intro p hp; rw [List.mem_singleton.mp hp]; exact ho
  | equals ho => intro p hp; rw [List.mem_singleton.mp hp]; exact ho
  | next ho => intro p hp; rw [List.mem_singleton.mp hp]; exact ho
  | more ho _ _ _ ih =>
    intro p hp
    rcases List.mem_cons.mp hp with hp | hp
    · rw [hp]; exact ho
    · exact ih p hp

theorem line_opts {d : CliDecl} {isDir : Str → Bool} {w : List Str} {l : List (OptDecl × ArgVal)} (h : Line d isDir w l) :
    ∀ p ∈ l, p.1 ∈ d.opts := by
  induction h with
  | nil => intro p hp; cases hp
  | cons hs _ ih =>
    intro p hp
    rcases List.mem_append.mp hp with hp | hp
    · cases hs with
      | flag ho => rw [List.mem_singleton.mp hp]; exact ho
      | value ho => rw [List.mem_singleton.mp hp]; exact ho
      | equals ho => rw [List.mem_singleton.mp hp]; exact ho
      | bundle hb => exact bundle_opts hb p hp
    · exact ih p hp

theorem setAll_get (l : List (OptDecl × ArgVal)) (ns : Dict Str ArgVal) (k : Str) :
    (setAll l ns).get? k = match (l.filter fun p : OptDecl × ArgVal => p.1.dest = k).getLast? with
      | some p => some p.2
      | none => ns.get? k := by
  induction l generalizing ns with
  | nil => rfl
  | cons p l ih =>
    show (setAll l (ns.set p.1.dest p.2)).get? k = _
    rw [ih]
    by_cases hk : p.1.dest = k
    · rw [List.filter_cons_of_pos (by simpa using hk)]
      cases hl : l.filter fun p : OptDecl × ArgVal => p.1.dest = k with
      | nil =>
        subst hk
        exact Dict.get?_set_self _ _ _
      | cons q r =>
        rw [List.getLast?_cons_cons]
        cases hq : (q :: r).getLast? with
        | none => simp at hq
        | some x => rfl
    · rw [List.filter_cons_of_neg (by simpa using hk)]
      cases (l.filter fun p : OptDecl × ArgVal => p.1.dest = k).getLast? with
      | some x => rfl
      | none => exact Dict.get?_set_ne _ _ hk

theorem setPos_ne {ps : List PosDecl} {k : Str} (h : k ∉ ps.map (·.dest)) (fs : List Str) (ns : Dict Str ArgVal) :
    (setPos ps fs ns).get? k = ns.get? k := by
  induction ps generalizing fs ns with
  | nil => rfl
  | cons p ps ih =>
    rw [List.map_cons, List.mem_cons, not_or] at h
    cases fs with
    | nil => rw [setPos, ih h.2, Dict.get?_set_ne _ _ (Ne.symm h.1)]
    | cons f fs => rw [setPos, ih h.2, Dict.get?_set_ne _ _ (Ne.symm h.1)]

theorem setPos_get {ps : List PosDecl} (hn : (ps.map (·.dest)).Nodup) (fs : List Str) (ns : Dict Str ArgVal) {i : Nat}
    {p : PosDecl} (h : ps[i]? = some p) :
    (setPos ps fs ns).get? p.dest = some (match fs[i]? with | some f => .str f | none => .none) := by
  induction ps generalizing fs ns i with
  | nil => cases h
  | cons q ps ih =>
    rw [List.map_cons, List.nodup_cons] at hn
    cases i with
    | zero =>
      injection h with h
      subst h
      cases fs with
      | nil => rw [setPos, setPos_ne hn.1, Dict.get?_set_self]; rfl
      | cons f fs => rw [setPos, setPos_ne hn.1, Dict.get?_set_self]; rfl
    | succ i =>
      have h : ps[i]? = some p := h
      cases fs with
      | nil => rw [setPos, ih hn.2 [] _ h]; rfl
      | cons f fs => rw [setPos, ih hn.2 fs _ h]; rfl

theorem optDefaults_get {os : List OptDecl} (hn : (os.map (·.dest)).Nodup) (ns : Dict Str ArgVal) {o : OptDecl}
    (ho : o ∈ os) : (os.foldl (fun ns o => ns.set o.dest o.dflt) ns).get? o.dest = some o.dflt := by
  have hne : ∀ (os : List OptDecl) (ns : Dict Str ArgVal) (k : Str), k ∉ os.map (·.dest) →
      (os.foldl (fun ns o => ns.set o.dest o.dflt) ns).get? k = ns.get? k := by
    intro os
    induction os with
    | nil => intro ns k _; rfl
    | cons o os ih =>
      intro ns k hk
      rw [List.map_cons, List.mem_cons, not_or] at hk
      rw [List.foldl_cons, ih _ _ hk.2, Dict.get?_set_ne _ _ (Ne.symm hk.1)]
  induction os generalizing ns with
  | nil => cases ho
  | cons q os ih =>
    rw [List.map_cons, List.nodup_cons] at hn
    rw [List.foldl_cons]
    rcases List.mem_cons.mp ho with rfl | ho
    · rw [hne _ _ _ hn.1, Dict.get?_set_self]
    · exact ih hn.2 _ ho

theorem defaults_get {d : CliDecl} (hd : Orderly d) {o : OptDecl} (ho : o ∈ d.opts) : d.defaults.get? o.dest = some o.dflt := by
  have hn := List.nodup_append.mp hd.dests
  have : ∀ (ps : List PosDecl) (ns : Dict Str ArgVal),
      ps.foldl (fun ns p => ns.set p.dest .none) ns = setPos ps [] ns := by
    intro ps
    induction ps with
    | nil => intro ns; rfl
    | cons p ps ih => intro ns; rw [List.foldl_cons, ih]; rfl
  unfold CliDecl.defaults
  rw [this, setPos_ne, optDefaults_get hn.1 _ ho]
  intro h
  exact hn.2.2 _ (List.mem_map_of_mem ho) _ h rfl

/-- the namespace after options, file names and options -/
theorem means_of {d : CliDecl} (hd : Orderly d) {isDir : Str → Bool} {w1 w2 : List Str} {l1 l2 : List (OptDecl × ArgVal)}
    (_ : Line d isDir w1 l1) (h2 : Line d isDir w2 l2) (fs : List Str) :
    Means d fs (l1 ++ l2) (setAll l2 (setPos d.pos fs (setAll l1 d.defaults))) := by
  have hn := List.nodup_append.mp hd.dests
  constructor
  · intro o ho
    have hk : o.dest ∉ d.pos.map (·.dest) := fun h => hn.2.2 _ (List.mem_map_of_mem ho) _ h rfl
    rw [setAll_get, setPos_ne hk, setAll_get, defaults_get hd ho]
    unfold finalValue
    rw [List.filter_append]
    cases hl2 : (l2.filter fun p : OptDecl × ArgVal => p.1.dest = o.dest).getLast? with
    | some p =>
      have : (l1.filter (fun p : OptDecl × ArgVal => p.1.dest = o.dest) ++
          l2.filter fun p : OptDecl × ArgVal => p.1.dest = o.dest).getLast? = some p := by
        rw [List.getLast?_append, hl2]; rfl
      rw [this]
    | none =>
      rw [List.getLast?_eq_none_iff] at hl2
      rw [hl2, List.append_nil]
      cases (l1.filter fun p : OptDecl × ArgVal => p.1.dest = o.dest).getLast? <;> rfl
  · intro i p hp
    rw [setAll_get]
    have : (l2.filter fun q : OptDecl × ArgVal => q.1.dest = p.dest) = [] := by
      rw [List.filter_eq_nil_iff]
      intro q hq hqd
      exact hn.2.2 _ (List.mem_map_of_mem (line_opts h2 q hq)) _ (List.mem_map_of_mem (List.mem_of_getElem? hp))
        (by simpa using hqd)
    rw [this]
    exact setPos_get hn.2.1 fs _ hp

theorem line_nil {d : CliDecl} {isDir : Str → Bool} {w : List Str} {l : List (OptDecl × ArgVal)} (h : Line d isDir w l)
    (hw : w = []) : l = [] := by
  cases h with
  | nil => rfl
  | @cons w l ws ls hs _ =>
    have := (List.append_eq_nil_iff.mp hw).1
    subst this
    cases hs

end PyULog
