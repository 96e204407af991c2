import Verif.Lemmas.SqlServes
import Verif.Spec.SqlKeep
/-
The rows of the tables through scripts 3, 4 and 5.
-/
namespace PyULog
open Spec

theorem colIdx_some_iff (t : Table) (c : Str) : (∃ i, colIdx t c = some i) ↔ c ∈ t.cols.map (·.1) := by
  have := colIdx_isSome t c
  rw [Option.isSome_iff_exists] at this
  rw [this]
  simp

theorem colIdx_lt {t : Table} {c : Str} {i : Nat} (h : colIdx t c = some i) : i < t.cols.length := by
  unfold colIdx at h
  exact (List.findIdx?_eq_some_iff_findIdx_eq.mp h).1

theorem findIdx?_map_congr {α β : Type} (l : List α) (f : α → β) (p : α → Bool) (q : β → Bool)
    (h : ∀ a ∈ l, q (f a) = p a) : (l.map f).findIdx? q = l.findIdx? p := by
  induction l with
  | nil => rfl
  | cons a l ih =>
    simp only [List.map_cons, List.findIdx?_cons, h a (by simp)]
    rw [ih (fun x hx => h x (by simp [hx]))]

/-- renamed columns: the position of another column, and of the new name -/
theorem colIdx_rename {t t' : Table} {a b : Str} (hb : (colIdx t b).isSome = false)
    (hc : t'.cols = t.cols.map fun c => (if c.1 = a then b else c.1, c.2)) :
    colIdx t' b = colIdx t a ∧ ∀ c, c ≠ a → c ≠ b → colIdx t' c = colIdx t c := by
  have hb' : ∀ p ∈ t.cols, p.1 ≠ b := by
    intro p hp e
    have := (colIdx_isSome t b).mpr ⟨p, hp, e⟩
    rw [hb] at this; cases this
  constructor
  · unfold colIdx
    rw [hc]
    apply findIdx?_map_congr
    intro p hp
    by_cases e : p.1 = a
    · simp [e]
    · simp [e, hb' p hp]
  · intro c h1 h2
    unfold colIdx
    rw [hc]
    apply findIdx?_map_congr
    intro p hp
    by_cases e : p.1 = a
    · have : ¬ a = c := fun e => h1 e.symm
      have h3 : ¬ b = c := fun e => h2 e.symm
      simp [e, this, h3]
    · simp [e]

/-- an added column comes last -/
theorem colIdx_add {t t' : Table} {a ty : Str} (ha : (colIdx t a).isSome = false)
    (hc : t'.cols = t.cols ++ [(a, ty)]) :
    colIdx t' a = some t.cols.length ∧ ∀ c, c ≠ a → colIdx t' c = colIdx t c := by
  constructor
  · unfold colIdx at ha ⊢
    rw [hc, List.findIdx?_append]
    rw [Option.isSome_eq_false_iff, Option.isNone_iff_eq_none] at ha
    rw [ha]
    simp
  · intro c h
    unfold colIdx
    rw [hc, List.findIdx?_append]
    have : ¬ a = c := fun e => h e.symm
    simp [this]

theorem truncMag_eq (x : Nat) : truncMag x = mag64 x / 2 ^ 1074 := by
  unfold truncMag mag64 exp64 frac64
  dsimp only
  generalize he : x / 2 ^ 52 % 2048 = e
  have hm : x % 2 ^ 52 < 2 ^ 52 := Nat.mod_lt _ (by decide)
  generalize x % 2 ^ 52 = m at hm
  generalize hN : (1074 : Nat) = N
  by_cases h0 : e = 0
  · rw [if_pos h0, if_pos h0, Nat.div_eq_of_lt]
    calc m < 2 ^ 52 := hm
      _ ≤ 2 ^ N := Nat.pow_le_pow_right (by decide) (by omega)
  · rw [if_neg h0, if_neg h0, Nat.add_comm m]
    by_cases h1 : e < 1075
    · rw [if_pos h1]
      have : (2 : Nat) ^ N = 2 ^ (1075 - e) * 2 ^ (e - 1) := by rw [← Nat.pow_add]; congr 1; omega
      rw [this, Nat.mul_div_mul_right _ _ (Nat.two_pow_pos _)]
    · rw [if_neg h1]
      have : (2 : Nat) ^ (e - 1) = 2 ^ (e - 1075) * 2 ^ N := by rw [← Nat.pow_add]; congr 1; omega
      rw [this, ← Nat.mul_assoc, Nat.mul_div_cancel _ (Nat.two_pow_pos _)]

theorem castInt_eq {v : SqlVal} (h : Numeric v) : castInt v = .ok (integerPart v) := by
  cases v with
  | null => rfl
  | int n => rfl
  | text s => cases h
  | blob s => cases h
  | real x =>
    show _ = Except.ok (SqlVal.int (max (min ((val64 x).tdiv (2 ^ 1074 : Nat)) (2 ^ 63 - 1)) (-2 ^ 63)))
    simp only [castInt, truncMag_eq]
    unfold val64 sign64
    generalize 1074 = N
    have hq : ((mag64 x / 2 ^ N : Nat) : Int) = ((mag64 x : Nat) : Int).tdiv (2 ^ N : Nat) := by
      rw [Int.ofNat_tdiv]
    have hx : x < 2 ^ 64 := h
    have hsgn : x / 2 ^ 63 % 2 = x / 2 ^ 63 := Nat.mod_eq_of_lt (by omega)
    rw [hsgn]
    by_cases hs : x / 2 ^ 63 = 0
    · rw [if_pos hs, if_pos hs, ← hq]
      generalize mag64 x / 2 ^ N = n
      have : (0 : Int) ≤ n := Int.natCast_nonneg n
      congr 2
      show min (n : Int) 9223372036854775807 = max (min (n : Int) 9223372036854775807) (-9223372036854775808)
      omega
    · rw [if_neg hs, if_neg hs, Int.neg_tdiv, ← hq]
      generalize mag64 x / 2 ^ N = n
      have : (0 : Int) ≤ n := Int.natCast_nonneg n
      congr 2
      show max (-(n : Int)) (-9223372036854775808) = max (min (-(n : Int)) 9223372036854775807) (-9223372036854775808)
      omega

theorem mapM_okMap {α β : Type} (l : List α) (f : α → Except PyErr β) (g : α → β)
    (h : ∀ a ∈ l, f a = .ok (g a)) : l.mapM f = .ok (l.map g) := by
  induction l with
  | nil => rfl
  | cons a l ih =>
    rw [List.mapM_cons, h a (by simp), ih (fun x hx => h x (by simp [hx]))]
    rfl

/-- the statements that turn a column into integers -/
def retypeStmts (q : Str × Str) : List SqlStmt := [
  .renameColumn q.1 q.2 (q.2 ++ py! "_OLD"),
  .addColumn q.1 q.2 (py! "INT"),
  .updateCast q.1 q.2 (q.2 ++ py! "_OLD")]

theorem ast4_eq : ast4 = [.foreignKeys] ++ retyped.flatMap retypeStmts ++ [.foreignKeys] := by
  decide +kernel

theorem old_ne (c : Str) : c ++ py! "_OLD" ≠ c := by
  intro h
  have := congrArg List.length h
  simp at this

/-- one column -/
theorem retype_run {s : Schema} {q : Str × Str} {t : Table} (ht : s.tables.get? q.1 = some t)
    (hC : (colIdx t q.2).isSome = true) (hO : (colIdx t (q.2 ++ py! "_OLD")).isSome = false)
    (hfull : ∀ r ∈ t.rows, r.length = t.cols.length) (hnum : ∀ r ∈ t.rows, Numeric (colVal t r q.2)) :
    ∃ s' t', runAst (retypeStmts q) s = .ok s' ∧ s'.tables.get? q.1 = some t' ∧
      KeptTable (· = q.2) t t' ∧
      (∀ c ∈ t.cols.map (·.1), c ∈ t'.cols.map (·.1)) ∧
      (∀ n, n ≠ q.1 → ∀ u, s.tables.get? n = some u →
        ∃ u', s'.tables.get? n = some u' ∧ u'.cols = u.cols ∧ u'.rows = u.rows) := by
  obtain ⟨T, C⟩ := q
  simp only at ht hC hO hnum ⊢
  generalize hOe : C ++ py! "_OLD" = O at hO
  have hOC : O ≠ C := hOe ▸ old_ne C
  obtain ⟨j, hj⟩ := Option.isSome_iff_exists.mp hC
  -- rename
  let s1 : Schema := { tables := s.tables.map fun p => (p.1, renCol T C O p)
                       indexes := s.indexes.map fun p =>
                         if p.2.1 = T then (p.1, T, if p.2.2 = C then O else p.2.2) else p }
  have e1 : execStmt s (.renameColumn T C O) = .ok s1 := by
    simp only [execStmt, ht]
    rw [if_neg (by simp [hj, hO])]
    simp only [Except.ok.injEq, Schema.mk.injEq, s1, and_true]
    apply List.map_congr_left
    intro p _
    unfold renCol
    split <;> rfl
  let t1 : Table := renCol T C O (T, t)
  have ht1 : s1.tables.get? T = some t1 := by
    simp only [s1, t1]; rw [get?_mapKey, ht]; rfl
  have hc1 : t1.cols = t.cols.map fun c => (if c.1 = C then O else c.1, c.2) := by
    simp only [t1, renCol, if_true]
  have hr1 : t1.rows = t.rows := by simp only [t1, renCol, if_true]
  obtain ⟨i1, i1'⟩ := colIdx_rename hO hc1
  have hC1 : (colIdx t1 C).isSome = false := by
    rw [Bool.eq_false_iff]
    intro h
    rw [colIdx_isSome, hc1] at h
    obtain ⟨p, hp, hpc⟩ := h
    obtain ⟨p0, _, rfl⟩ := List.mem_map.mp hp
    simp only at hpc
    split at hpc
    · exact hOC hpc
    · rename_i hne; exact hne hpc
  -- add
  let t2 : Table := { t1 with cols := t1.cols ++ [(C, py! "INT")], rows := t1.rows.map fun r => r ++ [.null] }
  let s2 : Schema := { s1 with tables := s1.tables.set T t2 }
  have e2 : execStmt s1 (.addColumn T C (py! "INT")) = .ok s2 := by
    simp only [execStmt, ht1]
    rw [if_neg (by simp [hC1])]
  obtain ⟨i2, i2'⟩ := colIdx_add (t := t1) (t' := t2) hC1 rfl
  have hlen : t1.cols.length = t.cols.length := by rw [hc1, List.length_map]
  have hj2 : colIdx t2 O = some j := by rw [i2' O hOC, i1, hj]
  have hjlt : j < t.cols.length := colIdx_lt hj
  -- update
  let g : List SqlVal → List SqlVal := fun r => r ++ [integerPart (r.getD j .null)]
  let t3 : Table := { t2 with rows := t.rows.map g }
  let s3 : Schema := { s2 with tables := s2.tables.set T t3 }
  have ht2 : s2.tables.get? T = some t2 := Dict.get?_set_self _ _ _
  have e3 : execStmt s2 (.updateCast T C O) = .ok s3 := by
    simp only [execStmt, ht2, i2, hj2, hlen]
    rw [mapM_okMap (g := fun r => r.set t.cols.length (integerPart (r.getD j .null)))]
    · simp only [Except.map, Except.ok.injEq, s3, t3]
      congr 3
      show (t1.rows.map fun r => r ++ [SqlVal.null]).map _ = _
      rw [hr1, List.map_map]
      apply List.map_congr_left
      intro r hr
      have hl := hfull r hr
      simp only [Function.comp, g]
      rw [← hl, List.set_append_right _ _ (Nat.le_refl _)]
      simp [List.getD_eq_getElem?_getD, List.getElem?_append_left (show j < r.length by omega)]
    · intro r hr
      obtain ⟨r0, hr0, rfl⟩ := List.mem_map.mp hr
      rw [hr1] at hr0
      have hl := hfull r0 hr0
      have hn := hnum r0 hr0
      simp only [colVal, hj] at hn
      have : (r0 ++ [SqlVal.null]).getD j .null = r0.getD j .null := by
        simp [List.getD_eq_getElem?_getD, List.getElem?_append_left (show j < r0.length by omega)]
      rw [this, castInt_eq hn]
      rfl
  refine ⟨s3, t3, ?_, Dict.get?_set_self _ _ _, ⟨g, rfl, ?_⟩, ?_, ?_⟩
  · simp only [retypeStmts, hOe, runAst, e1, e2, e3, Except.bind]
  · intro r hr
    have hl := hfull r hr
    have hidx : ∀ c, colIdx t3 c = colIdx t2 c := fun _ => rfl
    refine ⟨?_, ?_⟩
    · show (r ++ [_]).length = (t1.cols ++ [_]).length
      simp [hl, hlen]
    · intro c hc
      refine ⟨fun hne => ?_, fun heq => ?_⟩
      · have hcO : c ≠ O := by
          rintro rfl
          rw [← colIdx_some_iff] at hc
          obtain ⟨i, hi⟩ := hc
          rw [hi] at hO; cases hO
        obtain ⟨i, hi⟩ := (colIdx_some_iff t c).mpr hc
        have hi3 : colIdx t3 c = some i := by rw [hidx, i2' c hne, i1' c hne hcO, hi]
        have := colIdx_lt hi
        simp only [colVal, hi, hi3, g]
        simp [List.getD_eq_getElem?_getD, List.getElem?_append_left (show i < r.length by omega)]
      · subst heq
        have hi3 : colIdx t3 c = some r.length := by rw [hidx, i2, hlen, hl]
        have hn := hnum r hr
        simp only [colVal, hj, hi3, g] at hn ⊢
        simp [List.getD_eq_getElem?_getD]
  · intro c hc
    show c ∈ (t1.cols ++ [(C, py! "INT")]).map (·.1)
    rw [hc1]
    simp only [List.map_append, List.map_map, List.mem_append, List.mem_map, Function.comp, List.map_cons,
      List.map_nil, List.mem_singleton]
    by_cases e : c = C
    · exact Or.inr e
    · obtain ⟨p, hp, rfl⟩ := List.mem_map.mp hc
      exact Or.inl ⟨p, hp, by simp [e]⟩
  · intro n hn u hu
    refine ⟨renCol T C O (n, u), ?_, ?_, ?_⟩
    · show Dict.get? (Dict.set (Dict.set s1.tables T t2) T t3) n = _
      rw [Dict.get?_set_ne _ _ (fun e => hn e.symm), Dict.get?_set_ne _ _ (fun e => hn e.symm)]
      simp only [s1]
      rw [get?_mapKey, hu]
      rfl
    · simp only [renCol, if_neg hn]
    · simp only [renCol, if_neg hn]

/-! ### composition -/

theorem keptTable_refl {t : Table} (h : ∀ r ∈ t.rows, r.length = t.cols.length) :
    KeptTable (fun _ => False) t t :=
  ⟨id, by simp, fun r hr => ⟨h r hr, fun _ _ => ⟨fun _ => rfl, fun h => h.elim⟩⟩⟩

theorem keptTable_same {t t' : Table} (h : ∀ r ∈ t.rows, r.length = t.cols.length) (hc : t'.cols = t.cols)
    (hr : t'.rows = t.rows) : KeptTable (fun _ => False) t t' := by
  refine ⟨id, by simp [hr], fun r hr => ⟨by rw [hc]; exact h r hr, fun c _ => ⟨fun _ => ?_, fun h => h.elim⟩⟩⟩
  simp [colVal, colIdx, hc]

theorem keptTable_trans {a b : Str → Prop} {t t1 t2 : Table} (h1 : KeptTable a t t1) (h2 : KeptTable b t1 t2)
    (hc : ∀ c ∈ t.cols.map (·.1), c ∈ t1.cols.map (·.1))
    (hd : ∀ c ∈ t.cols.map (·.1), ¬ (a c ∧ b c)) : KeptTable (fun c => a c ∨ b c) t t2 := by
  obtain ⟨g1, e1, k1⟩ := h1
  obtain ⟨g2, e2, k2⟩ := h2
  refine ⟨g2 ∘ g1, by rw [e2, e1, List.map_map], fun r hr => ?_⟩
  have hr1 : g1 r ∈ t1.rows := by rw [e1]; exact List.mem_map_of_mem hr
  obtain ⟨_, v1⟩ := k1 r hr
  obtain ⟨l2, v2⟩ := k2 (g1 r) hr1
  refine ⟨l2, fun c hcm => ⟨fun hn => ?_, fun hor => ?_⟩⟩
  · have ha : ¬ a c := fun h => hn (Or.inl h)
    have hb : ¬ b c := fun h => hn (Or.inr h)
    exact ((v2 c (hc c hcm)).1 hb).trans ((v1 c hcm).1 ha)
  · rcases hor with ha | hb
    · have hb : ¬ b c := fun hb => hd c hcm ⟨ha, hb⟩
      rw [← (v1 c hcm).2 ha]
      exact (v2 c (hc c hcm)).1 hb
    · have ha : ¬ a c := fun ha => hd c hcm ⟨ha, hb⟩
      rw [← (v1 c hcm).1 ha]
      exact (v2 c (hc c hcm)).2 hb

theorem keptTable_mono {a b : Str → Prop} {t t' : Table} (h : KeptTable a t t') (hab : ∀ c, a c ↔ b c) :
    KeptTable b t t' := by
  have : a = b := funext fun c => propext (hab c)
  rwa [← this]

theorem keptData_full {casts : Str → Str → Prop} {s s' : Schema} (h : KeptData casts s s')
    (hk : ∀ n t', s'.tables.get? n = some t' → ∃ t, s.tables.get? n = some t) : FullRows s' := by
  intro n t' ht' r' hr'
  obtain ⟨t, ht⟩ := hk n t' ht'
  obtain ⟨t2, h2, ⟨g, e, k⟩, _⟩ := h n t ht
  rw [ht'] at h2
  cases h2
  rw [e] at hr'
  obtain ⟨r, hr, rfl⟩ := List.mem_map.mp hr'
  exact (k r hr).1

theorem keptData_trans {a b : Str → Str → Prop} {s s1 s2 : Schema} (h1 : KeptData a s s1)
    (h2 : KeptData b s1 s2)
    (hd : ∀ n t, s.tables.get? n = some t → ∀ c ∈ t.cols.map (·.1), ¬ (a n c ∧ b n c)) :
    KeptData (fun n c => a n c ∨ b n c) s s2 := by
  intro n t ht
  obtain ⟨t1, e1, k1, c1⟩ := h1 n t ht
  obtain ⟨t2, e2, k2, c2⟩ := h2 n t1 e1
  exact ⟨t2, e2, keptTable_trans k1 k2 c1 (hd n t ht), fun c hc => c2 c (c1 c hc)⟩

theorem keptData_mono {a b : Str → Str → Prop} {s s' : Schema} (h : KeptData a s s')
    (hab : ∀ n c, a n c ↔ b n c) : KeptData b s s' := by
  intro n t ht
  obtain ⟨t1, e1, k1, c1⟩ := h n t ht
  exact ⟨t1, e1, keptTable_mono k1 (hab n), c1⟩

theorem get?_isSome_keys {α : Type} (d : Dict Str α) (k : Str) : (∃ v, d.get? k = some v) ↔ k ∈ d.keys := by
  induction d with
  | nil => simp [Dict.get?, Dict.keys]
  | cons p d ih =>
    obtain ⟨a, v⟩ := p
    simp only [Dict.get?, Dict.keys, List.map_cons, List.mem_cons] at ih ⊢
    by_cases e : a = k
    · simp [e]
    · rw [if_neg e, ih]
      constructor
      · exact Or.inr
      · rintro (h | h)
        · exact absurd h.symm e
        · exact h

theorem get?_of_bare {s : Schema} {n : Str} {u : Table} (h : (bareSchema s).tables.get? n = some u) :
    ∃ t, s.tables.get? n = some t ∧ bareTable t = u := by
  have h' : (Dict.get? s.tables n).map bareTable = some u := by rw [← get?_bare]; exact h
  exact Option.map_eq_some_iff.mp h'

/-- the tables have the same names -/
def SameTables (s s' : Schema) : Prop := s'.tables.keys = s.tables.keys

theorem keys_set {κ α : Type} [DecidableEq κ] (d : Dict κ α) (k : κ) (v u : α) (h : d.get? k = some u) :
    (Dict.set d k v).keys = d.keys := by
  induction d with
  | nil => cases h
  | cons p d ih =>
    obtain ⟨a, w⟩ := p
    simp only [Dict.get?, Dict.set, Dict.keys] at h ih ⊢
    split
    · rfl
    · rename_i e
      rw [if_neg e] at h
      simp only [List.map_cons, ih h]

theorem alter_keys {s s' : Schema} {st : SqlStmt} (ha : isAlter st = true) (h : execStmt s st = .ok s') :
    SameTables s s' := by
  unfold SameTables
  cases st <;> simp only [isAlter, Bool.false_eq_true] at ha
  case foreignKeys => cases h; rfl
  case renameColumn tb name to =>
    obtain ⟨t0, ht0, _, _, rfl⟩ := exec_renameColumn h
    simp [Dict.keys, Function.comp_def]
  case addColumn tb name ty =>
    simp only [execStmt] at h
    split at h
    · cases h
    · split at h
      · cases h
      · cases h
        rename_i t0 ht0 _
        exact keys_set _ _ _ _ ht0
  case updateCast tb a b =>
    simp only [execStmt] at h
    split at h
    · cases h
    · split at h
      · obtain ⟨rows, _, e⟩ := except_map_ok.mp h
        subst e
        rename_i t0 ht0 _ _ _ _ _ _ _
        exact keys_set _ _ _ _ ht0
      · cases h

theorem alter_run_keys {sts : List SqlStmt} {s s' : Schema} (ha : ∀ st ∈ sts, isAlter st = true)
    (h : runAst sts s = .ok s') : SameTables s s' := by
  induction sts generalizing s with
  | nil => cases h; rfl
  | cons st sts ih =>
    simp only [runAst] at h
    obtain ⟨s1, h1, h2⟩ := except_bind_ok.mp h
    have e1 := alter_keys (ha st (by simp)) h1
    have e2 := ih (fun x hx => ha x (by simp [hx])) h2
    unfold SameTables at *
    rw [e2, e1]

theorem isOk_bind {α β : Type} {x : Except PyErr α} {f : α → Except PyErr β} (h : isOk (x.bind f) = true) :
    ∃ a, x = .ok a ∧ isOk (f a) = true := by
  cases x with
  | error e => cases h
  | ok a => exact ⟨a, rfl, h⟩

theorem isOk_ok {α : Type} {x : Except PyErr α} (h : isOk x = true) : ∃ a, x = .ok a := by
  cases x with
  | error e => cases h
  | ok a => exact ⟨a, rfl⟩

/-- several columns -/
theorem retypes_run : ∀ (l : List (Str × Str)) (s : Schema),
    isOk (runAst (l.flatMap retypeStmts) (bareSchema s)) = true → FullRows s →
    (∀ q ∈ l, ∀ t, s.tables.get? q.1 = some t → q.2 ∈ t.cols.map (·.1) ∧
      ∀ r ∈ t.rows, Numeric (colVal t r q.2)) → l.Nodup →
    ∃ s', runAst (l.flatMap retypeStmts) s = .ok s' ∧ KeptData (fun n c => (n, c) ∈ l) s s' ∧ FullRows s'
  | [], s, _, hfull, _, _ =>
    ⟨s, rfl, fun n t ht => ⟨t, ht, keptTable_mono (keptTable_refl (hfull n t ht)) (by simp), fun _ h => h⟩, hfull⟩
  | q :: l, s, hok, hfull, hq, hnd => by
    simp only [List.flatMap_cons, runAst_append] at hok ⊢
    obtain ⟨b1, hb1, hok1⟩ := isOk_bind hok
    have hren : ∃ b0, execStmt (bareSchema s) (.renameColumn q.1 q.2 (q.2 ++ py! "_OLD")) = .ok b0 := by
      simp only [retypeStmts, runAst] at hb1
      obtain ⟨b0, h0, _⟩ := except_bind_ok.mp hb1
      exact ⟨b0, h0⟩
    obtain ⟨b0, hb0⟩ := hren
    obtain ⟨tb, htb, hC, hO, _⟩ := exec_renameColumn hb0
    obtain ⟨t, ht, rfl⟩ := get?_of_bare htb
    obtain ⟨s1, t1, hrun, ht1, hk, hsub, hoth⟩ := retype_run ht hC hO (hfull _ t ht)
      (hq q (by simp) t ht).2
    have hk1 : KeptData (fun n c => (n, c) = q) s s1 := by
      intro n u hu
      by_cases e : n = q.1
      · subst e
        rw [ht] at hu; cases hu
        refine ⟨t1, ht1, keptTable_mono hk (fun c => ?_), hsub⟩
        constructor
        · rintro rfl; rfl
        · intro h; rw [← h]
      · obtain ⟨u', h1, h2, h3⟩ := hoth n e u hu
        refine ⟨u', h1, keptTable_mono (keptTable_same (hfull n u hu) h2 h3) (fun c => ?_), by rw [h2]; exact fun _ h => h⟩
        constructor
        · exact False.elim
        · intro h; exact e (by rw [← h])
    have hst : SameTables s s1 := by
      refine alter_run_keys (sts := retypeStmts q) ?_ hrun
      intro st hst
      simp only [retypeStmts, List.mem_cons, List.not_mem_nil, or_false] at hst
      rcases hst with rfl | rfl | rfl <;> rfl
    have hfull1 : FullRows s1 := keptData_full hk1 (fun n t' h => by
      rw [get?_isSome_keys, ← hst, ← get?_isSome_keys]; exact ⟨t', h⟩)
    have hbare : b1 = bareSchema s1 := by
      have := runAst_bare (retypeStmts q) s s1 (by simp [retypeStmts]) hrun
      rw [this] at hb1
      exact (Except.ok.inj hb1).symm
    have hnd' : q ∉ l := (List.nodup_cons.mp hnd).1
    obtain ⟨s', hr', hk', hf'⟩ := retypes_run l s1 (hbare ▸ hok1) hfull1 (by
      intro q' hq' u' hu'
      have hn' : ∃ u, s.tables.get? q'.1 = some u := by
        rw [get?_isSome_keys, ← hst, ← get?_isSome_keys]; exact ⟨u', hu'⟩
      obtain ⟨u, hu⟩ := hn'
      obtain ⟨u2, hu2, ⟨g, eg, kg⟩, hcs⟩ := hk1 q'.1 u hu
      rw [hu'] at hu2
      cases hu2
      obtain ⟨hm, hnum⟩ := hq q' (by simp [hq']) u hu
      refine ⟨hcs _ hm, fun r' hr' => ?_⟩
      rw [eg] at hr'
      obtain ⟨r, hr, rfl⟩ := List.mem_map.mp hr'
      have hne : ¬ (q'.1, q'.2) = q := fun e => hnd' (e ▸ hq')
      rw [((kg r hr).2 q'.2 hm).1 hne]
      exact hnum r hr) (List.nodup_cons.mp hnd).2
    refine ⟨s', ?_, keptData_mono (keptData_trans hk1 hk' ?_) (fun n c => by simp), hf'⟩
    · rw [hrun]; exact hr'
    · rintro n u _ c _ ⟨h1, h2⟩
      exact hnd' (h1 ▸ h2)

/-- an added column -/
theorem addColumn_run {s : Schema} {T c ty : Str} (hok : isOk (execStmt (bareSchema s) (.addColumn T c ty)) = true)
    (hfull : FullRows s) :
    ∃ s', execStmt s (.addColumn T c ty) = .ok s' ∧ KeptData (fun _ _ => False) s s' := by
  obtain ⟨b, hb⟩ := isOk_ok hok
  simp only [execStmt] at hb
  split at hb
  · cases hb
  · rename_i u hu
    obtain ⟨t, ht, rfl⟩ := get?_of_bare hu
    rw [colIdx_bare] at hb
    split at hb
    · cases hb
    · rename_i hn
      have hn' : (colIdx t c).isSome = false := by simpa using hn
      refine ⟨_, by simp only [execStmt, ht]; exact if_neg hn, ?_⟩
      intro n u hu'
      by_cases e : T = n
      · subst e
        rw [ht] at hu'
        cases hu'
        obtain ⟨_, hidx⟩ := colIdx_add (t := t)
          (t' := { t with cols := t.cols ++ [(c, ty)], rows := t.rows.map fun r => r ++ [.null] }) hn' rfl
        refine ⟨_, Dict.get?_set_self _ _ _, ⟨fun r => r ++ [.null], rfl, ?_⟩, ?_⟩
        · intro r hr
          have hl := hfull _ _ ht r hr
          refine ⟨by simp [hl], fun c' hc' => ⟨fun _ => ?_, fun h => h.elim⟩⟩
          obtain ⟨i, hi⟩ := (colIdx_some_iff t c').mpr hc'
          have hne : c' ≠ c := by
            rintro rfl
            rw [hi] at hn'; cases hn'
          have := colIdx_lt hi
          simp only [colVal, hidx c' hne, hi]
          simp [List.getD_eq_getElem?_getD, List.getElem?_append_left (show i < r.length by omega)]
        · intro c' hc'
          simp only [List.map_append, List.mem_append]
          exact Or.inl hc'
      · refine ⟨u, ?_, keptTable_refl (hfull n u hu'), fun _ h => h⟩
        simp only
        rw [Dict.get?_set_ne _ _ e]
        exact hu'

/-- indexes do not touch tables -/
theorem indexes_run : ∀ (sts : List SqlStmt) (s : Schema),
    (∀ st ∈ sts, ∃ a b c, st = .createIndex a b c) → isOk (runAst sts (bareSchema s)) = true →
    ∃ s', runAst sts s = .ok s' ∧ s'.tables = s.tables
  | [], s, _, _ => ⟨s, rfl, rfl⟩
  | st :: sts, s, h, hok => by
    simp only [runAst] at hok ⊢
    obtain ⟨b1, hb1, hok1⟩ := isOk_bind hok
    have : ∃ s1, execStmt s st = .ok s1 ∧ s1.tables = s.tables := by
      obtain ⟨a, b, c, rfl⟩ := h st (by simp)
      simp only [execStmt, bareSchema, get?_bare] at hb1 ⊢
      split at hb1
      · rename_i e; exact ⟨s, by rw [if_pos e], rfl⟩
      · rename_i e
        rw [if_neg e]
        cases ht : Dict.get? s.tables b with
        | none => rw [ht] at hb1; cases hb1
        | some t =>
          rw [ht] at hb1
          simp only [Option.map_some, colIdx_bare] at hb1 ⊢
          by_cases e2 : (colIdx t c).isSome = true
          · exact ⟨_, if_pos e2, rfl⟩
          · have hb2 := (if_neg (by exact e2)).symm.trans hb1
            cases hb2
    obtain ⟨s1, h1, h2⟩ := this
    have hb : b1 = bareSchema s1 := by
      have := execStmt_bare s s1 st (by
        obtain ⟨a, b, c, rfl⟩ := h st (by simp); intro n t e; cases e) h1
      rw [this] at hb1
      exact (Except.ok.inj hb1).symm
    obtain ⟨s', h3, h4⟩ := indexes_run sts s1 (fun x hx => h x (by simp [hx])) (hb ▸ hok1)
    exact ⟨s', by rw [h1]; exact h3, h4.trans h2⟩

end PyULog
