import Verif.Lemmas.Flatten
import Verif.Spec.SampleRun
/-
Property theorems: C08 (nested formats).
-/
namespace PyULog
open Spec

theorem stripsPadding_of (full : List FieldData) :
    StripsPadding full
      ((full.reverse.dropWhile (fun f => startsWith (py! "_padding") f.name)).reverse) := by
  refine ⟨(full.reverse.takeWhile (fun f => startsWith (py! "_padding") f.name)).reverse, ?_, ?_, ?_⟩
  · rw [← List.reverse_append, List.takeWhile_append_dropWhile, List.reverse_reverse]
  · intro p hp
    rw [List.mem_reverse] at hp
    have := List.all_takeWhile (p := fun f : FieldData => startsWith (py! "_padding") f.name)
      (l := full.reverse)
    rw [List.all_eq_true] at this
    have := this p hp
    simpa [startsWith] using this
  · intro l hl
    rw [List.getLast?_reverse] at hl
    have := List.head?_dropWhile_not (fun f : FieldData => startsWith (py! "_padding") f.name)
      full.reverse
    rw [hl] at this
    simp only [startsWith] at this
    intro hpre
    rw [List.isPrefixOf_iff_prefix.mpr hpre] at this
    cases this

theorem stripsPadding_det {full a b : List FieldData} (ha : StripsPadding full a)
    (hb : StripsPadding full b) : a = b := by
  suffices h : ∀ {full a b : List FieldData}, StripsPadding full a → StripsPadding full b →
      a.length ≤ b.length → a = b by
    rcases Nat.le_total a.length b.length with hl | hl
    · exact h ha hb hl
    · exact (h hb ha hl).symm
  intro full a b ⟨pa, ea, hpa, hla⟩ ⟨pb, eb, hpb, hlb⟩ hl
  rw [ea] at eb
  obtain ⟨c, hc⟩ : ∃ c, b = a ++ c := by
    have : a <+: b := List.prefix_of_prefix_length_le ⟨pa, rfl⟩ ⟨pb, eb.symm⟩ hl
    obtain ⟨c, hc⟩ := this
    exact ⟨c, hc.symm⟩
  subst hc
  rw [List.append_assoc] at eb
  have e2 := List.append_cancel_left eb
  cases hcl : c.getLast? with
  | none => rw [List.getLast?_eq_none_iff] at hcl; subst hcl; simp
  | some l =>
    exfalso
    have hmem : l ∈ pa := by
      rw [e2]; exact List.mem_append_left _ (List.mem_of_getLast? hcl)
    refine hlb l ?_ (hpa l hmem)
    rw [List.getLast?_append, hcl]; rfl

/-- **C08** (soundness). When a subscription to `name` is accepted, the format exists and its columns
are the depth-first expansion of its fields without trailing padding columns. -/
theorem C08_columns_sound (F : Dict Str MsgFormat) (depth : Nat) (name : Str)
    (cols : List FieldData) (idx : Int) (h : parseFields F depth name = .ok (cols, idx)) :
    ∃ fmt full, F.get? name = some fmt ∧ Expands F [] fmt.fields full ∧ StripsPadding full cols := by
  unfold parseFields at h
  obtain ⟨⟨full, i⟩, h1, h2⟩ := except_bind_ok.mp h
  obtain ⟨fmt, r, hf, he, hr⟩ := nest_sound h1
  simp only [List.nil_append] at hr
  subst hr
  cases h2
  exact ⟨fmt, full, hf, he, stripsPadding_of full⟩

/-- **C08** (completeness). Every format that has an expansion is accepted with exactly that
expansion, when the recursion limit is large enough for its nesting depth. -/
theorem C08_columns_complete (F : Dict Str MsgFormat) (name : Str) (fmt : MsgFormat)
    (full cols : List FieldData) (hf : F.get? name = some fmt) (he : Expands F [] fmt.fields full)
    (hs : StripsPadding full cols) :
    ∃ d0, ∀ depth, d0 ≤ depth → ∃ idx, parseFields F depth name = .ok (cols, idx) := by
  obtain ⟨d0, h0⟩ := fields_complete he
  refine ⟨d0 + 1, fun depth hd => ?_⟩
  obtain ⟨d, rfl⟩ : ∃ d', depth = d' + 1 := ⟨depth - 1, by omega⟩
  obtain ⟨i, hi⟩ := h0 d (by omega) ([], -1)
  refine ⟨i, ?_⟩
  unfold parseFields
  rw [nest_succ, hf]
  simp only
  rw [hi, ok_bind]
  simp only [List.nil_append]
  rw [stripsPadding_det (stripsPadding_of full) hs]
  rfl

/-- **C08**: the expansion of a format is unique -/
theorem C08_columns_unique (F : Dict Str MsgFormat) (fs : List FieldDef)
    (full full' cols cols' : List FieldData) (h : Expands F [] fs full) (h' : Expands F [] fs full')
    (hs : StripsPadding full cols) (hs' : StripsPadding full' cols') : cols = cols' := by
  cases h.det h'
  exact stripsPadding_det hs hs'

/-- chain of nested types of a given length -/
inductive Chain (F : Dict Str MsgFormat) : Nat → Str → Str → Prop
  | nil (a : Str) : Chain F 0 a a
  | cons {n : Nat} {a b c : Str} : Uses F a b → Chain F n b c → Chain F (n + 1) a c

theorem Chain.snoc {F : Dict Str MsgFormat} {n : Nat} {a b c : Str} (h : Chain F n a b)
    (hu : Uses F b c) : Chain F (n + 1) a c := by
  induction h with
  | nil => exact .cons hu (.nil _)
  | cons hu' _ ih => exact .cons hu' (ih hu)

theorem Chain.trans {F : Dict Str MsgFormat} {n m : Nat} {a b c : Str} (h : Chain F n a b)
    (h2 : Chain F m b c) : Chain F (n + m) a c := by
  induction h with
  | nil => rw [Nat.zero_add]; exact h2
  | cons hu' _ ih =>
    rw [Nat.add_right_comm]; exact .cons hu' (ih h2)

theorem Spec.UsesStar.chain {F : Dict Str MsgFormat} {a b : Str} (h : UsesStar F a b) :
    ∃ n, Chain F n a b := by
  induction h with
  | refl => exact ⟨0, .nil _⟩
  | step _ hu ih => obtain ⟨n, hn⟩ := ih; exact ⟨n + 1, hn.snoc hu⟩

/-- an accepted format has no chain of nested types as long as the depth -/
theorem chain_lt {F : Dict Str MsgFormat} {n d : Nat} {pre a b : Str} {acc acc' : NestAcc}
    (hc : Chain F n a b) (h : nest F d pre a acc = .ok acc') :
    n < d ∧ ∃ pre' acc1 acc2, nest F (d - n) pre' b acc1 = .ok acc2 := by
  induction hc generalizing d pre acc acc' with
  | nil =>
    cases d with
    | zero => cases h
    | succ d => exact ⟨by omega, _, _, _, h⟩
  | cons hu _ ih =>
    cases d with
    | zero => cases h
    | succ d =>
      obtain ⟨p1, a1, a2, h1⟩ := nest_uses h hu
      obtain ⟨hlt, h2⟩ := ih h1
      refine ⟨by omega, ?_⟩
      rw [Nat.add_sub_add_right]
      exact h2

/-- expansion fails only with these exceptions -/
theorem parseFields_error {F : Dict Str MsgFormat} {d : Nat} {name : Str}
    (h : ∀ acc, nest F d [] name ([], -1) ≠ .ok acc) :
    parseFields F d name = .error .keyError ∨ parseFields F d name = .error .recursionError := by
  unfold parseFields
  cases hn : nest F d [] name ([], -1) with
  | ok acc => exact absurd hn (h acc)
  | error e =>
    rcases nest_err hn with rfl | rfl
    · right; rfl
    · left; rfl

/-- **C08** (cyclic formats). If a type that is reached from `name` contains itself, directly or
through other types, a subscription to `name` never succeeds, whatever the recursion limit. -/
theorem C08_cyclic_never_loads (F : Dict Str MsgFormat) (name b : Str) (h : UsesStar F name b)
    (hc : UsesPlus F b b) (depth : Nat) :
    parseFields F depth name = .error .keyError ∨
      parseFields F depth name = .error .recursionError := by
  apply parseFields_error
  intro acc hok
  obtain ⟨n, hn⟩ := h.chain
  obtain ⟨c, hbc, hcb⟩ := hc
  obtain ⟨m, hm⟩ := hbc.chain
  have hm := hm.snoc hcb
  have : ∀ k, Chain F (k * (m + 1)) b b := by
    intro k
    induction k with
    | zero => rw [Nat.zero_mul]; exact .nil _
    | succ k ih => rw [Nat.succ_mul]; exact ih.trans hm
  have hlong := hn.trans (this depth)
  have := (chain_lt hlong hok).1
  rw [Nat.mul_add] at this
  omega

/-- **C08** (unknown types). If a type reached from `name` is not defined, a subscription to `name`
never succeeds. -/
theorem C08_unknown_never_loads (F : Dict Str MsgFormat) (name b : Str) (h : UsesStar F name b)
    (hb : F.get? b = none) (depth : Nat) :
    parseFields F depth name = .error .keyError ∨
      parseFields F depth name = .error .recursionError := by
  apply parseFields_error
  intro acc hok
  obtain ⟨n, hn⟩ := h.chain
  obtain ⟨hlt, p, a1, a2, h2⟩ := chain_lt hn hok
  obtain ⟨fmt, _, hf, _⟩ := nest_sound h2
  rw [hb] at hf; cases hf

theorem foldlM_error {α β : Type} {step : β → α → Except PyErr β} {l : List α} {acc : β} {e : PyErr}
    (h : l.foldlM step acc = .error e) : ∃ a ∈ l, ∃ acc', step acc' a = .error e := by
  induction l generalizing acc with
  | nil => cases h
  | cons x xs ih =>
    rw [List.foldlM_cons] at h
    rcases except_bind_error.mp h with h | ⟨a1, h1, h2⟩
    · exact ⟨x, List.mem_cons_self .., acc, h⟩
    · obtain ⟨a, ha, h3⟩ := ih h2
      exact ⟨a, List.mem_cons_of_mem _ ha, h3⟩

/-- the recursion limit is only hit by a chain of nested types of that length -/
theorem recursion_chain {F : Dict Str MsgFormat} {d : Nat} {pre a : Str} {acc : NestAcc}
    (h : nest F d pre a acc = .error .recursionError) : ∃ b, Chain F d a b := by
  induction d generalizing pre a acc with
  | zero => exact ⟨a, .nil _⟩
  | succ d ih =>
    rw [nest_succ] at h
    cases hf : F.get? a with
    | none => rw [hf] at h; cases h
    | some fmt =>
      rw [hf] at h
      simp only at h
      obtain ⟨f, hm, acc', h1⟩ := foldlM_error h
      cases hb : basicType f.type with
      | some t => rw [nestStep_basic hb] at h1; cases h1
      | none =>
        rw [nestStep_nested hb] at h1
        obtain ⟨s, _, acc2, h2⟩ := foldlM_error h1
        obtain ⟨b, hcb⟩ := ih h2
        exact ⟨b, .cons ⟨fmt, hf, f, hm, hb, rfl⟩ hcb⟩

/-- **C08** (unknown types raise KeyError). If a type reached from `name` is not defined and the
nesting below `name` is less deep than the recursion limit, a subscription to `name` raises
`KeyError`. -/
theorem C08_unknown_raises_keyError (F : Dict Str MsgFormat) (name b : Str) (h : UsesStar F name b)
    (hb : F.get? b = none) (depth : Nat) (hd : ∀ c, ¬ Chain F depth name c) :
    parseFields F depth name = .error .keyError := by
  rcases C08_unknown_never_loads F name b h hb depth with h1 | h1
  · exact h1
  · exfalso
    unfold parseFields at h1
    rcases except_bind_error.mp h1 with h2 | ⟨_, _, h2⟩
    · obtain ⟨c, hc⟩ := recursion_chain h2
      exact hd c hc
    · cases h2

/-! ### position of the timestamp -/

/-- the timestamp index points to the column `timestamp`, or is -1 and there is none -/
def TsIdxOk (acc : NestAcc) : Prop :=
  (acc.2 = -1 ∧ ∀ c ∈ acc.1, c.name ≠ py! "timestamp") ∨
  ∃ (k : Nat) (c : FieldData), acc.2 = k ∧ acc.1[k]? = some c ∧ c.name = py! "timestamp"

theorem tsIdxOk_append {acc : NestAcc} {r : List FieldData} (h : TsIdxOk acc)
    (hr : ∀ c ∈ r, c.name ≠ py! "timestamp") : TsIdxOk (acc.1 ++ r, acc.2) := by
  rcases h with ⟨h1, h2⟩ | ⟨k, c, h1, h2, h3⟩
  · left
    refine ⟨h1, fun c hc => ?_⟩
    rcases List.mem_append.mp hc with hc | hc
    · exact h2 c hc
    · exact hr c hc
  · right
    refine ⟨k, c, h1, ?_, h3⟩
    simp only
    obtain ⟨hlt, _⟩ := List.getElem?_eq_some_iff.mp h2
    rw [List.getElem?_append_left hlt]
    exact h2

theorem suffix_ne {arr : Int} {s : Str} (hs : s ∈ suffixes arr) (h : 0 < arr) (p : Str) :
    p ++ s ≠ py! "timestamp" := by
  unfold suffixes at hs
  rw [if_pos h] at hs
  obtain ⟨i, _, rfl⟩ := List.mem_map.mp hs
  intro he
  have : ('[' : Char) ∈ py! "timestamp" := by rw [← he]; simp
  exact absurd this (by decide)

theorem nest_ts {F : Dict Str MsgFormat} {d : Nat} {pre ty : Str} {acc acc' : NestAcc}
    (h : nest F d pre ty acc = .ok acc') (hacc : TsIdxOk acc)
    (hpre : '.' ∈ pre ∨ ∀ fmt, F.get? ty = some fmt → ∀ f ∈ fmt.fields,
      pre ++ f.name = py! "timestamp" → basicType f.type ≠ none → f.arr ≤ 0) :
    TsIdxOk acc' := by
  induction d generalizing pre ty acc acc' with
  | zero => cases h
  | succ d ih =>
    rw [nest_succ] at h
    cases hf : F.get? ty with
    | none => rw [hf] at h; cases h
    | some fmt =>
      rw [hf] at h
      simp only at h
      have hpre' : '.' ∈ pre ∨ ∀ f ∈ fmt.fields,
          pre ++ f.name = py! "timestamp" → basicType f.type ≠ none → f.arr ≤ 0 := by
        rcases hpre with hp | hp
        · exact Or.inl hp
        · exact Or.inr (hp fmt hf)
      clear hpre
      generalize fmt.fields = fs at h hpre'
      clear hf
      induction fs generalizing acc with
      | nil => cases h; exact hacc
      | cons f fs ihf =>
        rw [List.foldlM_cons] at h
        obtain ⟨a1, h1, h2⟩ := except_bind_ok.mp h
        refine ihf ?_ h2 ?_
        · cases hb : basicType f.type with
          | some t =>
            rw [nestStep_basic hb] at h1
            cases h1
            by_cases hn : pre ++ f.name = py! "timestamp"
            · rw [if_pos hn]
              have harr : f.arr ≤ 0 := by
                rcases hpre' with hp | hp
                · exfalso
                  have : ('.' : Char) ∈ py! "timestamp" := by
                    rw [← hn]; exact List.mem_append_left _ hp
                  exact absurd this (by decide)
                · exact hp f (List.mem_cons_self ..) hn (by rw [hb]; simp)
              have hsuf : suffixes f.arr = [[]] := by
                unfold suffixes; rw [if_neg (by omega)]
              right
              refine ⟨acc.1.length, ⟨pre ++ f.name, t⟩, ?_, ?_, hn⟩
              · simp [hsuf]
              · simp [hsuf]
            · rw [if_neg hn]
              apply tsIdxOk_append hacc
              intro c hc
              obtain ⟨s, hs, rfl⟩ := List.mem_map.mp hc
              simp only
              by_cases ha : 0 < f.arr
              · exact suffix_ne hs ha _
              · unfold suffixes at hs
                rw [if_neg ha] at hs
                simp only [List.mem_singleton] at hs
                subst hs
                rw [List.append_nil]; exact hn
          | none =>
            rw [nestStep_nested hb] at h1
            generalize suffixes f.arr = ss at h1
            clear ihf h h2
            induction ss generalizing acc with
            | nil => cases h1; exact hacc
            | cons s ss ihs =>
              rw [List.foldlM_cons] at h1
              obtain ⟨a2, h3, h4⟩ := except_bind_ok.mp h1
              exact ihs (ih h3 hacc (Or.inl (by simp))) h4
        · rcases hpre' with hp | hp
          · exact Or.inl hp
          · exact Or.inr fun f hf => hp f (List.mem_cons_of_mem _ hf)

/-- **C08** (timestamp column). `timestamp_idx` is the index of the column named `timestamp`, or -1
when there is none, unless the format has an array field called `timestamp`. -/
theorem C08_timestamp_index (F : Dict Str MsgFormat) (depth : Nat) (name : Str)
    (cols : List FieldData) (idx : Int) (h : parseFields F depth name = .ok (cols, idx))
    (harr : ∀ fmt, F.get? name = some fmt → ∀ f ∈ fmt.fields, f.name = py! "timestamp" → f.arr ≤ 0) :
    (idx = -1 ∧ ∀ c ∈ cols, c.name ≠ py! "timestamp") ∨
    ∃ (k : Nat) (c : FieldData), idx = k ∧ cols[k]? = some c ∧ c.name = py! "timestamp" := by
  unfold parseFields at h
  obtain ⟨⟨full, i⟩, h1, h2⟩ := except_bind_ok.mp h
  have hts := nest_ts h1 (Or.inl ⟨rfl, by simp⟩) (Or.inr fun fmt hf f hm hn _ => harr fmt hf f hm hn)
  cases h2
  obtain ⟨pad, he, hp, _⟩ := stripsPadding_of full
  generalize (full.reverse.dropWhile (fun f => startsWith (py! "_padding") f.name)).reverse = cols
    at he
  subst he
  rcases hts with ⟨h1, h2⟩ | ⟨k, c, h1, h2, h3⟩
  · exact Or.inl ⟨h1, fun c hc => h2 c (List.mem_append_left _ hc)⟩
  · right
    refine ⟨k, c, h1, ?_, h3⟩
    by_cases hk : k < cols.length
    · rw [List.getElem?_append_left hk] at h2; exact h2
    · exfalso
      rw [List.getElem?_append_right (by omega)] at h2
      have := hp c (List.mem_of_getElem? h2)
      rw [h3] at this
      exact absurd this (by decide)

/-- the nested format of the sample file: two elements of `a`, a timestamp, padding removed -/
example : (parseFields Sample.loaded.formats 900 (py! "b")).toOption = some
    ([⟨py! "in[0].timestamp", .u64⟩, ⟨py! "in[0].x", .i16⟩, ⟨py! "in[1].timestamp", .u64⟩,
      ⟨py! "in[1].x", .i16⟩, ⟨py! "timestamp", .u64⟩], 4) := by decide +kernel

/-- a cyclic format: `a` contains `b`, `b` contains `a` -/
example :
    let F : Dict Str MsgFormat :=
      [(py! "a", ⟨py! "a", [⟨py! "b", 0, py! "x"⟩]⟩), (py! "b", ⟨py! "b", [⟨py! "a", 3, py! "y"⟩]⟩)]
    UsesStar F (py! "a") (py! "b") ∧ UsesPlus F (py! "b") (py! "b") := by
  have h1 : Uses [(py! "a", ⟨py! "a", [⟨py! "b", 0, py! "x"⟩]⟩),
      (py! "b", ⟨py! "b", [⟨py! "a", 3, py! "y"⟩]⟩)] (py! "a") (py! "b") :=
    ⟨_, rfl, _, List.mem_singleton.mpr rfl, by decide, rfl⟩
  have h2 : Uses [(py! "a", ⟨py! "a", [⟨py! "b", 0, py! "x"⟩]⟩),
      (py! "b", ⟨py! "b", [⟨py! "a", 3, py! "y"⟩]⟩)] (py! "b") (py! "a") :=
    ⟨_, rfl, _, List.mem_singleton.mpr rfl, by decide, rfl⟩
  exact ⟨.step (.refl _) h1, _, .step (.refl _) h2, h1⟩

/-- an undefined type one level down -/
example :
    let F : Dict Str MsgFormat := [(py! "a", ⟨py! "a", [⟨py! "b", 0, py! "x"⟩]⟩)]
    UsesStar F (py! "a") (py! "b") ∧ F.get? (py! "b") = none ∧ ∀ c, ¬ Chain F 2 (py! "a") c := by
  refine ⟨.step (.refl _) ⟨_, rfl, _, List.mem_singleton.mpr rfl, by decide, rfl⟩, rfl, ?_⟩
  intro c h
  cases h with
  | cons h1 h2 =>
    obtain ⟨fmt, hf, f, hm, _, rfl⟩ := h1
    cases hf
    cases List.mem_singleton.mp hm
    cases h2 with
    | cons h3 _ =>
      obtain ⟨fmt, hf, _⟩ := h3
      cases hf

end PyULog
