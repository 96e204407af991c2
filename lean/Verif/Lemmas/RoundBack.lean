import Verif.Lemmas.WriteTotal
import Verif.Lemmas.Dicts
/-
The log that is read back, described without the model's functions.
-/
namespace PyULog
open Spec

theorem putTag_get (d : Dict Nat (List TagMsg)) (m : TagMsg) (k : Nat) :
    (putTag d m).get? k = if m.tag = k then some ((d.get? k).getD [] ++ [m]) else d.get? k := by
  unfold putTag
  rw [Dict.get?_set]
  by_cases h : m.tag = k
  · subst h; simp
  · simp [h]

theorem foldl_putTag_get (l : List TagMsg) (d : Dict Nat (List TagMsg)) (k : Nat) :
    (l.foldl putTag d).get? k = if l.filter (fun m => m.tag = k) = [] then d.get? k
      else some ((d.get? k).getD [] ++ l.filter (fun m => m.tag = k)) := by
  induction l generalizing d with
  | nil => simp
  | cons m l ih =>
    rw [List.foldl_cons, ih, putTag_get]
    by_cases h : m.tag = k
    · rw [if_pos h]
      simp only [List.filter_cons, h, decide_true, if_true]
      by_cases h2 : l.filter (fun m => m.tag = k) = []
      · simp [h2]
      · simp [h2]
    · simp only [List.filter_cons, h, decide_false, if_false]
      simp

theorem foldl_putTag_nodup (l : List TagMsg) (d : Dict Nat (List TagMsg)) (hd : d.keys.Nodup) :
    (l.foldl putTag d).keys.Nodup := by
  induction l generalizing d with
  | nil => exact hd
  | cons m l ih => exact ih _ (Dict.keys_nodup_set _ _ _ hd)

theorem tagged_readBack (u : ULog) :
    (((canon u).tagged.map (·.1)).Nodup ∧
      ∀ t, t ∈ (canon u).tagged.map (·.1) ↔ ∃ m ∈ (u.tagged.map (·.2)).flatten, m.tag = t) ∧
    ∀ p ∈ (canon u).tagged, InOrder (fun m => (m.ts : Int))
      ((u.tagged.map (·.2)).flatten.filter fun m => m.tag = p.1) p.2 := by
  have hflat : u.tagged.vals.flatten = (u.tagged.map (·.2)).flatten := rfl
  have hc : (canon u).tagged = (ssort (fun a b => decide ((a.ts : Int) ≤ b.ts))
    (u.tagged.map (·.2)).flatten).foldl putTag [] := rfl
  generalize (u.tagged.map (·.2)).flatten = l at *
  have hn : (canon u).tagged.keys.Nodup := by
    rw [hc]
    exact foldl_putTag_nodup _ _ (by simp [Dict.keys])
  have hget : ∀ k, (canon u).tagged.get? k = if (ssort (fun a b => decide ((a.ts : Int) ≤ b.ts)) l).filter
      (fun m => m.tag = k) = [] then none
      else some ((ssort (fun a b => decide ((a.ts : Int) ≤ b.ts)) l).filter (fun m => m.tag = k)) := by
    intro k
    rw [hc, foldl_putTag_get]
    rfl
  have hpre : TotalPre (fun a b : TagMsg => decide ((a.ts : Int) ≤ b.ts)) :=
    totalPre_key (fun m : TagMsg => (m.ts : Int))
  refine ⟨⟨hn, ?_⟩, ?_⟩
  · intro t
    have : t ∈ (canon u).tagged.map (·.1) ↔ (canon u).tagged.get? t ≠ none := by
      rw [Ne, Dict.get?_eq_none_iff]
      exact ⟨fun h h2 => h2 h, fun h => Classical.not_not.mp h⟩
    rw [this, hget]
    by_cases h : (ssort (fun a b => decide ((a.ts : Int) ≤ b.ts)) l).filter (fun m => m.tag = t) = []
    · rw [if_pos h]
      constructor
      · intro h; exact absurd rfl h
      · rintro ⟨m, hm, e⟩
        rw [List.filter_eq_nil_iff] at h
        exact absurd (by simpa using e) (h m ((mem_ssort _ _ _).mpr hm))
    · rw [if_neg h]
      constructor
      · intro _
        obtain ⟨m, hm⟩ := List.exists_mem_of_ne_nil _ h
        obtain ⟨h1, h2⟩ := List.mem_filter.mp hm
        exact ⟨m, (mem_ssort _ _ _).mp h1, by simpa using h2⟩
      · intro _ h; cases h
  · intro p hp
    have hg := Dict.get?_of_mem _ p.1 p.2 hn hp
    rw [hget] at hg
    split at hg
    · cases hg
    · injection hg with hg
      rw [← hg, filter_ssort hpre]
      exact inOrder_ssort (fun m : TagMsg => (m.ts : Int)) _

theorem readBack_canon (u : ULog) : ReadBack u (canon u) where
  fileVersion := rfl
  startTs := rfl
  compat := rfl
  formats := rfl
  info := rfl
  infoTypes := rfl
  infoMulti := rfl
  infoMultiTypes := rfl
  initialParams := rfl
  defaultParams := rfl
  logged := inOrder_ssort (fun m : LogMsg => (m.ts : Int)) u.logged
  taggedKeys := (tagged_readBack u).1
  tagged := (tagged_readBack u).2
  dropouts := ⟨_, inOrder_ssort (fun m : Dropout => (m.ts : Int)) u.dropouts, rfl⟩
  changed := ⟨_, inOrder_ssort (fun p : Nat × Str × Value => (p.1 : Int)) u.changedParams, rfl⟩
  data := by
    refine ⟨List.length_map .., ?_⟩
    intro p hp
    have : (canon u).dataList = u.dataList.map sortedRows := rfl
    rw [this, List.zip_map_right] at hp
    obtain ⟨q, hq, rfl⟩ := List.mem_map.mp hp
    have : q.1 = q.2 := by
      obtain ⟨i, hi, rfl⟩ := List.getElem_of_mem hq
      rw [List.getElem_zip]
    obtain ⟨a, b⟩ := q
    simp only at this
    subst this
    exact sortedRows_same a
  lastTs := rfl
  incompat := rfl
  appendedOffsets := rfl
  fileCorrupt := rfl
  filteredIds := rfl
  missingIds := rfl
  subs := rfl
  hasSync := rfl
  syncCnt := rfl

/-! ### logs that are read back unchanged -/

theorem ssort_self {α : Type} {key : α → Int} {l : List α} (h : l.Pairwise fun a b => key a ≤ key b) :
    ssort (fun a b => decide (key a ≤ key b)) l = l :=
  ssort_of_sorted _ (h.imp fun h => by simpa using h)

theorem asParam_self {v : Value} (h : NotBool v) : asParam v = v := by
  cases v with
  | bool b => exact absurd rfl (h b)
  | _ => rfl

theorem putTag_sorted (l : List TagMsg) (d : Dict Nat (List TagMsg))
    (hl : l.Pairwise fun a b => a.ts ≤ b.ts)
    (hd : d.Pairwise fun p q => ∀ m ∈ p.2.head?, ∀ n ∈ q.2.head?, m.ts ≤ n.ts)
    (hdl : ∀ p ∈ d, p.2 ≠ [] ∧ ∀ m ∈ p.2.head?, ∀ n ∈ l, m.ts ≤ n.ts) :
    (l.foldl putTag d).Pairwise fun p q => ∀ m ∈ p.2.head?, ∀ n ∈ q.2.head?, m.ts ≤ n.ts := by
  induction l generalizing d with
  | nil => exact hd
  | cons x l ih =>
    rw [List.pairwise_cons] at hl
    rw [List.foldl_cons]
    -- the heads after adding `x`
    have hset : ∀ (d : Dict Nat (List TagMsg)),
        (d.Pairwise fun p q => ∀ m ∈ p.2.head?, ∀ n ∈ q.2.head?, m.ts ≤ n.ts) →
        (∀ p ∈ d, p.2 ≠ [] ∧ ∀ m ∈ p.2.head?, m.ts ≤ x.ts) → ∀ v, (∀ w, d.get? x.tag = some w → v = w) →
        (d.get? x.tag = none → v = []) →
        ((d.set x.tag (v ++ [x])).Pairwise fun p q => ∀ m ∈ p.2.head?, ∀ n ∈ q.2.head?, m.ts ≤ n.ts)
          ∧ ∀ p ∈ d.set x.tag (v ++ [x]), p.2 ≠ [] ∧ ∀ m ∈ p.2.head?, m = x ∨ ∃ q ∈ d, m ∈ q.2.head? := by
      intro d
      induction d with
      | nil =>
        intro _ _ v _ hv
        rw [hv rfl]
        simp [Dict.set]
      | cons p d ihd =>
        intro hd hx v h1 h2
        rw [List.pairwise_cons] at hd
        simp only [Dict.set]
        by_cases e : p.1 = x.tag
        · rw [if_pos e]
          have hv : v = p.2 := h1 p.2 (by simp [Dict.get?, e])
          subst hv
          have hne := (hx p (List.mem_cons_self ..)).1
          have hh : (p.2 ++ [x]).head? = p.2.head? := by
            cases hp : p.2 with
            | nil => exact absurd hp hne
            | cons a as => rfl
          refine ⟨?_, ?_⟩
          · rw [List.pairwise_cons]
            refine ⟨?_, hd.2⟩
            intro q hq m hm
            rw [hh] at hm
            exact hd.1 q hq m hm
          · intro q hq
            rcases List.mem_cons.mp hq with rfl | hq
            · refine ⟨by simp, ?_⟩
              intro m hm
              simp only at hm
              rw [hh] at hm
              exact Or.inr ⟨p, List.mem_cons_self .., hm⟩
            · exact ⟨(hx q (List.mem_cons_of_mem _ hq)).1,
                fun m hm => Or.inr ⟨q, List.mem_cons_of_mem _ hq, hm⟩⟩
        · rw [if_neg e]
          have hg : Dict.get? (p :: d) x.tag = Dict.get? d x.tag := by simp [Dict.get?, e]
          obtain ⟨i1, i2⟩ := ihd hd.2 (fun q hq => hx q (List.mem_cons_of_mem _ hq)) v
            (fun w hw => h1 w (hg ▸ hw)) (fun hw => h2 (hg ▸ hw))
          refine ⟨?_, ?_⟩
          · rw [List.pairwise_cons]
            refine ⟨?_, i1⟩
            intro q hq m hm n hn
            rcases (i2 q hq).2 n hn with rfl | ⟨r, hr, hn⟩
            · exact (hx p (List.mem_cons_self ..)).2 m hm
            · exact hd.1 r hr m hm n hn
          · intro q hq
            rcases List.mem_cons.mp hq with rfl | hq
            · exact ⟨(hx _ (List.mem_cons_self ..)).1,
                fun m hm => Or.inr ⟨_, List.mem_cons_self .., hm⟩⟩
            · refine ⟨(i2 q hq).1, ?_⟩
              intro m hm
              rcases (i2 q hq).2 m hm with h | ⟨r, hr, hm⟩
              · exact Or.inl h
              · exact Or.inr ⟨r, List.mem_cons_of_mem _ hr, hm⟩
    obtain ⟨g1, g2⟩ := hset d hd
      (fun p hp => ⟨(hdl p hp).1, fun m hm => (hdl p hp).2 m hm x (List.mem_cons_self ..)⟩)
      ((d.get? x.tag).getD []) (fun w hw => by rw [hw]; rfl) (fun hw => by rw [hw]; rfl)
    apply ih
    · exact hl.2
    · exact g1
    · intro p hp
      refine ⟨(g2 p hp).1, ?_⟩
      intro m hm n hn
      rcases (g2 p hp).2 m hm with rfl | ⟨q, hq, hm⟩
      · exact hl.1 n hn
      · exact (hdl q hq).2 m hm n (List.mem_cons_of_mem _ hn)

theorem flatten_filter_tag (d : Dict Nat (List TagMsg)) (hn : (d.map (·.1)).Nodup)
    (ht : ∀ p ∈ d, ∀ m ∈ p.2, m.tag = p.1) {p : Nat × List TagMsg} (hp : p ∈ d) :
    (d.map (·.2)).flatten.filter (fun m => m.tag = p.1) = p.2 := by
  have other : ∀ e : Dict Nat (List TagMsg), (∀ q ∈ e, ∀ m ∈ q.2, m.tag = q.1) → p.1 ∉ e.map (·.1) →
      (e.map (·.2)).flatten.filter (fun m => m.tag = p.1) = [] := by
    intro e he hne
    rw [List.filter_eq_nil_iff]
    intro m hm
    obtain ⟨l, hl, hm⟩ := List.mem_flatten.mp hm
    obtain ⟨q, hq, rfl⟩ := List.mem_map.mp hl
    have := he q hq m hm
    simp only [decide_eq_true_eq]
    intro e
    exact hne (by rw [← e, this]; exact List.mem_map_of_mem hq)
  induction d with
  | nil => cases hp
  | cons q d ih =>
    rw [List.map_cons, List.nodup_cons] at hn
    rw [List.map_cons, List.flatten_cons, List.filter_append]
    have htd : ∀ r ∈ d, ∀ m ∈ r.2, m.tag = r.1 := fun r hr => ht r (List.mem_cons_of_mem _ hr)
    rcases List.mem_cons.mp hp with rfl | hp
    · rw [other d htd hn.1, List.append_nil, List.filter_eq_self]
      intro m hm
      simpa using ht _ (List.mem_cons_self ..) m hm
    · rw [ih hn.2 htd hp, List.filter_eq_nil_iff.mpr]
      · rfl
      · intro m hm
        have := ht _ (List.mem_cons_self ..) m hm
        simp only [decide_eq_true_eq]
        intro e
        exact hn.1 (by rw [← this, e]; exact List.mem_map_of_mem hp)

theorem eq_of_filters {α : Type} {key : α → Int} {a b : List α}
    (ha : a.Pairwise fun x y => key x ≤ key y) (hb : b.Pairwise fun x y => key x ≤ key y)
    (h : ∀ t : Int, a.filter (fun x => decide (key x = t)) = b.filter (fun x => decide (key x = t))) :
    a = b := by
  have mem_of : ∀ {c d : List α}, (∀ t : Int, c.filter (fun x => decide (key x = t))
      = d.filter (fun x => decide (key x = t))) → ∀ x ∈ c, x ∈ d := by
    intro c d hcd x hx
    have : x ∈ c.filter (fun y => decide (key y = key x)) := List.mem_filter.mpr ⟨hx, by simp⟩
    rw [hcd] at this
    exact (List.mem_filter.mp this).1
  induction a generalizing b with
  | nil =>
    cases b with
    | nil => rfl
    | cons y b => exact absurd (mem_of (fun t => (h t).symm) y (List.mem_cons_self ..)) (by simp)
  | cons x a ih =>
    cases b with
    | nil => exact absurd (mem_of h x (List.mem_cons_self ..)) (by simp)
    | cons y b =>
      rw [List.pairwise_cons] at ha hb
      have h1 : key y ≤ key x := by
        rcases List.mem_cons.mp (mem_of h x (List.mem_cons_self ..)) with e | e
        · rw [e]; exact Int.le_refl _
        · exact hb.1 x e
      have h2 : key x ≤ key y := by
        rcases List.mem_cons.mp (mem_of (fun t => (h t).symm) y (List.mem_cons_self ..)) with e | e
        · rw [e]; exact Int.le_refl _
        · exact ha.1 y e
      have he : key y = key x := Int.le_antisymm h1 h2
      have hxy : x = y := by
        have := h (key x)
        simp only [List.filter_cons, he, decide_true, if_true] at this
        exact (List.cons.inj this).1
      subst hxy
      congr 1
      apply ih ha.2 hb.2
      intro t
      have := h t
      simp only [List.filter_cons] at this
      split at this
      · exact (List.cons.inj this).2
      · exact this

theorem nodup_of_map {α β : Type} (f : α → β) {l : List α} (h : (l.map f).Nodup) : l.Nodup := by
  rw [List.Nodup, List.pairwise_map] at h
  exact h.imp fun hab e => hab (congrArg f e)

theorem pairwise_mem_or {α : Type} {R : α → α → Prop} {l : List α} (h : l.Pairwise R) {a b : α}
    (ha : a ∈ l) (hb : b ∈ l) : a = b ∨ R a b ∨ R b a := by
  obtain ⟨i, hi, rfl⟩ := List.getElem_of_mem ha
  obtain ⟨j, hj, rfl⟩ := List.getElem_of_mem hb
  rw [List.pairwise_iff_getElem] at h
  rcases Nat.lt_trichotomy i j with e | e | e
  · exact Or.inr (Or.inl (h i j hi hj e))
  · subst e; exact Or.inl rfl
  · exact Or.inr (Or.inr (h j i hj hi e))

theorem pairwise_perm_eq {α : Type} {R : α → α → Prop} {l m : List α} (hp : l.Perm m)
    (hl : l.Pairwise R) (hm : m.Pairwise R) (anti : ∀ a ∈ m, ∀ b ∈ m, R a b → R b a → a = b) :
    l = m :=
  hp.eq_of_pairwise (fun a b ha hb => anti a (hp.mem_iff.mp ha) b hb) hl hm

theorem canon_tagged_sorted (u : ULog) : (canon u).tagged.Pairwise
    fun p q => ∀ m ∈ p.2.head?, ∀ n ∈ q.2.head?, m.ts ≤ n.ts := by
  apply putTag_sorted
  · refine (ssort_sorted (totalPre_key (fun m : TagMsg => (m.ts : Int)))
      u.tagged.vals.flatten).imp ?_
    intro a b hab
    have : (a.ts : Int) ≤ b.ts := by simpa using hab
    omega
  · exact List.Pairwise.nil
  · intro p hp; cases hp

/-- a message with the tag `a` comes before all messages with the tag `b` -/
def TagFirst (l : List TagMsg) (a b : Nat) : Prop :=
  ∃ pre x post, l = pre ++ x :: post ∧ x.tag = a ∧ ∀ m ∈ pre, m.tag ≠ b

theorem tagFirst_asymm {l : List TagMsg} {a b : Nat} (hab : a ≠ b) (h : TagFirst l a b) :
    ¬ TagFirst l b a := by
  obtain ⟨p, x, s, e, hx, hp⟩ := h
  rintro ⟨p', x', s', e', hx', hp'⟩
  rw [e] at e'
  rcases List.append_eq_append_iff.mp e' with ⟨c, h1, h2⟩ | ⟨c, h1, h2⟩
  · cases c with
    | nil =>
      rw [List.nil_append] at h2
      injection h2 with h2 _
      exact hab (by rw [← hx, ← hx', h2])
    | cons y c =>
      rw [List.cons_append] at h2
      injection h2 with h2 _
      subst h2
      exact hp' x (by rw [h1]; simp) hx
  · cases c with
    | nil =>
      rw [List.nil_append] at h2
      injection h2 with h2 _
      exact hab (by rw [← hx, ← hx', h2])
    | cons y c =>
      rw [List.cons_append] at h2
      injection h2 with h2 _
      subst h2
      exact hp x' (by rw [h1]; simp) hx'

theorem tagFirst_snoc {l : List TagMsg} {a b : Nat} (x : TagMsg) (h : TagFirst l a b) :
    TagFirst (l ++ [x]) a b := by
  obtain ⟨p, y, s, e, hy, hp⟩ := h
  exact ⟨p, y, s ++ [x], by rw [e]; simp, hy, hp⟩

theorem putTag_keys (l : List TagMsg) (k : Nat) :
    k ∈ (l.foldl putTag []).keys ↔ ∃ m ∈ l, m.tag = k := by
  have h := Dict.get?_eq_none_iff (l.foldl putTag []) k
  rw [foldl_putTag_get] at h
  rw [← Decidable.not_iff_not, ← h]
  constructor
  · intro h2
    split at h2
    · rename_i hf
      rintro ⟨m, hm, e⟩
      rw [List.filter_eq_nil_iff] at hf
      exact hf m hm (by simpa using e)
    · cases h2
  · intro h2
    rw [if_pos]
    · rfl
    · rw [List.filter_eq_nil_iff]
      intro m hm e
      exact h2 ⟨m, hm, by simpa using e⟩

theorem putTag_first (l : List TagMsg) : (l.foldl putTag []).keys.Pairwise (TagFirst l) := by
  generalize hn : l.length = n
  induction n generalizing l with
  | zero =>
    have := List.length_eq_zero_iff.mp hn
    subst this
    exact List.Pairwise.nil
  | succ n ih =>
    have hne : l ≠ [] := by rintro rfl; cases hn
    have hl := List.dropLast_concat_getLast hne
    generalize l.dropLast = l' at hl
    generalize l.getLast hne = x at hl
    subst hl
    have ih := ih l' (by simpa using hn)
    rw [List.foldl_append]
    show (Dict.set (l'.foldl putTag []) x.tag _).keys.Pairwise _
    by_cases hx : x.tag ∈ (l'.foldl putTag []).keys
    · rw [Dict.keys_set, if_pos hx]
      exact ih.imp (tagFirst_snoc x)
    · rw [Dict.keys_set, if_neg hx, List.pairwise_append]
      refine ⟨ih.imp (tagFirst_snoc x), by simp, ?_⟩
      intro k hk y hy
      rw [List.mem_singleton] at hy
      subst hy
      obtain ⟨m, hm, e⟩ := (putTag_keys _ _).mp hk
      obtain ⟨s, t, rfl⟩ := List.append_of_mem hm
      refine ⟨s, m, t ++ [x], by simp, e, ?_⟩
      intro m' hm' e'
      exact hx ((putTag_keys _ _).mpr ⟨m', List.mem_append_left _ hm', e'⟩)

theorem tagged_self {u : ULog} (h : Settled u) : (canon u).tagged = u.tagged := by
  obtain ⟨⟨k1, k2⟩, k3⟩ := tagged_readBack u
  have hcan : ∀ p ∈ (canon u).tagged, p ∈ u.tagged := by
    intro p hp
    obtain ⟨m, hm, e⟩ := (k2 p.1).mp (List.mem_map_of_mem hp)
    obtain ⟨l, hl, hm⟩ := List.mem_flatten.mp hm
    obtain ⟨q, hq, rfl⟩ := List.mem_map.mp hl
    have hqp : q.1 = p.1 := by rw [← e, (h.tagged q hq).2.2 m hm]
    have hin := k3 p hp
    rw [← hqp, flatten_filter_tag _ h.taggedKeys (fun r hr => (h.tagged r hr).2.2) hq] at hin
    have : p.2 = q.2 := by
      apply eq_of_filters (key := fun m : TagMsg => (m.ts : Int)) hin.2.1 _ hin.2.2
      exact (h.tagged q hq).2.1.imp fun h => by omega
    have : p = q := Prod.ext hqp.symm this
    rw [this]
    exact hq
  have hback : ∀ q ∈ u.tagged, q ∈ (canon u).tagged := by
    intro q hq
    obtain ⟨h1, h2, h3⟩ := h.tagged q hq
    obtain ⟨m, hm⟩ := List.exists_mem_of_ne_nil _ h1
    have : q.1 ∈ (canon u).tagged.map (·.1) :=
      (k2 q.1).mpr ⟨m, List.mem_flatten.mpr ⟨_, List.mem_map_of_mem hq, hm⟩, h3 m hm⟩
    obtain ⟨p, hp, e⟩ := List.mem_map.mp this
    have hp' := hcan p hp
    have : p = q := by
      have a := Dict.get?_of_mem _ p.1 p.2 h.taggedKeys hp'
      have b := Dict.get?_of_mem _ q.1 q.2 h.taggedKeys hq
      rw [e, b] at a
      exact Prod.ext e (Option.some.inj a).symm
    rw [← this]
    exact hp
  have hperm : (canon u).tagged.Perm u.tagged := by
    rw [List.perm_ext_iff_of_nodup (nodup_of_map _ k1) (nodup_of_map _ h.taggedKeys)]
    exact fun p => ⟨hcan p, hback p⟩
  -- both are in the order of the first message of each tag
  have hc : (canon u).tagged = (ssort (fun a b : TagMsg => decide ((a.ts : Int) ≤ b.ts))
    (u.tagged.map (·.2)).flatten).foldl putTag [] := rfl
  have hin := inOrder_ssort (fun m : TagMsg => (m.ts : Int)) (u.tagged.map (·.2)).flatten
  generalize ssort (fun a b : TagMsg => decide ((a.ts : Int) ≤ b.ts))
    (u.tagged.map (·.2)).flatten = l at hc hin
  apply pairwise_perm_eq (R := fun p q => TagFirst l p.1 q.1) hperm
  · rw [hc]
    have := putTag_first l
    rwa [Dict.keys, List.pairwise_map] at this
  · rw [List.pairwise_iff_getElem]
    intro i j hi hj hij
    have hpq : u.tagged[i].1 ≠ u.tagged[j].1 := by
      have := h.taggedKeys
      rw [List.Nodup, List.pairwise_map, List.pairwise_iff_getElem] at this
      exact this i j hi hj hij
    have hle := h.taggedOrder
    rw [List.pairwise_iff_getElem] at hle
    have hle := hle i j hi hj hij
    have hpm : u.tagged[i] ∈ u.tagged := List.getElem_mem _
    have hqm : u.tagged[j] ∈ u.tagged := List.getElem_mem _
    have hsplit : u.tagged = u.tagged.take i ++ u.tagged[i] :: u.tagged.drop (i + 1) := by
      rw [List.getElem_cons_drop, List.take_append_drop]
    have hnot : u.tagged[j].1 ∉ (u.tagged.take i).map (·.1) := by
      intro hm
      obtain ⟨r, hr, e⟩ := List.mem_map.mp hm
      obtain ⟨k, hk, rfl⟩ := List.getElem_of_mem hr
      rw [List.length_take] at hk
      have := h.taggedKeys
      rw [List.Nodup, List.pairwise_map, List.pairwise_iff_getElem] at this
      rw [List.getElem_take] at e
      exact this k j (by omega) hj (by omega) e
    generalize u.tagged[i] = p at *
    generalize u.tagged[j] = q at *
    obtain ⟨p1, p2, p3⟩ := h.tagged p hpm
    obtain ⟨q1, q2, q3⟩ := h.tagged q hqm
    cases hp2 : p.2 with
    | nil => exact absurd hp2 p1
    | cons a as =>
      cases hq2 : q.2 with
      | nil => exact absurd hq2 q1
      | cons b bs =>
        rw [hp2, hq2] at hle
        have hab : a.ts ≤ b.ts := hle a rfl b rfl
        have hf := hin.2.2 (a.ts : Int)
        rw [hsplit] at hf
        simp only [List.map_append, List.map_cons, List.flatten_append, List.flatten_cons,
          List.filter_append, hp2] at hf
        rw [List.filter_cons_of_pos (by simp), List.cons_append] at hf
        obtain ⟨l1, l2, e, e1, e2⟩ := List.filter_eq_append_iff.mp hf
        obtain ⟨l3, l4, e3, e4, e5, e6⟩ := List.filter_eq_cons_iff.mp e2
        refine ⟨l1 ++ l3, a, l4, by rw [e, e3]; simp, p3 a (by rw [hp2]; exact List.mem_cons_self ..), ?_⟩
        intro m hm hmq
        have hml : m ∈ l := by rw [e, e3]; simp only [List.mem_append] at hm ⊢; rcases hm with h | h; exact Or.inl h; exact Or.inr (Or.inl h)
        have hlt : m.ts ≤ a.ts := by
          have hs := hin.2.1
          rw [e, e3, ← List.append_assoc, List.pairwise_append] at hs
          have : (m.ts : Int) ≤ a.ts := hs.2.2 m hm a (List.mem_cons_self ..)
          omega
        have hmq2 : m ∈ q.2 := by
          have h1 := hin.1.mem_iff.mp hml
          rw [← flatten_filter_tag _ h.taggedKeys (fun r hr => (h.tagged r hr).2.2) hqm]
          exact List.mem_filter.mpr ⟨h1, by simpa using hmq⟩
        have hge : b.ts ≤ m.ts := by
          rw [hq2] at hmq2 q2
          rcases List.mem_cons.mp hmq2 with rfl | h2
          · exact Nat.le_refl _
          · exact (List.pairwise_cons.mp q2).1 m h2
        have hmt : m.ts = a.ts := by omega
        rcases List.mem_append.mp hm with h1 | h1
        · have : m ∈ l1.filter (fun x => decide ((x.ts : Int) = a.ts)) :=
            List.mem_filter.mpr ⟨h1, by simp [hmt]⟩
          rw [e1] at this
          have := (List.mem_filter.mp this).1
          obtain ⟨y, hy, hmy⟩ := List.mem_flatten.mp this
          obtain ⟨r, hr, rfl⟩ := List.mem_map.mp hy
          have hr' : r ∈ u.tagged := List.mem_of_mem_take hr
          have := (h.tagged r hr').2.2 m hmy
          exact hnot (List.mem_map.mpr ⟨r, hr, by rw [← this, hmq]⟩)
        · exact absurd (by simp [hmt]) (e4 m h1)
  · intro p hp q hq h1 h2
    by_cases e : p.1 = q.1
    · have a := Dict.get?_of_mem _ p.1 p.2 h.taggedKeys hp
      have b := Dict.get?_of_mem _ q.1 q.2 h.taggedKeys hq
      rw [e, b] at a
      exact Prod.ext e (Option.some.inj a).symm
    · exact absurd h2 (tagFirst_asymm e h1)

theorem sortedRows_self {depth : Nat} {u : ULog} (hu : Writable depth u) (h : Settled u) {d : Dataset} (hd : d ∈ u.dataList) :
    sortedRows d = d := by
  have hord : rowOrder d = List.range (rowCount d) := by
    unfold rowOrder
    apply ssort_self
    rw [List.pairwise_iff_getElem]
    intro i j hi hj hij
    rw [List.length_range] at hi hj
    rw [List.getElem_range, List.getElem_range]
    exact h.rows d hd i j hij hj
  have ok := hu.data d hd
  have hn : (d.data.map (·.1)).Nodup := by rw [ok.columns]; exact ok.distinct
  have hcol : ∀ k col, d.data.get? k = some col →
      (List.range (rowCount d)).filterMap (cell d k) = col := by
    intro k col hk
    have hlen := ok.shape _ (Dict.mem_of_get? _ _ _ hk)
    rw [← hlen]
    show (List.range col.length).filterMap (fun i => cell d k i) = col
    rw [filterMap_all_some (g := fun i => col.getD i (.int 0))]
    · apply List.ext_getElem
      · simp
      · intro i h1 h2
        simp [List.getD, h2]
    · intro i hi
      have := List.mem_range.mp hi
      unfold cell
      rw [hk]
      simp [List.getD, this]
  have hdata : (d.fields.map fun f =>
      (f.name, (rowOrder d).filterMap fun i => (cell d f.name i).map (stored f.type))) = d.data := by
    rw [dict_eq_map hn (fun k => (List.range (rowCount d)).filterMap (cell d k)) hcol, ok.columns,
      List.map_map]
    apply List.map_congr_left
    intro f hf
    rw [hord]
    show (f.name, _) = (f.name, (List.range (rowCount d)).filterMap (cell d f.name))
    congr 1
    congr 1
    funext i
    cases hc : cell d f.name i with
    | none => rfl
    | some v => exact congrArg some (h.values d hd f hf i v hc)
  unfold sortedRows
  rw [hdata]

theorem canon_settled {depth : Nat} {u : ULog} (hu : Writable depth u) (h : Settled u) : canon u = cleaned u := by
  have h1 : (canon u).logged = u.logged := ssort_self (h.logged.imp fun h => by omega)
  have h2 : (canon u).dropouts = u.dropouts := by
    show (ssort _ u.dropouts).map _ = _
    rw [ssort_self (key := fun m : Dropout => (m.ts : Int)) (h.dropouts.imp fun h => by omega)]
    conv => rhs; rw [← List.map_id u.dropouts]
    apply List.map_congr_left
    intro m hm
    obtain ⟨a, b⟩ := h.dropoutTimes m hm
    show (⟨m.duration, clockOf u.startTs (rowTimes u) m.ts⟩ : Dropout) = m
    rw [clockOf_mem a b]
  have h3 : (canon u).changedParams = u.changedParams := by
    show (ssort _ u.changedParams).map _ = _
    rw [ssort_self (key := fun p : Nat × Str × Value => (p.1 : Int)) (h.changed.imp fun h => by omega)]
    conv => rhs; rw [← List.map_id u.changedParams]
    apply List.map_congr_left
    intro p hp
    obtain ⟨a, b⟩ := h.changedTimes p hp
    show (clockOf u.startTs (rowTimes u) p.1, p.2.1, asParam p.2.2) = p
    rw [clockOf_mem a b, asParam_self (h.params.2.2 p hp)]
  have h4 := tagged_self h
  have h5 : (canon u).dataList = u.dataList := by
    show u.dataList.map sortedRows = _
    conv => rhs; rw [← List.map_id u.dataList]
    exact List.map_congr_left fun d hd => sortedRows_self hu h hd
  have h6 : (canon u).initialParams = u.initialParams := by
    show (u.initialParams.map _) = _
    conv => rhs; rw [← List.map_id u.initialParams]
    apply List.map_congr_left
    intro p hp
    show (p.1, asParam p.2) = p
    rw [asParam_self (h.params.1 p hp)]
  have h7 : (canon u).defaultParams = u.defaultParams := by
    show (u.defaultParams.map _) = _
    conv => rhs; rw [← List.map_id u.defaultParams]
    apply List.map_congr_left
    intro p hp
    show (p.1, p.2.map fun q => (q.1, asParam q.2)) = p
    have : (p.2.map fun q => (q.1, asParam q.2)) = p.2 := by
      conv => rhs; rw [← List.map_id p.2]
      apply List.map_congr_left
      intro q hq
      show (q.1, asParam q.2) = q
      rw [asParam_self (h.params.2.1 p hp q hq)]
    rw [this]
  have h8 : (canon u).lastTs = u.lastTs := h.lastTs.symm
  have e : canon u = { cleaned u with
      logged := (canon u).logged
      dropouts := (canon u).dropouts
      changedParams := (canon u).changedParams
      tagged := (canon u).tagged
      dataList := (canon u).dataList
      initialParams := (canon u).initialParams
      defaultParams := (canon u).defaultParams
      lastTs := (canon u).lastTs } := rfl
  rw [e, h1, h2, h3, h4, h5, h6, h7, h8]
  rfl

end PyULog
