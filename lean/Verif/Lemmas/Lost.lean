import Verif.Spec.Lost
import Verif.Lemmas.Damage
import Verif.Lemmas.DamageMsg
/-
Lemmas for C109: two runs of the reader, one without one of the messages.
-/
namespace PyULog
open Spec

/-! ### rows -/

/-- a part of the bytes is missing -/
def dropped (k m : Nat) (b : Bytes) : Bytes := b.take k ++ b.drop (k + m)

theorem dropped_length {k m : Nat} {b : Bytes} (h : k + m ≤ b.length) : (dropped k m b).length + m = b.length := by
  unfold dropped
  rw [List.length_append, List.length_take, List.length_drop]
  omega

theorem dropped_append {k m : Nat} {b : Bytes} (c : Bytes) (h : k + m ≤ b.length) :
    dropped k m (b ++ c) = dropped k m b ++ c := by
  unfold dropped
  rw [List.take_append_of_le_length (by omega), List.drop_append_of_le_length h]
  simp only [List.append_assoc]

theorem dropped_get {k m : Nat} {b : Bytes} (h : k + m ≤ b.length) (t : Nat) :
    (dropped k m b)[t]? = if t < k then b[t]? else b[t + m]? := by
  unfold dropped
  by_cases ht : t < k
  · rw [if_pos ht, List.getElem?_append_left (by rw [List.length_take]; omega), List.getElem?_take_of_lt ht]
  · rw [if_neg ht, List.getElem?_append_right (by rw [List.length_take]; omega), List.getElem?_drop]
    congr 1
    rw [List.length_take]
    omega

theorem rowsOf_get (n : Nat) (b : Bytes) (j : Nat) :
    (rowsOf n b)[j]? = if j < b.length / n then some ((b.drop (j * n)).take n) else none := by
  unfold rowsOf
  rw [List.getElem?_map]
  by_cases h : j < b.length / n
  · rw [if_pos h, List.getElem?_range h]
    rfl
  · rw [if_neg h, List.getElem?_eq_none (by rw [List.length_range]; omega)]
    rfl

theorem rowsOf_dropped {i n : Nat} {b : Bytes} (hn : 0 < n) (h : i * n + n ≤ b.length) :
    rowsOf n (dropped (i * n) n b) = (rowsOf n b).eraseIdx i := by
  have hl : (dropped (i * n) n b).length + n = b.length := dropped_length h
  have hdiv : (dropped (i * n) n b).length / n + 1 = b.length / n := by
    rw [← hl, Nat.add_div_right _ hn]
  have hi : i < b.length / n := by
    rw [Nat.lt_iff_add_one_le, Nat.le_div_iff_mul_le hn, Nat.add_mul, Nat.one_mul]
    exact h
  apply List.ext_getElem?
  intro j
  rw [rowsOf_get, List.getElem?_eraseIdx, rowsOf_get, rowsOf_get]
  by_cases hj : j < i
  · rw [if_pos hj, if_pos (by omega), if_pos (by omega)]
    congr 1
    apply List.ext_getElem?
    intro t
    by_cases ht : t < n
    · rw [List.getElem?_take_of_lt ht, List.getElem?_take_of_lt ht, List.getElem?_drop, List.getElem?_drop, dropped_get h,
        if_pos ?_]
      have := Nat.mul_le_mul_right n (show j + 1 ≤ i from hj)
      rw [Nat.add_mul, Nat.one_mul] at this
      omega
    · rw [List.getElem?_take_eq_none (by omega), List.getElem?_take_eq_none (by omega)]
  · rw [if_neg hj]
    by_cases hjl : j + 1 < b.length / n
    · rw [if_pos (by omega), if_pos hjl]
      congr 1
      apply List.ext_getElem?
      intro t
      by_cases ht : t < n
      · rw [List.getElem?_take_of_lt ht, List.getElem?_take_of_lt ht, List.getElem?_drop, List.getElem?_drop, dropped_get h,
          if_neg ?_]
        · congr 1
          rw [Nat.add_mul, Nat.one_mul]
          omega
        · have := Nat.mul_le_mul_right n (show i ≤ j by omega)
          omega
      · rw [List.getElem?_take_eq_none (by omega), List.getElem?_take_eq_none (by omega)]
    · rw [if_neg (by omega), if_neg hjl]

theorem map_eraseIdx' {α β : Type} (f : α → β) (l : List α) (i : Nat) : (l.eraseIdx i).map f = (l.map f).eraseIdx i := by
  apply List.ext_getElem?
  intro j
  rw [List.getElem?_map, List.getElem?_eraseIdx, List.getElem?_eraseIdx, List.getElem?_map, List.getElem?_map]
  split <;> rfl

theorem columns_eraseIdx (rows : List Bytes) (i off : Nat) (fs : List FieldData) :
    columns (rows.eraseIdx i) off fs = (columns rows off fs).map fun c => (c.1, c.2.eraseIdx i) := by
  induction fs generalizing off with
  | nil => rfl
  | cons f fs ih =>
    unfold columns
    rw [List.map_cons, ih, map_eraseIdx']

theorem columns_length {rows : List Bytes} {off : Nat} {fs : List FieldData} {c : Str × List NpVal}
    (h : c ∈ columns rows off fs) : c.2.length = rows.length := by
  induction fs generalizing off with
  | nil => cases h
  | cons f fs ih =>
    unfold columns at h
    rcases List.mem_cons.mp h with rfl | h
    · exact List.length_map ..
    · exact ih h

theorem columns_oneRow {rows : List Bytes} {off : Nat} {fs : List FieldData} (hne : fs ≠ []) :
    ((columns rows off fs).all fun c => decide (c.2.length = 1)) = decide (rows.length = 1) := by
  by_cases h : rows.length = 1
  · rw [decide_eq_true h, List.all_eq_true]
    intro c hc
    rw [columns_length hc]
    exact decide_eq_true h
  · cases fs with
    | nil => exact absurd rfl hne
    | cons f fs =>
      unfold columns
      rw [List.all_cons, decide_eq_false h, decide_eq_false (by rw [List.length_map]; exact h)]
      rfl

/-! ### subscriptions -/

/-- the buffer of the subscription with this id lacks a row -/
def cutSub (id k m i : Nat) (s : Sub) : Sub := if i = id then { s with buffer := dropped k m s.buffer } else s

/-- the subscriptions are the same, or the buffer of one lacks a row -/
def SubsLess (id : Nat) (us vs : Dict Nat Sub) : Prop :=
  vs = us ∨ ∃ (n : Nat) (s : Sub), us.get? id = some s ∧ 0 < s.itemSize ∧ n * s.itemSize + s.itemSize ≤ s.buffer.length ∧
    vs = us.map fun p => (p.1, cutSub id (n * s.itemSize) s.itemSize p.1 p.2)

theorem subsLess_rel (id : Nat) : SubsRel (SubsLess id) where
  keys h := by
    rcases h with rfl | ⟨n, s, -, -, -, rfl⟩
    · rfl
    · unfold Dict.keys
      rw [List.map_map]
      rfl
  none h hi := by
    rcases h with rfl | ⟨n, s, -, -, -, rfl⟩
    · exact hi
    · rw [get?_map_keyed (cutSub id (n * s.itemSize) s.itemSize), hi]
      rfl
  some {us vs i s} h hi hk := by
    rcases h with rfl | ⟨n, t, ht, hpos, hle, rfl⟩
    · exact ⟨s.buffer, hk.buffer, hi, fun c => .inl rfl⟩
    · rw [get?_map_keyed (cutSub id (n * t.itemSize) t.itemSize), hi]
      by_cases he : i = id
      · subst he
        rw [hi] at ht
        injection ht with ht
        subst ht
        refine ⟨dropped (n * s.itemSize) s.itemSize s.buffer, ?_, ?_, ?_⟩
        · obtain ⟨k, hk⟩ := hk.buffer
          have := dropped_length hle
          refine ⟨k - 1, ?_⟩
          rw [Nat.sub_mul, Nat.one_mul]
          omega
        · simp only [Option.map_some, cutSub, if_true]
        · intro c
          refine .inr ⟨n, { s with buffer := s.buffer ++ c }, Dict.get?_set_self .., hpos, ?_, ?_⟩
          · show n * s.itemSize + s.itemSize ≤ (s.buffer ++ c).length
            rw [List.length_append]
            omega
          · rw [map_set_keyed (cutSub i (n * s.itemSize) s.itemSize)]
            congr 1
            simp only [cutSub, if_true]
            rw [dropped_append c hle]
      · refine ⟨s.buffer, hk.buffer, ?_, ?_⟩
        · simp only [Option.map_some, cutSub, if_neg he]
        · intro c
          refine .inr ⟨n, t, ?_, hpos, hle, ?_⟩
          · rw [Dict.get?_set_ne _ _ he]
            exact ht
          · rw [map_set_keyed (cutSub id (n * t.itemSize) t.itemSize)]
            congr 1
            simp only [cutSub, if_neg he]
  set {us vs} h hn i s := by
    rcases h with rfl | ⟨n, t, ht, hpos, hle, rfl⟩
    · exact .inl rfl
    · by_cases he : i = id
      · subst he
        left
        refine set_map_at (cutSub i (n * t.itemSize) t.itemSize) i ?_ us hn s ?_
        · intro j a hj
          exact if_neg hj
        · exact List.mem_map.mpr ⟨_, Dict.mem_of_get? _ _ _ ht, rfl⟩
      · refine .inr ⟨n, t, ?_, hpos, hle, ?_⟩
        · rw [Dict.get?_set_ne _ _ he]
          exact ht
        · rw [map_set_keyed (cutSub id (n * t.itemSize) t.itemSize)]
          congr 1
          exact (if_neg he).symm

theorem set_same {κ α : Type} [DecidableEq κ] (d : Dict κ α) {k : κ} {v : α} (h : d.get? k = some v) : d.set k v = d := by
  induction d with
  | nil => cases h
  | cons p d ih =>
    unfold Dict.get? at h
    unfold Dict.set
    by_cases he : p.1 = k
    · rw [if_pos he] at h ⊢
      injection h with h
      rw [← h]
    · rw [if_neg he] at h ⊢
      rw [ih h]

/-- the outcome of the sample that is lost in the other log -/
theorem lost_step {T : Prop} {u : ULog} {p : Bytes} {s : Sub} (hu : SubsOk u) (h2 : 2 ≤ p.length)
    (hs : u.subs.get? (leAt p 0 2) = some s) (hl : p.length = 2 + rowSize s.fields)
    (ht : tsPos s.fields + 8 ≤ rowSize s.fields) (hT : T → leAt p (2 + tsPos s.fields) 8 ≤ u.lastTs) :
    ∃ w, addData u p = .ok w ∧ DSim T (SubsLess (leAt p 0 2)) w u := by
  have hsub : ∀ o, addData u p = o → SubsOk o.state := fun o ho =>
    handleData_subsOk (cfg := {}) (ty := MSG_TYPE_DATA) (d := p) hu (by rw [handleData_D, ho])
  have hsk := hu.2 _ _ hs
  have hsz : s.itemSize = rowSize s.fields := by rw [hsk.itemSize]; exact (rowSize_eq _).symm
  rcases addData_cases u p hu with ⟨h, _⟩ | ⟨_, hn, _⟩ | ⟨_, s', hs', hc⟩
  · omega
  · rw [hs] at hn; cases hn
  · rw [hs] at hs'
    injection hs' with hs'
    subst hs'
    rcases hc with ⟨hne, _⟩ | ⟨_, ⟨_, hr⟩ | ⟨ht', _⟩⟩
    · exact absurd hl hne
    · refine ⟨_, hr, ?_⟩
      have hok := hsub _ hr
      refine ⟨?_, rfl, rfl, ?_, hok, ?_⟩
      · have h : ∀ a s, calm { u with subs := a, lastTs := s } = calm u := fun _ _ => rfl
        exact (h _ _).symm
      · intro t
        refine ⟨?_, rfl, rfl⟩
        show u.lastTs = max u.lastTs _
        rw [Nat.max_eq_left (hT t)]
      · obtain ⟨n, hn⟩ := hsk.buffer
        refine .inr ⟨n, { s with buffer := s.buffer ++ p.drop 2 }, Dict.get?_set_self .., ?_, ?_, ?_⟩
        · show 0 < s.itemSize
          omega
        · show n * s.itemSize + s.itemSize ≤ (s.buffer ++ p.drop 2).length
          rw [List.length_append, List.length_drop]
          omega
        · show u.subs = (u.subs.set (leAt p 0 2) { s with buffer := s.buffer ++ p.drop 2 }).map
            fun q => (q.1, cutSub (leAt p 0 2) (n * s.itemSize) s.itemSize q.1 q.2)
          rw [map_set_keyed (cutSub (leAt p 0 2) (n * s.itemSize) s.itemSize),
            set_map_at (cutSub (leAt p 0 2) (n * s.itemSize) s.itemSize) (leAt p 0 2) (fun j a hj => if_neg hj) _ hu.1 _
              (List.mem_map.mpr ⟨_, Dict.mem_of_get? _ _ _ hs, rfl⟩)]
          have hb : cutSub (leAt p 0 2) (n * s.itemSize) s.itemSize (leAt p 0 2) { s with buffer := s.buffer ++ p.drop 2 } = s := by
            unfold cutSub dropped
            rw [if_pos rfl, ← hn]
            have hnil : (s.buffer ++ p.drop 2).drop (s.buffer.length + s.itemSize) = [] := by
              apply List.drop_of_length_le
              rw [List.length_append, List.length_drop]
              omega
            show { s with buffer := (s.buffer ++ p.drop 2).take s.buffer.length
              ++ (s.buffer ++ p.drop 2).drop (s.buffer.length + s.itemSize) } = s
            rw [List.take_left, hnil, List.append_nil]
          rw [hb, set_same _ hs]
    · omega

/-! ### the datasets -/

theorem mapM_keep {α β : Type} {g g' : α → Except PyErr β} {p : α → Bool} {q : β → Bool} {f : β → β} {l : List α}
    (h1 : ∀ a ∈ l, p a = true → g' a = (g a).map f) (h2 : ∀ a ∈ l, p a = false → ∃ b, g a = .ok b)
    (h3 : ∀ a ∈ l, ∀ b, g a = .ok b → q b = p a) :
    (l.filter p).mapM g' = (l.mapM g).map fun bs => (bs.filter q).map f := by
  induction l with
  | nil => rfl
  | cons a l ih =>
    have ih := ih (fun b hb => h1 b (List.mem_cons_of_mem _ hb)) (fun b hb => h2 b (List.mem_cons_of_mem _ hb))
      (fun b hb => h3 b (List.mem_cons_of_mem _ hb))
    have hq := h3 a (List.mem_cons_self ..)
    rw [List.mapM_cons]
    cases hp : p a with
    | true =>
      rw [List.filter_cons_of_pos hp, List.mapM_cons, h1 a (List.mem_cons_self ..) hp, ih]
      cases hg : g a with
      | error e => rfl
      | ok b =>
        have hqb := hq b hg
        rw [hp] at hqb
        cases l.mapM g with
        | error e => rfl
        | ok bs =>
          show Except.ok _ = Except.ok (((b :: bs).filter q).map f)
          rw [List.filter_cons_of_pos hqb]
          rfl
    | false =>
      obtain ⟨b, hg⟩ := h2 a (List.mem_cons_self ..) hp
      have hqb := hq b hg
      rw [hp] at hqb
      rw [List.filter_cons_of_neg (by rw [hp]; decide), ih, hg]
      cases l.mapM g with
      | error e => rfl
      | ok bs =>
        show Except.ok _ = Except.ok (((b :: bs).filter q).map f)
        rw [List.filter_cons_of_neg (by rw [hqb]; decide)]

theorem lost_finalize {T : Prop} {id : Nat} {u v : ULog} (h : DSim T (SubsLess id) u v) (hd : u.dataList = []) :
    (∀ e, finalize u = .error e → finalize v = .error e) ∧
    (∀ w, finalize u = .ok w → ∃ w', finalize v = .ok w' ∧ LostIn id w w' ∧
      (T → w'.lastTs = w.lastTs ∧ w'.changedParams = w.changedParams ∧ w'.dropouts = w.dropouts)) := by
  have hdv : v.dataList = [] := by
    rw [← hd]
    exact (congrArg (fun x : ULog => x.dataList) h.core :)
  rcases h.subs with e | ⟨n, s, hs, hpos, hle, e⟩
  · unfold finalize
    rw [e, hd, hdv]
    cases ((u.subs.reverse.filter (fun p => p.2.buffer.length > 0)).mapM fun p => mkData p.2) with
    | error e => exact ⟨fun e h => h, fun w h => by cases h⟩
    | ok new =>
      refine ⟨fun e h => (by cases h), ?_⟩
      intro w hw
      cases hw
      refine ⟨_, rfl, ⟨?_, h.params, h.dropouts, .inl rfl⟩, h.times⟩
      exact (congrArg (fun x : ULog => { x with dataList := [] }) h.core :)
  · have hsk := h.subsOk.2 _ _ hs
    have huniq : ∀ p ∈ u.subs, p.1 = id → p.2 = s := by
      intro p hp he
      have := Dict.get?_of_mem u.subs p.1 p.2 h.subsOk.1 hp
      rw [he, hs] at this
      injection this with this
      exact this.symm
    have hmem : ∀ p ∈ u.subs.reverse.filter (fun p => p.2.buffer.length > 0), p ∈ u.subs := by
      intro p hp
      exact List.mem_reverse.mp (List.mem_filter.mp hp).1
    have hblen : (dropped (n * s.itemSize) s.itemSize s.buffer).length + s.itemSize = s.buffer.length := dropped_length hle
    have hfne : dtypeFields s.fields ≠ [] := by
      intro hnil
      have hz : s.fields = [] := by
        have := dtypeFields_length s.fields
        rw [hnil] at this
        exact List.length_eq_zero_iff.mp this.symm
      have := hsk.itemSize
      rw [hz] at this
      rw [this] at hpos
      exact absurd hpos (by decide)
    obtain ⟨k, hk⟩ := hsk.buffer
    have hmod : s.buffer.length % s.itemSize = 0 := by rw [hk]; exact Nat.mul_mod_left ..
    have hmod' : (dropped (n * s.itemSize) s.itemSize s.buffer).length % s.itemSize = 0 := by
      rw [← hblen, Nat.add_mod_right] at hmod
      exact hmod
    have hrows1 : (rowsOf s.itemSize s.buffer).length = 1 ↔ s.buffer.length = s.itemSize := by
      rw [length_rowsOf, hk, Nat.mul_div_cancel _ hpos]
      constructor
      · intro h; rw [h, Nat.one_mul]
      · intro h
        exact Nat.eq_of_mul_eq_mul_right hpos (by rw [h, Nat.one_mul])
    have hrow : rowsOf s.itemSize (dropped (n * s.itemSize) s.itemSize s.buffer) = (rowsOf s.itemSize s.buffer).eraseIdx n :=
      rowsOf_dropped hpos hle
    -- which subscriptions are left
    let keep : Nat × Sub → Bool := fun p => !(decide (p.1 = id) && decide (s.buffer.length = s.itemSize))
    have hfil : v.subs.reverse.filter (fun p => p.2.buffer.length > 0)
        = ((u.subs.reverse.filter (fun p => p.2.buffer.length > 0)).filter keep).map
            fun p => (p.1, cutSub id (n * s.itemSize) s.itemSize p.1 p.2) := by
      rw [e, ← List.map_reverse, List.filter_map, List.filter_filter]
      congr 1
      apply List.filter_congr
      intro p hp
      simp only [Function.comp_apply, keep]
      by_cases he : p.1 = id
      · rw [huniq p (List.mem_reverse.mp hp) he, he]
        unfold cutSub
        rw [if_pos rfl]
        simp only [decide_true, Bool.true_and]
        by_cases h1 : s.buffer.length = s.itemSize
        · rw [decide_eq_true h1, decide_eq_false (by omega)]
          rfl
        · rw [decide_eq_false h1, decide_eq_true (show _ > 0 by omega), decide_eq_true (show s.buffer.length > 0 by omega)]
          rfl
      · unfold cutSub
        rw [if_neg he, decide_eq_false he]
        rfl
    have hkey : ((v.subs.reverse.filter (fun p => p.2.buffer.length > 0)).mapM fun p => mkData p.2)
        = ((u.subs.reverse.filter (fun p => p.2.buffer.length > 0)).mapM fun p => mkData p.2).map (withoutSample id n) := by
      rw [hfil, List.mapM_map]
      apply mapM_keep (q := fun d => !(decide (d.msgId = id) && oneRow d))
      · intro p hp _
        have hp := hmem p hp
        have hpk := h.subsOk.2 _ _ (Dict.get?_of_mem u.subs p.1 p.2 h.subsOk.1 hp)
        simp only [Function.comp_apply]
        by_cases he : p.1 = id
        · rw [huniq p hp he, he]
          unfold cutSub mkData
          rw [if_pos rfl]
          simp only
          rw [if_neg (by omega), if_neg (by omega)]
          show Except.ok _ = Except.ok (if s.msgId = id then _ else _)
          rw [if_pos hsk.msgId, hrow, columns_eraseIdx]
          rfl
        · unfold cutSub
          rw [if_neg he]
          unfold mkData
          split
          · rfl
          · show Except.ok _ = Except.ok (if p.2.msgId = id then _ else _)
            rw [if_neg (by rw [hpk.msgId]; exact he)]
      · intro p hp hkp
        have hp := hmem p hp
        have he : p.1 = id := by
          apply Decidable.byContradiction
          intro hne
          simp only [keep, decide_eq_false hne, Bool.false_and, Bool.not_false] at hkp
          cases hkp
        rw [huniq p hp he]
        unfold mkData
        rw [if_neg (by omega)]
        exact ⟨_, rfl⟩
      · intro p hp b hb
        have hp := hmem p hp
        have hpk := h.subsOk.2 _ _ (Dict.get?_of_mem u.subs p.1 p.2 h.subsOk.1 hp)
        have hbid : b.msgId = p.1 := by
          rw [← hpk.msgId]
          unfold mkData at hb
          split at hb <;> cases hb
          rfl
        simp only [keep]
        rw [hbid]
        by_cases he : p.1 = id
        · rw [huniq p hp he] at hb
          unfold mkData at hb
          split at hb <;> cases hb
          unfold oneRow
          rw [columns_oneRow hfne]
          simp only [hrows1]
        · rw [decide_eq_false he]
          rfl
    have hsort : ∀ l, ssort dsLe (withoutSample id n l) = withoutSample id n (ssort dsLe l) := by
      intro l
      unfold withoutSample
      have hk : ∀ d : Dataset, (if d.msgId = id then withoutRow n d else d).name = d.name ∧
          (if d.msgId = id then withoutRow n d else d).multiId = d.multiId := by
        intro d
        by_cases he : d.msgId = id
        · rw [if_pos he]; exact ⟨rfl, rfl⟩
        · rw [if_neg he]; exact ⟨rfl, rfl⟩
      rw [filter_ssort dsLe_total, ssort_map (le' := dsLe)]
      intro a b
      unfold dsLe
      simp only [(hk a).1, (hk a).2, (hk b).1, (hk b).2]
    unfold finalize
    rw [hkey, hd, hdv]
    cases hnew : ((u.subs.reverse.filter (fun p => p.2.buffer.length > 0)).mapM fun p => mkData p.2) with
    | error e => exact ⟨fun e h => h, fun w h => by cases h⟩
    | ok new =>
      refine ⟨fun e h => (by cases h), ?_⟩
      intro w hw
      cases hw
      refine ⟨_, rfl, ⟨?_, h.params, h.dropouts, .inr ⟨n, ?_, ?_⟩⟩, h.times⟩
      · exact (congrArg (fun x : ULog => { x with dataList := [] }) h.core :)
      · show ssort dsLe ([] ++ withoutSample id n new) = withoutSample id n (ssort dsLe ([] ++ new))
        rw [List.nil_append, List.nil_append]
        exact hsort new
      · intro d hd' hid c hc
        have hdn : d ∈ new := by simpa using (ssort_perm dsLe _).mem_iff.mp hd'
        obtain ⟨p, hp, hmk⟩ := mapM_mem hnew hdn
        have hp := hmem p hp
        have hpk := h.subsOk.2 _ _ (Dict.get?_of_mem u.subs p.1 p.2 h.subsOk.1 hp)
        have hps : p.2 = s := by
          apply huniq p hp
          rw [← hpk.msgId, ← hid]
          unfold mkData at hmk
          split at hmk <;> cases hmk
          rfl
        rw [hps] at hmk
        unfold mkData at hmk
        split at hmk <;> cases hmk
        rw [columns_length hc, length_rowsOf]
        rw [Nat.lt_iff_add_one_le, Nat.le_div_iff_mul_le hpos, Nat.add_mul, Nat.one_mul]
        exact hle

end PyULog
