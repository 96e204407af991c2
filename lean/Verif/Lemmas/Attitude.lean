import Verif.Spec.Attitude
import Verif.Lemmas.Rewrite
import Verif.Lemmas.DbBack
import Verif.Lemmas.Loaded
/-
Lemmas for `add_roll_pitch_yaw`.
-/
namespace PyULog
open Spec

theorem map4_ok {α β : Type} {f : α → α → α → α → β} : ∀ {w x y z : List α} {r : List β},
    map4 f w x y z = .ok r → ColumnIs f w x y z r
  | [], [], [], [], r, h => by
    cases h
    exact ⟨rfl, rfl, rfl, rfl, fun i a b c d h1 => by simp at h1⟩
  | a :: w, b :: x, c :: y, d :: z, r, h => by
    rw [map4] at h
    obtain ⟨s, h1, h2⟩ := except_bind_ok.mp h
    cases h2
    obtain ⟨l1, l2, l3, l4, e⟩ := map4_ok h1
    refine ⟨by simp [l1], by simp [l2], by simp [l3], by simp [l4], ?_⟩
    intro i a' b' c' d' g1 g2 g3 g4
    cases i with
    | zero =>
      simp only [List.getElem?_cons_zero, Option.some.injEq] at g1 g2 g3 g4 ⊢
      rw [g1, g2, g3, g4]
    | succ i =>
      simp only [List.getElem?_cons_succ] at g1 g2 g3 g4 ⊢
      exact e i _ _ _ _ g1 g2 g3 g4

theorem map4_total {α β : Type} (f : α → α → α → α → β) : ∀ {w x y z : List α}, w.length = x.length →
    x.length = y.length → y.length = z.length → ∃ r, map4 f w x y z = .ok r
  | [], [], [], [], _, _, _ => ⟨[], rfl⟩
  | a :: w, b :: x, c :: y, d :: z, h1, h2, h3 => by
    obtain ⟨r, hr⟩ := map4_total f (w := w) (x := x) (y := y) (z := z) (by simpa using h1) (by simpa using h2)
      (by simpa using h3)
    exact ⟨f a b c d :: r, by rw [map4, hr, ok_bind]⟩

theorem quatName_eq (suffix : Str) : quatName suffix 0 = quatCol suffix '0' ∧ quatName suffix 1 = quatCol suffix '1' ∧
    quatName suffix 2 = quatCol suffix '2' ∧ quatName suffix 3 = quatCol suffix '3' := by
  have h0 : natDec 0 = ['0'] := by decide
  have h1 : natDec 1 = ['1'] := by decide
  have h2 : natDec 2 = ['2'] := by decide
  have h3 : natDec 3 = ['3'] := by decide
  refine ⟨?_, ?_, ?_, ?_⟩ <;> simp [quatName, quatCol, h0, h1, h2, h3]

theorem dictGet_ok {κ α : Type} [DecidableEq κ] {d : Dict κ α} {k : κ} {v : α} :
    dictGet d k = .ok v ↔ d.get? k = some v := by
  unfold dictGet
  cases d.get? k <;> simp

theorem angleCols_distinct (s : Str) : py! "roll" ++ s ≠ py! "pitch" ++ s ∧ py! "roll" ++ s ≠ py! "yaw" ++ s ∧
    py! "pitch" ++ s ≠ py! "yaw" ++ s := by
  refine ⟨?_, ?_, ?_⟩ <;> intro h <;> simp at h

theorem addAngles_ok {o : AngleOps NpVal} {s : Str} {d d' : Dataset} (h : addAngles o s d = .ok d') :
    Angled o s d d' := by
  unfold addAngles at h
  obtain ⟨w, hw, h⟩ := except_bind_ok.mp h
  obtain ⟨x, hx, h⟩ := except_bind_ok.mp h
  obtain ⟨y, hy, h⟩ := except_bind_ok.mp h
  obtain ⟨z, hz, h⟩ := except_bind_ok.mp h
  obtain ⟨roll, hr, h⟩ := except_bind_ok.mp h
  obtain ⟨pitch, hp, h⟩ := except_bind_ok.mp h
  obtain ⟨yaw, hq, h⟩ := except_bind_ok.mp h
  obtain ⟨n0, n1, n2, n3⟩ := quatName_eq s
  rw [n0, dictGet_ok] at hw
  rw [n1, dictGet_ok] at hx
  rw [n2, dictGet_ok] at hy
  rw [n3, dictGet_ok] at hz
  obtain ⟨e1, e2, e3⟩ := angleCols_distinct s
  cases h
  refine ⟨rfl, ?_, ?_, w, x, y, z, roll, pitch, yaw, hw, hx, hy, hz, ?_, map4_ok hr, ?_, map4_ok hp, ?_, map4_ok hq⟩
  · simp only [Dict.keys_set, angleCols, List.filter_cons, List.filter_nil, decide_not, Bool.not_eq_true',
      decide_eq_false_iff_not]
    generalize py! "roll" ++ s = a at *
    generalize py! "pitch" ++ s = b at *
    generalize py! "yaw" ++ s = c at *
    by_cases h1 : a ∈ d.data.keys <;> by_cases h2 : b ∈ d.data.keys <;> by_cases h3 : c ∈ d.data.keys <;>
      simp [h1, h2, h3, e1.symm, e2.symm, e3.symm]
  · intro k hk
    simp only [angleCols, List.mem_cons, List.not_mem_nil, or_false, not_or] at hk
    simp only [Dict.get?_set]
    rw [if_neg (fun e => hk.2.2 e.symm), if_neg (fun e => hk.2.1 e.symm), if_neg (fun e => hk.1 e.symm)]
  · simp only [Dict.get?_set]
    rw [if_neg e2.symm, if_neg e1.symm, if_pos trivial]
  · simp only [Dict.get?_set]
    rw [if_neg e3.symm, if_pos trivial]
  · simp only [Dict.get?_set, if_true]

theorem addAngles_name {o : AngleOps NpVal} {s : Str} {d d' : Dataset} (h : addAngles o s d = .ok d') :
    d'.name = d.name := by
  rw [(addAngles_ok h).same]

/-- with columns of equal lengths it fails exactly when a column of the quaternion is missing -/
theorem addAngles_cases (o : AngleOps NpVal) (s : Str) {d : Dataset} {n : Nat} (hn : ∀ c ∈ d.data, c.2.length = n) :
    (HasQuat s d ∧ ∃ d', addAngles o s d = .ok d') ∨ (¬ HasQuat s d ∧ addAngles o s d = .error .keyError) := by
  obtain ⟨n0, n1, n2, n3⟩ := quatName_eq s
  have hlen : ∀ k v, d.data.get? k = some v → v.length = n := fun k v h => hn _ (Dict.mem_of_get? _ _ _ h)
  have hmem : ∀ k, d.data.get? k = none → k ∉ d.data.keys := fun k h => (Dict.get?_eq_none_iff _ _).mp h
  have hmem' : ∀ k v, d.data.get? k = some v → k ∈ d.data.keys := fun k v h =>
    (Dict.mem_keys_iff _ _).mpr (by rw [h]; rfl)
  unfold addAngles
  rw [n0, n1, n2, n3]
  unfold dictGet
  cases hw : d.data.get? (quatCol s '0') with
  | none => exact .inr ⟨fun h => hmem _ hw (h '0' (by simp)), rfl⟩
  | some w =>
    cases hx : d.data.get? (quatCol s '1') with
    | none => exact .inr ⟨fun h => hmem _ hx (h '1' (by simp)), rfl⟩
    | some x =>
      cases hy : d.data.get? (quatCol s '2') with
      | none => exact .inr ⟨fun h => hmem _ hy (h '2' (by simp)), rfl⟩
      | some y =>
        cases hz : d.data.get? (quatCol s '3') with
        | none => exact .inr ⟨fun h => hmem _ hz (h '3' (by simp)), rfl⟩
        | some z =>
          have l1 := hlen _ _ hw
          have l2 := hlen _ _ hx
          have l3 := hlen _ _ hy
          have l4 := hlen _ _ hz
          obtain ⟨r1, e1⟩ := map4_total (rollOf o) (l1.trans l2.symm) (l2.trans l3.symm) (l3.trans l4.symm)
          obtain ⟨r2, e2⟩ := map4_total (pitchOf o) (l1.trans l2.symm) (l2.trans l3.symm) (l3.trans l4.symm)
          obtain ⟨r3, e3⟩ := map4_total (yawOf o) (l1.trans l2.symm) (l2.trans l3.symm) (l3.trans l4.symm)
          refine .inl ⟨?_, ?_⟩
          · intro c hc
            simp only [List.mem_cons, List.not_mem_nil, or_false] at hc
            rcases hc with rfl | rfl | rfl | rfl
            · exact hmem' _ _ hw
            · exact hmem' _ _ hx
            · exact hmem' _ _ hy
            · exact hmem' _ _ hz
          · simp only [ok_bind, e1, e2, e3]
            exact ⟨_, rfl⟩

/-! ### the entries -/

theorem pyEndsWith_iff (p s : Str) : pyEndsWith p s = true ↔ ∃ n, s = n ++ p := by
  unfold pyEndsWith
  rw [List.isPrefixOf_iff_prefix]
  constructor
  · rintro ⟨t, ht⟩
    refine ⟨t.reverse, ?_⟩
    have := congrArg List.reverse ht
    simpa using this.symm
  · rintro ⟨n, rfl⟩
    exact ⟨n.reverse, by simp⟩

theorem splitMessage_entry {m name suffix : Str} (h : Entry m name suffix) : splitMessage m = (name, suffix) := by
  unfold splitMessage
  rcases h with ⟨rfl, rfl⟩ | ⟨h, rfl, rfl⟩
  · rw [if_pos ((pyEndsWith_iff _ _).mpr ⟨name, rfl⟩)]
    simp
  · rw [if_neg (fun e => h ((pyEndsWith_iff _ _).mp e))]

theorem entry_split (m : Str) : Entry m (splitMessage m).1 (splitMessage m).2 := by
  unfold splitMessage
  split
  · next h =>
    obtain ⟨n, rfl⟩ := (pyEndsWith_iff _ _).mp h
    exact .inl ⟨by simp, rfl⟩
  · next h => exact .inr ⟨fun e => h ((pyEndsWith_iff _ _).mpr e), rfl, rfl⟩

/-! ### several topics -/

theorem mapM_elems {α β : Type} {f : α → Except PyErr β} : ∀ {xs : List α} {ys : List β}, xs.mapM f = .ok ys →
    ∀ x ∈ xs, ∃ y, f x = .ok y
  | [], _, _, x, hx => by cases hx
  | a :: xs, ys, hm, x, hx => by
    rw [List.mapM_cons] at hm
    obtain ⟨y, h1, h2⟩ := except_bind_ok.mp hm
    obtain ⟨zs, h3, h4⟩ := except_bind_ok.mp h2
    rcases List.mem_cons.mp hx with rfl | hx
    · exact ⟨y, h1⟩
    · exact mapM_elems h3 x hx

theorem addToMessage_ok {o : AngleOps NpVal} {u u' : ULog} {n s : Str} (h : addToMessage o u n s = .ok u') :
    ∃ g : Dataset → Dataset, u' = { u with dataList := u.dataList.map g } ∧ ∀ d ∈ u.dataList,
      (d.name = n → addAngles o s d = .ok (g d)) ∧ (d.name ≠ n → g d = d) := by
  unfold addToMessage at h
  obtain ⟨l, h1, h2⟩ := except_bind_ok.mp h
  cases h2
  let g : Dataset → Dataset := fun d => if d.name = n then (addAngles o s d).toOption.getD d else d
  have hg : ∀ d ∈ u.dataList, (if d.name = n then addAngles o s d else .ok d) = .ok (g d) := by
    intro d hd
    obtain ⟨d', e⟩ := mapM_elems h1 d hd
    rw [e]
    by_cases hn : d.name = n
    · rw [if_pos hn] at e
      simp [g, hn, e, Except.toOption]
    · rw [if_neg hn] at e
      cases e
      simp [g, hn]
  refine ⟨g, ?_, ?_⟩
  · have := Except.ok.inj (h1.symm.trans (mapM_of_ok hg))
    rw [this]
  · intro d hd
    have e := hg d hd
    refine ⟨fun hn => ?_, fun hn => ?_⟩
    · rwa [if_pos hn] at e
    · rw [if_neg hn] at e
      exact (Except.ok.inj e).symm

/-- one topic after the other -/
def addTopics (o : AngleOps NpVal) (topics : List (Str × Str)) (u : ULog) : Except PyErr ULog :=
  topics.foldlM (fun u p => addToMessage o u p.1 p.2) u

theorem addRollPitchYaw_eq (o : AngleOps NpVal) (messages : Option (List Str)) (u : ULog) :
    addRollPitchYaw o messages u = addTopics o ((messages.getD attitudeMessages).map splitMessage) u := by
  unfold addRollPitchYaw addTopics
  rw [List.foldlM_map]

theorem addTopics_ok {o : AngleOps NpVal} : ∀ {topics : List (Str × Str)} {u u' : ULog},
    (topics.map (·.1)).Nodup → addTopics o topics u = .ok u' →
    ∃ g : Dataset → Dataset, u' = { u with dataList := u.dataList.map g } ∧ ∀ d ∈ u.dataList,
      (∀ p ∈ topics, p.1 = d.name → addAngles o p.2 d = .ok (g d)) ∧ ((∀ p ∈ topics, p.1 ≠ d.name) → g d = d)
  | [], u, u', _, h => by
    cases h
    exact ⟨id, by simp, fun d _ => ⟨fun p hp => by simp at hp, fun _ => rfl⟩⟩
  | p :: topics, u, u', hn, h => by
    unfold addTopics at h
    rw [List.foldlM_cons] at h
    obtain ⟨v, h1, h2⟩ := except_bind_ok.mp h
    obtain ⟨g, rfl, hg⟩ := addToMessage_ok h1
    simp only [List.map_cons, List.nodup_cons] at hn
    obtain ⟨g', rfl, hg'⟩ := addTopics_ok hn.2 h2
    refine ⟨g' ∘ g, by simp, ?_⟩
    intro d hd
    have hd' := hg' (g d) (List.mem_map_of_mem hd)
    refine ⟨?_, ?_⟩
    · intro q hq hqn
      rcases List.mem_cons.mp hq with rfl | hq
      · have e := (hg d hd).1 hqn.symm
        have hnm := addAngles_name e
        have : g' (g d) = g d := hd'.2 (fun r hr er => hn.1 (by
          rw [hqn, ← hnm, ← er]; exact List.mem_map_of_mem hr))
        show _ = Except.ok (g' (g d))
        rw [this]; exact e
      · have hne : d.name ≠ p.1 := fun e => hn.1 (by rw [← e, ← hqn]; exact List.mem_map_of_mem hq)
        have e := (hg d hd).2 hne
        rw [e] at hd'
        show _ = Except.ok (g' (g d))
        rw [e]
        exact hd'.1 q hq hqn
    · intro hall
      have e := (hg d hd).2 (fun e => hall p (by simp) e.symm)
      rw [e] at hd'
      show g' (g d) = d
      rw [e]
      exact hd'.2 fun q hq => hall q (by simp [hq])

theorem mapM_total_or {α β : Type} {f : α → Except PyErr β} {e : PyErr} : ∀ {l : List α},
    (∀ a ∈ l, (∃ b, f a = .ok b) ∨ f a = .error e) →
    (∀ a ∈ l, ∃ b, f a = .ok b) ∧ (∃ r, l.mapM f = .ok r) ∨ (∃ a ∈ l, f a = .error e) ∧ l.mapM f = .error e
  | [], _ => .inl ⟨fun a h => by simp at h, [], rfl⟩
  | a :: l, h => by
    rw [List.mapM_cons]
    rcases h a (by simp) with ⟨b, hb⟩ | he
    · rcases mapM_total_or (l := l) (fun x hx => h x (by simp [hx])) with ⟨h1, r, hr⟩ | ⟨⟨x, hx, ex⟩, he⟩
      · refine .inl ⟨?_, b :: r, ?_⟩
        · intro x hx
          rcases List.mem_cons.mp hx with rfl | hx
          · exact ⟨b, hb⟩
          · exact h1 x hx
        · rw [hb, ok_bind, hr, ok_bind]; rfl
      · refine .inr ⟨⟨x, by simp [hx], ex⟩, ?_⟩
        rw [hb, ok_bind, he]; rfl
    · refine .inr ⟨⟨a, by simp, he⟩, ?_⟩
      rw [he]; rfl

/-- a KeyError if the columns of a quaternion are missing, and nothing else can go wrong -/
theorem addTopics_cases {o : AngleOps NpVal} : ∀ {topics : List (Str × Str)} {u : ULog}, (topics.map (·.1)).Nodup →
    (∀ d ∈ u.dataList, ∀ p ∈ topics, p.1 = d.name → ∃ n, ∀ c ∈ d.data, c.2.length = n) →
    ((∀ d ∈ u.dataList, ∀ p ∈ topics, p.1 = d.name → HasQuat p.2 d) ∧ ∃ u', addTopics o topics u = .ok u') ∨
    ((∃ d ∈ u.dataList, ∃ p ∈ topics, p.1 = d.name ∧ ¬ HasQuat p.2 d) ∧ addTopics o topics u = .error .keyError)
  | [], u, _, _ => .inl ⟨fun d _ p hp => by simp at hp, u, rfl⟩
  | p :: topics, u, hn, hr => by
    simp only [List.map_cons, List.nodup_cons] at hn
    have hstep := mapM_total_or (f := fun d : Dataset => if d.name = p.1 then addAngles o p.2 d else .ok d)
      (e := .keyError) (l := u.dataList) (by
        intro d hd
        by_cases hnm : d.name = p.1
        · simp only [if_pos hnm]
          obtain ⟨n, hlen⟩ := hr d hd p (by simp) hnm.symm
          rcases addAngles_cases o p.2 hlen with ⟨_, h⟩ | ⟨_, h⟩
          · exact .inl h
          · exact .inr h
        · simp only [if_neg hnm]
          exact .inl ⟨d, rfl⟩)
    unfold addTopics
    rw [List.foldlM_cons]
    have hquat : ∀ d ∈ u.dataList, d.name = p.1 → (∃ d', addAngles o p.2 d = .ok d') → HasQuat p.2 d := by
      intro d hd hnm ⟨d', e⟩
      obtain ⟨n, hlen⟩ := hr d hd p (by simp) hnm.symm
      rcases addAngles_cases o p.2 hlen with ⟨h, _⟩ | ⟨_, h⟩
      · exact h
      · rw [h] at e; cases e
    rcases hstep with ⟨h1, r, h2⟩ | ⟨⟨d, hd, he⟩, h2⟩
    · have e : addToMessage o u p.1 p.2 = .ok { u with dataList := r } := by
        unfold addToMessage
        rw [h2]; rfl
      obtain ⟨g, eg, hg⟩ := addToMessage_ok e
      rw [e, ok_bind, eg]
      have hold : ∀ d ∈ u.dataList, ∀ q ∈ topics, q.1 = d.name → g d = d := by
        intro d hd q hq hqn
        exact (hg d hd).2 (fun e => hn.1 (by rw [← e, ← hqn]; exact List.mem_map_of_mem hq))
      have hname : ∀ d ∈ u.dataList, (g d).name = d.name := by
        intro d hd
        by_cases hnm : d.name = p.1
        · exact addAngles_name ((hg d hd).1 hnm)
        · rw [(hg d hd).2 hnm]
      have hfirst : ∀ d ∈ u.dataList, p.1 = d.name → HasQuat p.2 d := fun d hd hnm =>
        hquat d hd hnm.symm ⟨g d, (hg d hd).1 hnm.symm⟩
      have ih := addTopics_cases (o := o) (topics := topics) (u := { u with dataList := u.dataList.map g }) hn.2 (by
        intro d' hd' q hq hqn
        obtain ⟨d, hd, rfl⟩ := List.mem_map.mp hd'
        rw [hname d hd] at hqn
        rw [hold d hd q hq hqn]
        exact hr d hd q (by simp [hq]) hqn)
      rcases ih with ⟨i1, i2⟩ | ⟨⟨d', hd', q, hq, hqn, i1⟩, i2⟩
      · refine .inl ⟨?_, i2⟩
        intro d hd q hq hqn
        rcases List.mem_cons.mp hq with rfl | hq
        · exact hfirst d hd hqn
        · have := i1 (g d) (List.mem_map_of_mem hd) q hq (by rw [hname d hd]; exact hqn)
          rwa [hold d hd q hq hqn] at this
      · obtain ⟨d, hd, rfl⟩ := List.mem_map.mp hd'
        rw [hname d hd] at hqn
        rw [hold d hd q hq hqn] at i1
        exact .inr ⟨⟨d, hd, q, by simp [hq], hqn, i1⟩, i2⟩
    · refine .inr ⟨⟨d, hd, p, by simp, ?_⟩, ?_⟩
      · by_cases hnm : d.name = p.1
        · refine ⟨hnm.symm, ?_⟩
          simp only [if_pos hnm] at he
          obtain ⟨n, hlen⟩ := hr d hd p (by simp) hnm.symm
          rcases addAngles_cases o p.2 hlen with ⟨_, _, h⟩ | ⟨h, _⟩
          · rw [h] at he; cases he
          · exact h
        · simp only [if_neg hnm] at he
          cases he
      · unfold addToMessage
        rw [h2]; rfl

/-! ### writing -/

theorem sampleBytes_angled {o : AngleOps NpVal} {s : Str} {d d' : Dataset} (h : Angled o s d d')
    (hf : ∀ f ∈ d.fields, f.name ∉ angleCols s) (i : Nat) : sampleBytes d' i = sampleBytes d i := by
  unfold sampleBytes
  have e : d'.fields = d.fields := by rw [h.same]
  rw [e]
  congr 1
  apply List.map_congr_left
  intro f hm
  rw [h.others f.name (hf f hm)]

theorem datasetItems_angled {o : AngleOps NpVal} {s : Str} {d d' : Dataset} (h : Angled o s d d')
    (hf : ∀ f ∈ d.fields, f.name ∉ angleCols s) (ht : py! "timestamp" ∉ angleCols s) :
    datasetItems d' = datasetItems d := by
  have e : d'.fields = d.fields := by rw [h.same]
  have ei : d'.msgId = d.msgId := by rw [h.same]
  have hs : sampleItem d' = sampleItem d := by
    funext i
    unfold sampleItem
    rw [h.others _ ht, sampleBytes_angled h hf, ei]
  unfold datasetItems
  rw [e, hs]
  cases hl : d.fields with
  | nil => rfl
  | cons f fs =>
    have : pyIndex (f :: fs) 0 = .ok f := rfl
    rw [this, ok_bind, ok_bind, h.others f.name (hf f (by simp [hl]))]

theorem mapM_congr_mem {α β : Type} {f g : α → Except PyErr β} : ∀ {l : List α}, (∀ a ∈ l, f a = g a) →
    l.mapM f = l.mapM g
  | [], _ => rfl
  | a :: l, h => by
    rw [List.mapM_cons, List.mapM_cons, h a (by simp), mapM_congr_mem (l := l) fun b hb => h b (by simp [hb])]

theorem mapM_map_left {α β γ : Type} (f : β → Except PyErr γ) (h : α → β) : ∀ (l : List α),
    (l.map h).mapM f = l.mapM fun a => f (h a)
  | [] => rfl
  | a :: l => by
    rw [List.map_cons, List.mapM_cons, List.mapM_cons, mapM_map_left f h l]

/-- writing a log whose datasets are changed in a way that keeps the items -/
theorem writeUlog_map {u : ULog} {g : Dataset → Dataset} (hid : ∀ d ∈ u.dataList, (g d).msgId = d.msgId)
    (hm : ∀ d ∈ u.dataList, (g d).multiId = d.multiId ∧ (g d).name = d.name)
    (hi : ∀ d ∈ u.dataList, datasetItems (g d) = datasetItems d) :
    writeUlog { u with dataList := u.dataList.map g } = writeUlog u := by
  let g' : Dataset → Dataset := fun d => { g d with msgId := d.msgId }
  have hgg : u.dataList.map g = u.dataList.map g' := List.map_congr_left fun d hd => by
    show g d = { g d with msgId := d.msgId }
    rw [← hid d hd]
  have hb : byMsgId (u.dataList.map g) = (byMsgId u.dataList).map g := by
    have h1 : byMsgId (u.dataList.map g') = (byMsgId u.dataList).map g' := by
      unfold byMsgId
      exact (ssort_map (le := fun a b : Dataset => decide (a.msgId ≤ b.msgId))
        (le' := fun a b : Dataset => decide (a.msgId ≤ b.msgId)) g' (fun a b => rfl) u.dataList).symm
    rw [hgg, h1]
    apply List.map_congr_left
    intro d hd
    have hd : d ∈ u.dataList := (ssort_perm _ _).mem_iff.mp hd
    show { g d with msgId := d.msgId } = g d
    rw [← hid d hd]
  have hmem : ∀ d ∈ byMsgId u.dataList, d ∈ u.dataList := fun d hd => (ssort_perm _ _).mem_iff.mp hd
  have hsubs : writeSubs { u with dataList := u.dataList.map g } = writeSubs u := by
    unfold writeSubs
    show concatM ((byMsgId (u.dataList.map g)).map _) = _
    rw [hb, List.map_map]
    congr 1
    apply List.map_congr_left
    intro d hd
    have hd := hmem d hd
    simp only [Function.comp_apply, hid d hd, (hm d hd).1, (hm d hd).2]
  have hitems : dataItems { u with dataList := u.dataList.map g } = dataItems u := by
    unfold dataItems
    show ((byMsgId (u.dataList.map g)).mapM datasetItems >>= _) = _
    rw [hb, mapM_map_left, mapM_congr_mem (fun d hd => hi d (hmem d hd))]
  have hdata : writeDataSection { u with dataList := u.dataList.map g } = writeDataSection u := by
    unfold writeDataSection allItems
    rw [hitems]
  unfold writeUlog
  rw [hsubs, hdata]
  rfl

end PyULog
