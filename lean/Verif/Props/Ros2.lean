import Verif.Model.Ros2
import Verif.Props.Csv
import Verif.Lemmas.Digits
/-
Export to ROS2 bags: C37, C58, C59 and C60.
-/
namespace PyULog
open Spec

/-! ### C37 -/

/-- every instance of the name has the multi id 0 -/
def Spec.Single (l : List Dataset) (name : Str) : Prop := ∀ d ∈ l, d.name = name → d.multiId = 0

theorem foldl_setAdd (l : List Dataset) (s : List Nat) (hs : s.Nodup) :
    (l.foldl (fun s d => setAdd s d.multiId) s).Nodup ∧
    ∀ x, x ∈ l.foldl (fun s d => setAdd s d.multiId) s ↔ x ∈ s ∨ ∃ d ∈ l, d.multiId = x := by
  induction l generalizing s with
  | nil => exact ⟨hs, fun x => by simp⟩
  | cons d ds ih =>
    obtain ⟨h1, h2⟩ := ih (setAdd s d.multiId) (nodup_setAdd _ _ hs)
    refine ⟨h1, fun x => ?_⟩
    rw [List.foldl_cons, h2, mem_setAdd]
    constructor
    · rintro ((h | h) | ⟨e, he, h⟩)
      · exact Or.inl h
      · exact Or.inr ⟨d, by simp, h.symm⟩
      · exact Or.inr ⟨e, by simp [he], h⟩
    · rintro (h | ⟨e, he, h⟩)
      · exact Or.inl (Or.inl h)
      · rcases List.mem_cons.mp he with rfl | he
        · exact Or.inl (Or.inr h.symm)
        · exact Or.inr ⟨e, he, h⟩

theorem multiIds_single {l : List Dataset} {d : Dataset} (hd : d ∈ l) :
    multiIds l d.name = [0] ↔ Single l d.name := by
  obtain ⟨h1, h2⟩ := foldl_setAdd (l.filter fun e => e.name = d.name) [] List.nodup_nil
  have h2 : ∀ x, x ∈ multiIds l d.name ↔ ∃ e ∈ l, e.name = d.name ∧ e.multiId = x := by
    intro x
    unfold multiIds
    rw [h2]
    simp [List.mem_filter, and_assoc]
  have h1 : (multiIds l d.name).Nodup := h1
  constructor
  · intro h e he hn
    have := (h2 e.multiId).mpr ⟨e, he, hn, rfl⟩
    rw [h] at this
    simpa using this
  · intro hs
    have hall : ∀ x ∈ multiIds l d.name, x = 0 := by
      intro x hx
      obtain ⟨e, he, hn, rfl⟩ := (h2 x).mp hx
      exact hs e he hn
    have hne : d.multiId ∈ multiIds l d.name := (h2 _).mpr ⟨d, hd, rfl, rfl⟩
    generalize multiIds l d.name = m at *
    cases m with
    | nil => cases hne
    | cons a t =>
      have ha := hall a (by simp)
      subst ha
      cases t with
      | nil => rfl
      | cons b t =>
        have hb := hall b (by simp)
        subst hb
        rw [List.nodup_cons] at h1
        exact absurd (List.mem_cons_self) h1.1

/-- **C37**: two datasets of a log get the same topic iff they are the same instance of the same name,
or the name of one is the name of the other followed by an underscore and its multi id. -/
theorem C37_topics_partial {l : List Dataset} {a b : Dataset} (ha : a ∈ l) (hb : b ∈ l) :
    rosTopic l a = rosTopic l b ↔
      (a.name = b.name ∧ a.multiId = b.multiId) ∨
      (Single l a.name ∧ ¬ Single l b.name ∧ a.name = b.name ++ py! "_" ++ natDec b.multiId) ∨
      (Single l b.name ∧ ¬ Single l a.name ∧ b.name = a.name ++ py! "_" ++ natDec a.multiId) := by
  have hcancel : ∀ {x y : Str}, py! "/px4/" ++ x = py! "/px4/" ++ y ↔ x = y :=
    ⟨fun h => List.append_cancel_left h, fun h => by rw [h]⟩
  have hassoc : ∀ (x y z : Str), py! "/px4/" ++ x ++ y ++ z = py! "/px4/" ++ (x ++ y ++ z) := by
    intro x y z
    simp only [List.append_assoc]
  unfold rosTopic
  by_cases sa : Single l a.name
  · rw [if_pos ((multiIds_single ha).mpr sa)]
    by_cases sb : Single l b.name
    · rw [if_pos ((multiIds_single hb).mpr sb), hcancel]
      constructor
      · intro h
        exact Or.inl ⟨h, by rw [sa a ha rfl, sb b hb rfl]⟩
      · rintro (h | h | h)
        · exact h.1
        · exact absurd sb h.2.1
        · exact absurd sa h.2.1
    · rw [if_neg (fun h => sb ((multiIds_single hb).mp h)), hassoc, hcancel]
      constructor
      · intro h
        exact Or.inr (Or.inl ⟨sa, sb, h⟩)
      · rintro (h | h | h)
        · rw [h.1] at sa; exact absurd sa sb
        · exact h.2.2
        · exact absurd sa h.2.1
  · rw [if_neg (fun h => sa ((multiIds_single ha).mp h)), hassoc]
    by_cases sb : Single l b.name
    · rw [if_pos ((multiIds_single hb).mpr sb), hcancel]
      constructor
      · intro h
        exact Or.inr (Or.inr ⟨sb, sa, h.symm⟩)
      · rintro (h | h | h)
        · rw [← h.1] at sb; exact absurd sb sa
        · exact absurd sb h.2.1
        · exact h.2.2.symm
    · rw [if_neg (fun h => sb ((multiIds_single hb).mp h)), hassoc, hcancel]
      constructor
      · intro h
        have h' : a.name ++ '_' :: natDec a.multiId ++ [] = b.name ++ '_' :: natDec b.multiId ++ [] := by
          simpa using h
        exact Or.inl (under_inj h')
      · rintro (h | h | h)
        · rw [h.1, h.2]
        · exact absurd h.1 sa
        · exact absurd h.1 sb

/-- a dataset without columns -/
def Sample.named (name : Str) (multi : Nat) : Dataset :=
  { multiId := multi
    msgId := 0
    name := name
    fields := []
    tsIdx := 0
    data := [] }

/-- the failing part of **C37**: the second instance of `a` and the topic `a_1` are mixed. -/
theorem C37_collision : ∃ (l : List Dataset) (a b : Dataset), a ∈ l ∧ b ∈ l ∧ a.name ≠ b.name ∧
    rosTopic l a = rosTopic l b := by
  refine ⟨[Sample.named (py! "a") 0, Sample.named (py! "a") 1, Sample.named (py! "a_1") 0],
    Sample.named (py! "a") 1, Sample.named (py! "a_1") 0, by decide, by decide, by decide, by decide⟩

example : rosTopic [Sample.named (py! "a") 0] (Sample.named (py! "a") 0) = py! "/px4/a" := by decide
example : rosTopic [Sample.named (py! "a") 0, Sample.named (py! "a") 1] (Sample.named (py! "a") 0) = py! "/px4/a_0" := by
  decide

/-! ### C58 -/

/-- timestamps of a dataset -/
def Spec.TimesOf (d : Dataset) (ts : List Nat) : Prop :=
  d.data.get? (py! "timestamp") = some (ts.map fun t => NpVal.int (t : Nat)) ∧ ∀ t ∈ ts, t < 2 ^ 64

theorem rosTime_spec {t : Nat} (h : t < 2 ^ 64) : rosTime (.int (t : Nat)) = .ok (t * 1000 % 2 ^ 64) := by
  have he : rosTime (.int (t : Nat)) = if 0 ≤ (t : Int) ∧ (t : Int) < 2 ^ 64 then
      .ok ((t : Int).toNat * 1000 % 2 ^ 64) else .error .unmodelled := rfl
  rw [he, if_pos (by omega), Int.toNat_natCast]

theorem exportRow_times {ty : RosType} {d : Dataset} {topic : Str} {ts : List Nat} (hts : ∀ t ∈ ts, t < 2 ^ 64)
    {rows : List (Str × Dict Str RosVal × Nat)} (m : List Nat) (hm : ∀ i ∈ m, i < ts.length)
    (h : m.mapM (exportRow ty d topic (ts.map fun t => NpVal.int (t : Nat))) = .ok rows) :
    rows.map (fun r => (r.1, r.2.2)) = m.map fun i => (topic, ts.getD i 0 * 1000 % 2 ^ 64) := by
  induction m generalizing rows with
  | nil =>
    injection h with h
    subst h
    rfl
  | cons i is ih =>
    rw [List.mapM_cons] at h
    obtain ⟨r, h1, h⟩ := except_bind_ok.mp h
    obtain ⟨rs, h2, h⟩ := except_bind_ok.mp h
    injection h with h
    subst h
    rw [List.map_cons, List.map_cons, ih (fun i hi => hm i (by simp [hi])) h2]
    congr 1
    obtain ⟨msg, _, h1⟩ := except_bind_ok.mp h1
    obtain ⟨t, h3, h1⟩ := except_bind_ok.mp h1
    obtain ⟨ns, h4, h1⟩ := except_bind_ok.mp h1
    injection h1 with h1
    subst h1
    have hi := hm i (by simp)
    unfold pyIndex at h3
    rw [List.getElem?_map, List.getElem?_eq_getElem hi] at h3
    injection h3 with h3
    rw [← h3, rosTime_spec (hts _ (List.getElem_mem hi))] at h4
    injection h4 with h4
    rw [← h4, List.getD_eq_getElem?_getD, List.getElem?_eq_getElem hi]
    rfl

/-- the messages of a dataset, as topic and time: the time in nanoseconds, modulo 2^64 -/
def Spec.bagTimes (env : RosEnv) (all : List Dataset) (times : Dataset → List Nat) (d : Dataset) : List (Str × Nat) :=
  if (exportType env d).isSome then (times d).map fun t => (rosTopic all d, t * 1000 % 2 ^ 64) else []

theorem exportTopics_times (env : RosEnv) (all l : List Dataset) (times : Dataset → List Nat)
    (ht : ∀ d ∈ l, TimesOf d (times d)) {b0 bag : Bag} (h : l.foldlM (exportTopic env all) b0 = .ok bag) :
    bag.messages.map (fun r => (r.1, r.2.2))
      = b0.messages.map (fun r => (r.1, r.2.2)) ++ l.flatMap (bagTimes env all times) := by
  induction l generalizing b0 with
  | nil =>
    injection h with h
    subst h
    simp
  | cons d ds ih =>
    rw [List.foldlM_cons] at h
    obtain ⟨b1, h1, h⟩ := except_bind_ok.mp h
    rw [ih (fun d hd => ht d (by simp [hd])) h, List.flatMap_cons, ← List.append_assoc]
    congr 1
    obtain ⟨hts, hlt⟩ := ht d (by simp)
    unfold exportTopic at h1
    obtain ⟨ts, h2, h1⟩ := except_bind_ok.mp h1
    have : ts = (times d).map fun t => NpVal.int (t : Nat) := by
      unfold dictGet at h2
      rw [hts] at h2
      injection h2 with h2
      exact h2.symm
    subst this
    unfold bagTimes
    cases he : exportType env d with
    | none =>
      rw [he] at h1
      injection h1 with h1
      subst h1
      simp
    | some x =>
      rw [he] at h1
      obtain ⟨name, ty⟩ := x
      obtain ⟨rows, h3, h1⟩ := except_bind_ok.mp h1
      injection h1 with h1
      subst h1
      rw [List.map_append]
      congr 1
      rw [List.length_map] at h3
      rw [exportRow_times hlt _ (fun i hi => List.mem_range.mp hi) h3]
      apply List.ext_getElem
      · simp
      · intro i hi hi'
        have hi : i < (times d).length := by simpa using hi
        simp [List.getElem?_eq_getElem hi]

/-- **C58**: the messages of every exported dataset are written in the order of the dataset with the
time of their row in nanoseconds, modulo 2^64. -/
theorem C58_times (env : RosEnv) (u : ULog) (times : Dataset → List Nat) (ht : ∀ d ∈ u.dataList, TimesOf d (times d))
    {bag : Bag} (h : exportBag env u = .ok bag) :
    bag.messages.map (fun r => (r.1, r.2.2)) = u.dataList.flatMap (bagTimes env u.dataList times) := by
  have := exportTopics_times env u.dataList u.dataList times ht h
  simpa using this

/-- **C58**: up to 584 years the time is the timestamp in nanoseconds. -/
theorem C58_exact_partial {t : Nat} (h : t * 1000 < 2 ^ 64) : rosTime (.int (t : Nat)) = .ok (1000 * t) := by
  rw [rosTime_spec (by omega), Nat.mod_eq_of_lt h, Nat.mul_comm]

/-- the failing part of **C58**: later timestamps are wrapped. -/
theorem C58_wraps : rosTime (.int ((2 ^ 61 : Nat) : Int)) = .ok 0 := by
  rw [rosTime_spec (by decide)]

/-! ### C59 -/

theorem strLe_append {a b x y : Str} (hl : a.length = b.length) (hne : a ≠ b) :
    strLe (a ++ x) (b ++ y) = strLe a b := by
  induction a generalizing b with
  | nil =>
    cases b with
    | nil => exact absurd rfl hne
    | cons c cs => simp at hl
  | cons c cs ih =>
    cases b with
    | nil => simp at hl
    | cons d ds =>
      rw [List.cons_append, List.cons_append, strLe, strLe]
      by_cases h : c = d
      · rw [if_pos h, if_pos h]
        exact ih (by simpa using hl) (by intro e; exact hne (by rw [h, e]))
      · rw [if_neg h, if_neg h]

theorem strLe_cancel (a x y : Str) : strLe (a ++ x) (a ++ y) = strLe x y := by
  induction a with
  | nil => rfl
  | cons c cs ih => rw [List.cons_append, List.cons_append, strLe, if_pos rfl, ih]

theorem strLe_zero (p : Nat) : strLe (py! "0") (natDec p) = true := by
  have h1 := natDec_ne_nil p
  have h2 := natDec_chars p
  cases hp : natDec p with
  | nil => exact absurd hp h1
  | cons c cs =>
    rw [strLe]
    by_cases h : '0' = c
    · rw [if_pos h]; rfl
    · rw [if_neg h]
      have := h2 c (by rw [hp]; simp)
      unfold isDigitC at this
      have hc : c.toNat ≠ 48 := by
        intro he
        apply h
        apply Char.ext
        apply UInt32.toNat_inj.mp
        exact he.symm
      have : (48 : Nat) < c.toNat := by omega
      simpa using this

theorem minor_cmp (k : Nat) (hk : 10 ≤ k ∧ k < 100) (x y : Str) (m p : Nat) (hm : 10 ≤ m ∧ m < 100)
    (hx : x = natDec k ++ py! ".0") (hy : y = natDec m ++ '.' :: natDec p) :
    strLe x y = decide (k ≤ m) := by
  have hlen : ∀ n : Fin 100, 10 ≤ n.1 → (natDec n.1).length = 2 := by decide +kernel
  have hcmp : ∀ a b : Fin 100, 10 ≤ a.1 → 10 ≤ b.1 → a ≠ b → strLe (natDec a.1) (natDec b.1) = decide (a.1 ≤ b.1) := by
    decide +kernel
  subst hx hy
  by_cases h : k = m
  · subst h
    rw [strLe_cancel, decide_eq_true (Nat.le_refl k)]
    exact (strLe_cancel ['.'] (py! "0") (natDec p)).trans (strLe_zero p)
  · rw [strLe_append (by rw [hlen ⟨k, hk.2⟩ hk.1, hlen ⟨m, hm.2⟩ hm.1]) (fun e => h (natDec_inj e))]
    exact hcmp ⟨k, hk.2⟩ ⟨m, hm.2⟩ hk.1 hm.1 (fun e => h (congrArg Fin.val e))

/-- **C59**: for the versions 0.10.0 to 0.99.x the choice of the interface agrees with the order of the
versions. -/
theorem C59_versions_partial (m p : Nat) (hm : 10 ≤ m ∧ m < 100) :
    (usesTopicId (py! "0." ++ natDec m ++ '.' :: natDec p) = true ↔ 25 ≤ m) ∧
    (usesSeqnum (py! "0." ++ natDec m ++ '.' :: natDec p) = true ↔ 32 ≤ m) := by
  have h25 : py! "0.25.0" = py! "0." ++ (natDec 25 ++ py! ".0") := by decide
  have h32 : py! "0.32.0" = py! "0." ++ (natDec 32 ++ py! ".0") := by decide
  unfold usesTopicId usesSeqnum
  rw [h25, h32, List.append_assoc, strLe_cancel, strLe_cancel, minor_cmp 25 (by omega) _ _ m p hm rfl rfl,
    minor_cmp 32 (by omega) _ _ m p hm rfl rfl]
  simp

/-- the number that the first two digits of `m` form (`m` itself below 100) -/
def Spec.leading (m : Nat) : Nat := if _ : m < 100 then m else leading (m / 10)

theorem leading_lt (m : Nat) (h : m < 100) : Spec.leading m = m := by
  rw [Spec.leading, dif_pos h]

theorem natDec_one (r : Nat) (h : r < 10) : natDec r = [digitC r] := by
  unfold natDec
  cases r with
  | zero => rfl
  | succ r => rw [natDecF, if_pos h]

theorem natDec_split (m : Nat) (h : 10 ≤ m) : natDec m = natDec (m / 10) ++ natDec (m % 10) := by
  rw [natDec_one (m % 10) (Nat.mod_lt m (by omega))]
  obtain ⟨f, rfl⟩ : ∃ f, m = f + 1 := ⟨m - 1, by omega⟩
  show natDecF (f + 1) (f + 1) = _
  rw [natDecF, if_neg (by omega), natDecF_eq _ _ (by omega), natDec_eq]
  rfl

/-- the first digit of a positive number is not zero -/
theorem natDec_first (a : Nat) (ha : 0 < a) : ∃ c cs, natDec a = c :: cs ∧ 48 < c.toNat := by
  induction a using Nat.strongRecOn with
  | ind a ih =>
    by_cases h : a < 10
    · refine ⟨digitC a, [], natDec_one a h, ?_⟩
      have : ∀ n : Fin 10, 0 < n.1 → 48 < (digitC n.1).toNat := by decide +kernel
      exact this ⟨a, h⟩ ha
    · obtain ⟨c, cs, h1, h2⟩ := ih (a / 10) (by omega) (by omega)
      exact ⟨c, cs ++ natDec (a % 10), by rw [natDec_split a (by omega), h1]; rfl, h2⟩

theorem leading_digits (m : Nat) (h : 100 ≤ m) :
    ∃ rest, natDec m = natDec (Spec.leading m) ++ rest ∧ rest ≠ [] ∧ (∀ c ∈ rest, isDigitC c) ∧
      10 ≤ Spec.leading m ∧ Spec.leading m < 100 := by
  induction m using Nat.strongRecOn with
  | ind m ih =>
    rw [Spec.leading, dif_neg (by omega)]
    have e := natDec_split m (by omega)
    by_cases hs : m / 10 < 100
    · rw [leading_lt _ hs]
      exact ⟨natDec (m % 10), e, natDec_ne_nil _, natDec_chars _, by omega, hs⟩
    · obtain ⟨rest, h1, h2, h3, h4⟩ := ih (m / 10) (by omega) (by omega)
      refine ⟨rest ++ natDec (m % 10), ?_, ?_, ?_, h4⟩
      · rw [e, h1, List.append_assoc]
      · simp [h2]
      · intro c hc
        rcases List.mem_append.mp hc with hc | hc
        · exact h3 c hc
        · exact natDec_chars _ c hc

theorem long_cmp (k : Nat) (hk : 10 ≤ k ∧ k < 100) (l : Nat) (hl : 10 ≤ l ∧ l < 100) (rest q : Str)
    (hne : rest ≠ []) (hd : ∀ c ∈ rest, isDigitC c) :
    strLe (natDec k ++ py! ".0") (natDec l ++ (rest ++ q)) = decide (k ≤ l) := by
  have hlen : ∀ n : Fin 100, 10 ≤ n.1 → (natDec n.1).length = 2 := by decide +kernel
  have hcmp : ∀ a b : Fin 100, 10 ≤ a.1 → 10 ≤ b.1 → a ≠ b → strLe (natDec a.1) (natDec b.1) = decide (a.1 ≤ b.1) := by
    decide +kernel
  by_cases h : k = l
  · subst h
    rw [strLe_cancel, decide_eq_true (Nat.le_refl k)]
    cases rest with
    | nil => exact absurd rfl hne
    | cons c cs =>
      have hc := hd c (by simp)
      unfold isDigitC at hc
      rw [List.cons_append, strLe, if_neg (by rintro rfl; revert hc; decide)]
      have : ('.' : Char).toNat = 46 := rfl
      rw [this]
      simp
      omega
  · rw [strLe_append (by rw [hlen ⟨k, hk.2⟩ hk.1, hlen ⟨l, hl.2⟩ hl.1]) (fun e => h (natDec_inj e))]
    exact hcmp ⟨k, hk.2⟩ ⟨l, hl.2⟩ hk.1 hl.1 (fun e => h (congrArg Fin.val e))

/-- **C59**, exactly, for every version 0.m.p: what is compared with 25 (32) is the number of the first two
digits of `m`; a single digit counts as if a zero followed. -/
theorem C59_exact (m p : Nat) :
    (usesTopicId (py! "0." ++ natDec m ++ '.' :: natDec p) = true ↔
      25 ≤ (if m < 10 then 10 * m else Spec.leading m)) ∧
    (usesSeqnum (py! "0." ++ natDec m ++ '.' :: natDec p) = true ↔
      32 ≤ (if m < 10 then 10 * m else Spec.leading m)) := by
  have h25 : py! "0.25.0" = py! "0." ++ (natDec 25 ++ py! ".0") := by decide
  have h32 : py! "0.32.0" = py! "0." ++ (natDec 32 ++ py! ".0") := by decide
  unfold usesTopicId usesSeqnum
  rw [h25, h32, List.append_assoc, strLe_cancel, strLe_cancel]
  by_cases h10 : m < 10
  · rw [if_pos h10]
    rcases (show m = 0 ∨ m = 1 ∨ m = 2 ∨ m = 3 ∨ m = 4 ∨ m = 5 ∨ m = 6 ∨ m = 7 ∨ m = 8 ∨ m = 9 by omega) with
      rfl | rfl | rfl | rfl | rfl | rfl | rfl | rfl | rfl | rfl <;>
    · constructor <;> (generalize natDec p = q; simp [natDec, natDecF, digitC, strLe])
  · rw [if_neg h10]
    by_cases h100 : m < 100
    · rw [leading_lt m h100, minor_cmp 25 (by omega) _ _ m p (by omega) rfl rfl,
        minor_cmp 32 (by omega) _ _ m p (by omega) rfl rfl]
      simp
    · obtain ⟨rest, h1, h2, h3, h4, h5⟩ := leading_digits m (by omega)
      rw [h1, List.append_assoc]
      have := fun k hk => long_cmp k hk (Spec.leading m) ⟨h4, h5⟩ rest ('.' :: natDec p) h2 h3
      rw [this 25 (by omega), this 32 (by omega)]
      simp

/-- **C59**: a version 1.0.0 or later is always taken to be later. -/
theorem C59_major (a : Nat) (rest : Str) (ha : 0 < a) :
    usesTopicId (natDec a ++ rest) = true ∧ usesSeqnum (natDec a ++ rest) = true := by
  obtain ⟨c, cs, h1, h2⟩ := natDec_first a ha
  have hc : '0' ≠ c := by rintro rfl; exact absurd h2 (by decide)
  unfold usesTopicId usesSeqnum
  rw [h1, List.cons_append]
  constructor
  · show (if '0' = c then _ else decide (48 < c.toNat)) = true
    rw [if_neg hc, decide_eq_true h2]
  · show (if '0' = c then _ else decide (48 < c.toNat)) = true
    rw [if_neg hc, decide_eq_true h2]

/-- **C59**: the versions 0.m.p for which the choice is wrong are those with a minor number of one digit
from 3 on, and those with three or more digits of which the first two form a number below 25 (32). -/
theorem C59_wrong_iff (m p : Nat) :
    (¬ (usesTopicId (py! "0." ++ natDec m ++ '.' :: natDec p) = true ↔ 25 ≤ m) ↔
      3 ≤ m ∧ m < 10 ∨ 100 ≤ m ∧ Spec.leading m < 25) ∧
    (¬ (usesSeqnum (py! "0." ++ natDec m ++ '.' :: natDec p) = true ↔ 32 ≤ m) ↔
      4 ≤ m ∧ m < 10 ∨ 100 ≤ m ∧ Spec.leading m < 32) := by
  rw [(C59_exact m p).1, (C59_exact m p).2]
  by_cases h10 : m < 10
  · rw [if_pos h10]; omega
  · rw [if_neg h10]
    by_cases h100 : m < 100
    · rw [leading_lt m h100]; omega
    · omega

/-- the failing part of **C59**: the versions 0.3 and 0.9 are taken to be later than 0.25 and, the last,
0.32; version 0.100 is taken to be earlier. -/
theorem C59_string_order : usesTopicId (py! "0.3.11") = true ∧ usesTopicId (py! "0.9.1") = true ∧
    usesSeqnum (py! "0.9.1") = true ∧ usesTopicId (py! "0.100.0") = false := by decide

example : Spec.leading 1234 = 12 ∧ Spec.leading 253 = 25 ∧ Spec.leading 7 = 7 := by
  simp [Spec.leading]

example : usesTopicId (py! "0.15.9") = false ∧ usesTopicId (py! "0.26.1") = true ∧
    usesSeqnum (py! "0.26.1") = false ∧ usesSeqnum (py! "0.32.0") = true := by decide

/-! ### C60 -/

/-- A place in a message: an attribute, or an element of an array attribute. -/
inductive Spec.Place where
  | attr (name : Str)
  | elem (name : Str) (k : Nat)
  deriving DecidableEq

def Spec.Place.name : Place → Str
  | .attr n => n
  | .elem n _ => n

/-- the name of the place in a ULog dataset -/
def Spec.Place.column : Place → Str
  | .attr n => n
  | .elem n k => n ++ py! "[" ++ natDec k ++ py! "]"

/-- names as they occur in ULog and ROS2 -/
def Spec.Place.plain (p : Place) : Prop := '[' ∉ p.name ∧ '\n' ∉ p.name

/-- the value of a message at a place -/
def Spec.placeVal (msg : Dict Str RosVal) : Place → Option RosScalar
  | .attr n =>
    match msg.get? n with
    | some (.plain v) => some v
    | _ => none
  | .elem n k =>
    match msg.get? n with
    | some (.array l) => l[k]?
    | _ => none

/-- a number is true unless it is zero (0 or, for floating point, a pattern with only the sign bit) -/
def Spec.nonZero : NpVal → Bool
  | .int n => !decide (n = 0)
  | .f32 b => !decide (b % 2 ^ 31 = 0)
  | .f64 b => !decide (b % 2 ^ 63 = 0)

/-- the value expected for a cell: bools are kept as 8-bit integers in a dataset -/
def Spec.rosCell (rosType : Str) (bt : BT) (v : NpVal) : RosScalar :=
  match bt with
  | .i8 => if startsWith (py! "bool") rosType then .bool (nonZero v) else .num v
  | .bool => if startsWith (py! "bool") rosType then .bool (nonZero v) else .num v
  | .char => if startsWith (py! "bool") rosType then .bool (nonZero v) else .num v
  | _ => .num v

/-- The columns are those of the places: the places are different and no attribute is written both as a
whole and by element. -/
structure Spec.Places (fields : List FieldData) (ps : List Place) : Prop where
  columns : fields.map (·.name) = ps.map Place.column
  plain : ∀ p ∈ ps, p.plain
  nodup : ps.Nodup
  shape : ∀ n k, Place.attr n ∈ ps → Place.elem n k ∉ ps

theorem arrayRef_none {s : Str} (h : '[' ∉ s) : arrayRef s = none := by
  induction s with
  | nil => rfl
  | cons c cs ih =>
    rw [List.mem_cons, not_or] at h
    rw [arrayRef, if_neg (fun e => h.1 e.1.symm), ih h.2]
    simp

theorem digVal_natDecF (f n : Nat) (h : n ≤ f) : digVal (natDecF f n) = n := by
  induction f generalizing n with
  | zero =>
    have : n = 0 := by omega
    subst this
    rfl
  | succ f ih =>
    have hd : ∀ d : Fin 10, (digitVal (digitC d.1)).getD 0 = d.1 := by decide
    unfold natDecF
    split
    · rename_i hlt
      exact (Nat.zero_add _).trans (hd ⟨n, hlt⟩)
    · have hi := ih (n / 10) (by omega)
      unfold digVal at hi ⊢
      rw [List.foldl_append, hi, List.foldl_cons, List.foldl_nil, hd ⟨n % 10, by omega⟩]
      show 10 * (n / 10) + n % 10 = n
      omega

theorem digVal_natDec (k : Nat) : digVal (natDec k) = k := digVal_natDecF k k (Nat.le_refl k)

theorem arrayRef_elem {s : Str} (h : '[' ∉ s) (h2 : '\n' ∉ s) (k : Nat) :
    arrayRef (s ++ py! "[" ++ natDec k ++ py! "]") = some (s, k) := by
  induction s with
  | nil =>
    have hd : ∀ c ∈ natDec k, isDig c = true := by
      intro c hc
      have h : 48 ≤ c.toNat ∧ c.toNat ≤ 57 := natDec_chars k c hc
      unfold isDig
      rw [digit_iff.mpr (⟨by omega, '0', List.mem_cons_self .., show c.toNat = 48 + (c.toNat - 48) by omega⟩ :
        DigitOf c (c.toNat - 48))]
      rfl
    show arrayRef ('[' :: (natDec k ++ [']'])) = _
    have h1 : (natDec k ++ [']']).takeWhile isDig = natDec k := by
      rw [List.takeWhile_append_of_pos hd]
      simp [show isDig ']' = false by decide]
    have h2 : (natDec k ++ [']']).dropWhile isDig = [']'] := by
      rw [List.dropWhile_append_of_pos hd]
      simp [show isDig ']' = false by decide]
    rw [arrayRef, h1, h2, if_pos ⟨rfl, natDec_ne_nil k, rfl⟩, digVal_natDec]
  | cons c cs ih =>
    rw [List.mem_cons, not_or] at h h2
    show arrayRef (c :: (cs ++ py! "[" ++ natDec k ++ py! "]")) = _
    rw [arrayRef, if_neg (fun e => h.1 e.1.symm), if_neg (fun e => h2.1 e.symm), ih h.2 h2.2]
    rfl

/-- what `setField` does with the place of its field -/
def setPlace (msg : Dict Str RosVal) (x : RosScalar) : Place → Except PyErr (Dict Str RosVal)
  | .attr n => .ok (msg.set n (.plain x))
  | .elem n k => setElem msg n k x

theorem setField_place {ty : RosType} {d : Dataset} {i : Nat} {msg msg' : Dict Str RosVal} {f : FieldData} {p : Place}
    (hp : p.plain) (hf : f.name = p.column) (h : setField ty d i msg f = .ok msg') :
    ∃ col v t, d.data.get? f.name = some col ∧ col[i]? = some v ∧ ty.types.get? p.name = some t ∧
      setPlace msg (rosCell t f.type v) p = .ok msg' := by
  have hify : ∀ {n : Str} {v : NpVal} {x : RosScalar}, ros2ify ty n f.type v = .ok x →
      ∃ t, ty.types.get? n = some t ∧ x = rosCell t f.type v := by
    intro n v x h
    unfold ros2ify at h
    obtain ⟨t, h1, h⟩ := except_bind_ok.mp h
    have ht : ty.types.get? n = some t := by
      unfold dictGet at h1
      cases hg : ty.types.get? n with
      | none => rw [hg] at h1; cases h1
      | some t' => rw [hg] at h1; injection h1 with h1; rw [h1]
    refine ⟨t, ht, ?_⟩
    have hz : npTruth v = nonZero v := by cases v <;> simp [npTruth, nonZero]
    rw [hz] at h
    generalize f.type = bt at h
    by_cases hb : startsWith (py! "bool") t = true
    · cases bt <;> simp only [isInt8, rosCell, hb, true_and, false_and, if_true, if_false, Bool.false_eq_true] at h ⊢ <;>
        (injection h with h; exact h.symm)
    · cases bt <;> simp only [isInt8, rosCell, hb, and_false, if_false, Bool.false_eq_true] at h ⊢ <;>
        (injection h with h; exact h.symm)
  unfold setField at h
  obtain ⟨col, h1, h⟩ := except_bind_ok.mp h
  obtain ⟨v, h2, h⟩ := except_bind_ok.mp h
  have h1' : d.data.get? f.name = some col := by
    unfold dictGet at h1
    cases hg : d.data.get? f.name with
    | none => rw [hg] at h1; cases h1
    | some t' => rw [hg] at h1; injection h1 with h1; rw [h1]
  have h2' : col[i]? = some v := by
    unfold pyIndex at h2
    cases hg : col[i]? with
    | none => rw [hg] at h2; cases h2
    | some t' => rw [hg] at h2; injection h2 with h2; rw [h2]
  cases p with
  | attr n =>
    have hn : f.name = n := hf
    have ha : arrayRef f.name = none := by rw [hn]; exact arrayRef_none hp.1
    rw [ha] at h
    obtain ⟨x, h3, h⟩ := except_bind_ok.mp h
    obtain ⟨t, ht, rfl⟩ := hify h3
    exact ⟨col, v, t, h1', h2', by rw [← hn]; exact ht, by rw [← h, hn]; rfl⟩
  | elem n k =>
    have ha : arrayRef f.name = some (n, k) := by rw [hf]; exact arrayRef_elem hp.1 hp.2 k
    rw [ha] at h
    obtain ⟨x, h3, h⟩ := except_bind_ok.mp h
    obtain ⟨t, ht, rfl⟩ := hify h3
    exact ⟨col, v, t, h1', h2', ht, h⟩

theorem setPlace_placeVal {msg msg' : Dict Str RosVal} {x : RosScalar} {p : Place} (h : setPlace msg x p = .ok msg') :
    placeVal msg' p = some x := by
  cases p with
  | attr n =>
    injection h with h
    subst h
    simp [placeVal]
  | elem n k =>
    have h : setElem msg n k x = .ok msg' := h
    unfold setElem at h
    cases hg : msg.get? n with
    | none => rw [hg] at h; cases h
    | some y =>
      rw [hg] at h
      cases y with
      | plain _ => cases h
      | array l =>
        by_cases hk : k < l.length
        · have h : (if k < l.length then Except.ok (msg.set n (.array (l.set k x))) else .error PyErr.indexError) = .ok msg' := h
          rw [if_pos hk] at h
          injection h with h
          subst h
          simp [placeVal, hk]
        · have h : (if k < l.length then Except.ok (msg.set n (.array (l.set k x))) else .error PyErr.indexError) = .ok msg' := h
          rw [if_neg hk] at h
          cases h

theorem setPlace_frame {msg msg' : Dict Str RosVal} {x : RosScalar} {p q : Place} (h : setPlace msg x p = .ok msg')
    (hne : q ≠ p) (hsh : p = .attr q.name → False) (hsh' : ∀ k, q = .attr p.name → p ≠ .elem p.name k) :
    placeVal msg' q = placeVal msg q := by
  cases p with
  | attr n =>
    injection h with h
    subst h
    have hn : n ≠ q.name := fun e => hsh (by rw [e])
    cases q with
    | attr m =>
      have hn : n ≠ m := hn
      simp [placeVal, Dict.get?_set, hn]
    | elem m k =>
      have hn : n ≠ m := hn
      simp [placeVal, Dict.get?_set, hn]
  | elem n k =>
    have h : setElem msg n k x = .ok msg' := h
    unfold setElem at h
    cases hg : msg.get? n with
    | none => rw [hg] at h; cases h
    | some y =>
      rw [hg] at h
      cases y with
      | plain _ => cases h
      | array l =>
        have h : (if k < l.length then Except.ok (msg.set n (.array (l.set k x))) else .error PyErr.indexError) = .ok msg' := h
        by_cases hk : k < l.length
        · rw [if_pos hk] at h
          injection h with h
          subst h
          cases q with
          | attr m =>
            have hm : m ≠ n := fun e => hsh' k (by rw [e]; rfl) rfl
            simp [placeVal, Dict.get?_set, Ne.symm hm]
          | elem m j =>
            by_cases hm : m = n
            · subst hm
              have hj : j ≠ k := fun e => hne (by rw [e])
              simp [placeVal, hg, Ne.symm hj]
            · simp [placeVal, Dict.get?_set, Ne.symm hm]
        · rw [if_neg hk] at h
          cases h

theorem rosMessage_frame {ty : RosType} {d : Dataset} {i : Nat} {fs : List FieldData} {ps : List Place}
    (hps : Places fs ps) {m0 msg : Dict Str RosVal} (h : fs.foldlM (setField ty d i) m0 = .ok msg) (q : Place)
    (hq : q ∉ ps) (h1 : Place.attr q.name ∉ ps) (h2 : ∀ k, q = .attr q.name → Place.elem q.name k ∉ ps) :
    placeVal msg q = placeVal m0 q := by
  induction fs generalizing ps m0 with
  | nil =>
    injection h with h
    subst h
    rfl
  | cons f fs ih =>
    cases ps with
    | nil => have := hps.columns; simp at this
    | cons p ps =>
      have hc := hps.columns
      rw [List.map_cons, List.map_cons] at hc
      injection hc with hc1 hc2
      rw [List.foldlM_cons] at h
      obtain ⟨m1, hm1, h⟩ := except_bind_ok.mp h
      have hnd := List.nodup_cons.mp hps.nodup
      have hps' : Places fs ps := ⟨hc2, fun p hp => hps.plain p (by simp [hp]), hnd.2,
        fun n k ha he => hps.shape n k (by simp [ha]) (by simp [he])⟩
      rw [ih hps' h (fun e => hq (by simp [e])) (fun e => h1 (by simp [e])) (fun k e e' => h2 k e (by simp [e']))]
      obtain ⟨col, v, t, _, _, _, hs⟩ := setField_place (hps.plain p (by simp)) hc1 hm1
      refine setPlace_frame hs (fun e => hq (by simp [e])) (fun e => h1 (by simp [e])) (fun k e e' => ?_)
      have : p.name = q.name := by rw [e]; rfl
      rw [this] at e e'
      exact h2 k e (by rw [e']; simp)

/-- **C60**: each place of a message named by a column holds the value of that column in the row. -/
theorem C60_values {ty : RosType} {d : Dataset} {i : Nat} {ps : List Place} (hps : Places d.fields ps)
    {msg : Dict Str RosVal} (h : rosMessage ty d i = .ok msg) :
    ∀ fp ∈ d.fields.zip ps, ∃ col v t, d.data.get? fp.1.name = some col ∧ col[i]? = some v ∧
      ty.types.get? fp.2.name = some t ∧ placeVal msg fp.2 = some (rosCell t fp.1.type v) := by
  unfold rosMessage at h
  generalize d.fields = fs at *
  generalize ty.fresh = m0 at *
  induction fs generalizing ps m0 with
  | nil => intro fp hfp; simp at hfp
  | cons f fs ih =>
    cases ps with
    | nil => have := hps.columns; simp at this
    | cons p ps =>
      have hc := hps.columns
      rw [List.map_cons, List.map_cons] at hc
      injection hc with hc1 hc2
      rw [List.foldlM_cons] at h
      obtain ⟨m1, hm1, h⟩ := except_bind_ok.mp h
      have hnd := List.nodup_cons.mp hps.nodup
      have hps' : Places fs ps := ⟨hc2, fun p hp => hps.plain p (by simp [hp]), hnd.2,
        fun n k ha he => hps.shape n k (by simp [ha]) (by simp [he])⟩
      intro fp hfp
      rw [List.zip_cons_cons, List.mem_cons] at hfp
      rcases hfp with rfl | hfp
      · obtain ⟨col, v, t, h1, h2, h3, hs⟩ := setField_place (hps.plain p (by simp)) hc1 hm1
        refine ⟨col, v, t, h1, h2, h3, ?_⟩
        rw [rosMessage_frame hps' h p hnd.1 ?_ ?_]
        · exact setPlace_placeVal hs
        · intro hx
          cases p with
          | attr n => exact hnd.1 hx
          | elem n k => exact hps.shape n k (List.mem_cons_of_mem _ hx) (List.mem_cons_self ..)
        · intro k e hx
          cases p with
          | attr n => exact hps.shape n k (List.mem_cons_self ..) (List.mem_cons_of_mem _ hx)
          | elem n k => cases e
      · exact ih hps' m1 h fp hfp

/-- **C60**: a place whose attribute no column names keeps its initial value. -/
theorem C60_frame {ty : RosType} {d : Dataset} {i : Nat} {ps : List Place} (hps : Places d.fields ps)
    {msg : Dict Str RosVal} (h : rosMessage ty d i = .ok msg) (q : Place) (hq : ∀ p ∈ ps, p.name ≠ q.name) :
    placeVal msg q = placeVal ty.fresh q :=
  rosMessage_frame hps h q (fun e => hq q e rfl) (fun e => hq _ e rfl) (fun _ _ e => hq _ e rfl)

/-- `s` is `b` with an index in brackets behind it; a newline may follow, which stays at the end of `b` -/
def Spec.IndexedName (s b : Str) : Prop :=
  ∃ a ds e, ds ≠ [] ∧ (∀ c ∈ ds, ∃ n, DigitOf c n) ∧ (e = [] ∨ e = ['\n']) ∧
    s = a ++ '[' :: ds ++ ']' :: e ∧ b = a ++ e

/-- `b` is the name without a trailing index in brackets -/
def Spec.BaseName (s b : Str) : Prop := IndexedName s b ∨ ((¬ ∃ b', IndexedName s b') ∧ b = s)

theorem isDig_iff (c : Char) : isDig c = true ↔ ∃ n, DigitOf c n := by
  unfold isDig
  rw [Option.isSome_iff_exists]
  exact exists_congr fun _ => digit_iff

theorem takeWhile_digits {ds r : Str} (h : ∀ c ∈ ds, isDig c = true) :
    (ds ++ '[' :: r).takeWhile isDig = ds ∧ (ds ++ '[' :: r).dropWhile isDig = '[' :: r := by
  have hb : isDig '[' = false := by decide
  induction ds with
  | nil => simp [hb]
  | cons d ds ih =>
    have h1 := h d (by simp)
    have := ih fun c hc => h c (by simp [hc])
    simp [h1, this]

theorem stripEnd_indexed {b ds : Str} (hd : ds ≠ []) (h : ∀ c ∈ ds, ∃ n, DigitOf c n) :
    stripEnd (b ++ '[' :: ds ++ [']']) = b := by
  have hr : (b ++ '[' :: ds ++ [']']).reverse = ']' :: (ds.reverse ++ '[' :: b.reverse) := by simp
  unfold stripEnd
  rw [hr]
  obtain ⟨h1, h2⟩ := takeWhile_digits (ds := ds.reverse) (r := b.reverse)
    fun c hc => (isDig_iff c).mpr (h c (List.mem_reverse.mp hc))
  show (if _ then _ else _) = b
  rw [h1, h2, if_pos ⟨by simpa using hd, rfl⟩]
  simp

theorem stripEnd_base (s : Str) : stripEnd s = s ∨
    ∃ ds, ds ≠ [] ∧ (∀ c ∈ ds, ∃ n, DigitOf c n) ∧ s = stripEnd s ++ '[' :: ds ++ [']'] := by
  unfold stripEnd
  split
  · next r hr =>
    split
    · next hc =>
      right
      have hs : s = (r.reverse ++ [']']) := by
        have := congrArg List.reverse hr
        simpa using this
      have hsplit : r = r.takeWhile isDig ++ r.dropWhile isDig := List.takeWhile_append_dropWhile.symm
      obtain ⟨t, ht⟩ : ∃ t, r.dropWhile isDig = '[' :: t := by
        cases hdw : r.dropWhile isDig with
        | nil => rw [hdw] at hc; simp at hc
        | cons x t =>
          rw [hdw] at hc
          have : x = '[' := by simpa using hc.2
          exact ⟨t, by rw [this]⟩
      refine ⟨(r.takeWhile isDig).reverse, by simpa using hc.1, ?_, ?_⟩
      · intro c hm
        rw [← isDig_iff]
        exact List.all_eq_true.mp List.all_takeWhile c (List.mem_reverse.mp hm)
      · rw [hs]
        conv => lhs; rw [hsplit, ht]
        rw [ht]
        simp
    · exact .inl rfl
  · exact .inl rfl

theorem stripIndex_newline (r : Str) : stripIndex (r ++ ['\n']) = stripEnd r ++ ['\n'] := by
  unfold stripIndex
  rw [List.reverse_append]
  show stripEnd r.reverse.reverse ++ ['\n'] = _
  rw [List.reverse_reverse]

theorem stripIndex_bracket (r : Str) : stripIndex (r ++ [']']) = stripEnd (r ++ [']']) := by
  unfold stripIndex
  rw [List.reverse_append]
  rfl

theorem stripIndex_indexed {s b : Str} (h : IndexedName s b) : stripIndex s = b := by
  obtain ⟨a, ds, e, h1, h2, rfl | rfl, rfl, rfl⟩ := h
  · rw [stripIndex_bracket, stripEnd_indexed h1 h2, List.append_nil]
  · have : a ++ '[' :: ds ++ [']', '\n'] = (a ++ '[' :: ds ++ [']']) ++ ['\n'] := by simp
    rw [this, stripIndex_newline, stripEnd_indexed h1 h2]

theorem stripIndex_base (s : Str) : BaseName s (stripIndex s) := by
  by_cases hx : ∃ b', IndexedName s b'
  · obtain ⟨b, h⟩ := hx
    rw [stripIndex_indexed h]
    exact .inl h
  · refine .inr ⟨hx, ?_⟩
    unfold stripIndex
    split
    · next r hr =>
      have hs : s = r.reverse ++ ['\n'] := by
        have := congrArg List.reverse hr
        simpa using this
      rcases stripEnd_base r.reverse with h | ⟨ds, h1, h2, h3⟩
      · rw [h, ← hs]
      · exact absurd ⟨_, stripEnd r.reverse, ds, ['\n'], h1, h2, .inr rfl,
          by rw [hs]; conv => { lhs; rw [h3] }
             simp, rfl⟩ hx
    · rcases stripEnd_base s with h | ⟨ds, h1, h2, h3⟩
      · exact h
      · exact absurd ⟨_, stripEnd s, ds, [], h1, h2, .inl rfl, h3, rfl⟩ hx

theorem BaseName_unique {s a b : Str} (ha : BaseName s a) (hb : BaseName s b) : a = b := by
  have h : ∀ {c}, BaseName s c → stripIndex s = c := by
    intro c hc
    rcases hc with h | ⟨h1, rfl⟩
    · exact stripIndex_indexed h
    · rcases stripIndex_base c with g | ⟨_, g⟩
      · exact absurd ⟨_, g⟩ h1
      · exact g
  rw [← h ha, ← h hb]

/-- a dot in the first line of a name -/
theorem composed_iff (s : Str) : isComposed s = true ↔ ∃ a b, s = a ++ '.' :: b ∧ '\n' ∉ a := by
  unfold isComposed
  rw [decide_eq_true_eq]
  induction s with
  | nil => simp
  | cons c cs ih =>
    rw [List.takeWhile_cons]
    by_cases hn : c = '\n'
    · subst hn
      rw [if_neg (by simp)]
      refine ⟨fun h => (by cases h), ?_⟩
      rintro ⟨a, b, h, ha⟩
      cases a with
      | nil => simp at h
      | cons x a =>
        injection h with h _
        exact absurd (h ▸ List.mem_cons_self ..) ha
    · rw [if_pos (by simpa using hn), List.mem_cons, ih]
      constructor
      · rintro (h | ⟨a, b, rfl, ha⟩)
        · exact ⟨[], cs, by rw [h]; rfl, by simp⟩
        · refine ⟨c :: a, b, rfl, ?_⟩
          rw [List.mem_cons, not_or]
          exact ⟨fun e => hn e.symm, ha⟩
      · rintro ⟨a, b, h, ha⟩
        cases a with
        | nil => injection h with h _; exact .inl h.symm
        | cons x a =>
          injection h with _ h
          exact .inr ⟨a, b, h, fun hm => ha (List.mem_cons_of_mem _ hm)⟩

/-- **C60**: exactly the datasets are exported whose topic has a message type of the package, that have no
nested fields, and whose fields are all known to that type (arrays by the name without index). -/
theorem C60_exported (env : RosEnv) (d : Dataset) (name : Str) (ty : RosType) :
    exportType env d = some (name, ty) ↔ env.msgType d.name = some name ∧ env.type name = some ty ∧
      ∀ f ∈ d.fields, (¬ ∃ a b, f.name = a ++ '.' :: b ∧ '\n' ∉ a) ∧ ∃ b, BaseName f.name b ∧ b ∈ ty.types.keys := by
  unfold exportType
  cases hm : env.msgType d.name with
  | none => simp
  | some n =>
    dsimp only
    cases ht : env.type n with
    | none =>
      dsimp only
      simp only [reduceCtorEq, Option.some.injEq, false_iff]
      rintro ⟨rfl, h, _⟩
      rw [ht] at h; cases h
    | some t =>
      dsimp only
      have key : (d.fields.any (fun f => isComposed f.name) = false ∧
          d.fields.all (fun f => decide (stripIndex f.name ∈ t.types.keys)) = true) ↔
          ∀ f ∈ d.fields, (¬ ∃ a b, f.name = a ++ '.' :: b ∧ '\n' ∉ a) ∧ ∃ b, BaseName f.name b ∧ b ∈ t.types.keys := by
        rw [List.any_eq_false, List.all_eq_true]
        constructor
        · rintro ⟨h1, h2⟩ f hf
          exact ⟨fun hdot => h1 f hf ((composed_iff _).mpr hdot), _, stripIndex_base _, of_decide_eq_true (h2 f hf)⟩
        · intro h
          refine ⟨fun f hf hc => (h f hf).1 ((composed_iff _).mp hc), fun f hf => ?_⟩
          obtain ⟨b, hb, hk⟩ := (h f hf).2
          rw [decide_eq_true_eq, BaseName_unique (stripIndex_base _) hb]
          exact hk
      by_cases h1 : d.fields.any (fun f => isComposed f.name) = true
      · rw [if_pos h1]
        simp only [reduceCtorEq, Option.some.injEq, false_iff]
        rintro ⟨rfl, h, hall⟩
        rw [ht] at h; cases h
        have := (key.mpr hall).1
        rw [h1] at this; cases this
      · rw [if_neg h1]
        by_cases h2 : d.fields.all (fun f => decide (stripIndex f.name ∈ t.types.keys)) = true
        · rw [if_pos h2]
          constructor
          · intro h
            cases h
            exact ⟨rfl, ht, key.mp ⟨by simpa using h1, h2⟩⟩
          · rintro ⟨h, g, _⟩
            cases h
            rw [ht] at g; cases g; rfl
        · rw [if_neg h2]
          simp only [reduceCtorEq, Option.some.injEq, false_iff]
          rintro ⟨rfl, h, hall⟩
          rw [ht] at h; cases h
          exact h2 (key.mpr hall).2

/-- **C60**: the messages of the bag are those of the rows of the exported datasets, in order. -/
theorem C60_rows (env : RosEnv) (all : List Dataset) (d : Dataset) (bag bag' : Bag) (name : Str) (ty : RosType)
    (ht : exportType env d = some (name, ty)) (h : exportTopic env all bag d = .ok bag') :
    ∃ ts rows, d.data.get? (py! "timestamp") = some ts ∧ bag'.messages = bag.messages ++ rows ∧
      bag'.topics = bag.topics ++ [(rosTopic all d, py! "px4_msgs/msg/" ++ name)] ∧ rows.length = ts.length ∧
      ∀ i (hi : i < rows.length), (rows[i]).1 = rosTopic all d ∧ rosMessage ty d i = .ok (rows[i]).2.1 := by
  unfold exportTopic at h
  obtain ⟨ts, h1, h⟩ := except_bind_ok.mp h
  rw [ht] at h
  obtain ⟨rows, h2, h⟩ := except_bind_ok.mp h
  injection h with h
  subst h
  have h1' : d.data.get? (py! "timestamp") = some ts := by
    unfold dictGet at h1
    cases hg : d.data.get? (py! "timestamp") with
    | none => rw [hg] at h1; cases h1
    | some t' => rw [hg] at h1; injection h1 with h1; rw [h1]
  have hlen : rows.length = ts.length := by rw [(mapM_inv h2).1, List.length_range]
  refine ⟨ts, rows, h1', rfl, rfl, hlen, fun i hi => ?_⟩
  have hr := mapM_get h2 i (by rw [List.length_range]; omega) hi
  rw [List.getElem_range] at hr
  obtain ⟨msg, h3, hr⟩ := except_bind_ok.mp hr
  obtain ⟨t, _, hr⟩ := except_bind_ok.mp hr
  obtain ⟨ns, _, hr⟩ := except_bind_ok.mp hr
  injection hr with hr
  rw [← hr]
  exact ⟨rfl, h3⟩

/-- a dataset with an array, a bool and two rows -/
def Sample.rosData : Dataset :=
  { multiId := 0
    msgId := 0
    name := py! "b"
    fields := [⟨py! "q[0]", .u8⟩, ⟨py! "q[1]", .u8⟩, ⟨py! "armed", .bool⟩, ⟨py! "timestamp", .u64⟩]
    tsIdx := 3
    data := [(py! "q[0]", [.int 1, .int 3]), (py! "q[1]", [.int 2, .int 4]), (py! "armed", [.int 1, .int 0]),
      (py! "timestamp", [.int 5, .int 7])] }

def Sample.rosType : RosType :=
  { types := [(py! "timestamp", py! "uint64"), (py! "q", py! "uint8[2]"), (py! "armed", py! "boolean"), (py! "z", py! "int8")]
    fresh := [(py! "timestamp", .plain (.num (.int 0))), (py! "q", .array [.num (.int 0), .num (.int 0)]),
      (py! "armed", .plain (.bool false)), (py! "z", .plain (.num (.int 0)))] }

def Sample.rosEnv : RosEnv :=
  { msgType := fun n => if n = py! "b" then some (py! "B") else none
    type := fun n => if n = py! "B" then some Sample.rosType else none }

example : Places Sample.rosData.fields
    [.elem (py! "q") 0, .elem (py! "q") 1, .attr (py! "armed"), .attr (py! "timestamp")] where
  columns := by decide
  plain := by
    intro p hp
    simp only [List.mem_cons, List.not_mem_nil, or_false] at hp
    rcases hp with rfl | rfl | rfl | rfl <;> exact ⟨by decide, by decide⟩
  nodup := by decide
  shape := by
    intro n k h h'
    simp only [List.mem_cons, List.not_mem_nil, or_false, reduceCtorEq, false_or, Place.attr.injEq,
      Place.elem.injEq] at h h'
    rcases h with rfl | rfl <;> rcases h' with h' | h' <;> exact absurd h'.1 (by decide)

example : (rosMessage Sample.rosType Sample.rosData 1).toOption = some
    [(py! "timestamp", .plain (.num (.int 7))), (py! "q", .array [.num (.int 3), .num (.int 4)]),
      (py! "armed", .plain (.bool false)), (py! "z", .plain (.num (.int 0)))] := by decide

example : ((exportBag Sample.rosEnv { dataList := [Sample.rosData, Sample.named (py! "b") 0 ] }).toOption).isNone := by
  decide

example : ((exportBag Sample.rosEnv { dataList := [Sample.rosData] }).toOption.map
    fun b => (b.topics, b.messages.map fun m => (m.1, m.2.2)))
      = some ([(py! "/px4/b", py! "px4_msgs/msg/B")], [(py! "/px4/b", 5000), (py! "/px4/b", 7000)]) := by decide

example : TimesOf Sample.rosData [5, 7] := ⟨by decide, by decide⟩

example : BaseName (py! "q[12]") (py! "q") := by
  have h : py! "q" = stripIndex (py! "q[12]") := by decide +kernel
  rw [h]
  exact stripIndex_base _

example : IndexedName (py! "q[12]\n") (py! "q\n") := by
  refine ⟨py! "q", py! "12", ['\n'], by decide, ?_, .inr rfl, by decide, by decide⟩
  intro c hc
  rw [← isDig_iff]
  revert c
  decide +kernel

end PyULog
