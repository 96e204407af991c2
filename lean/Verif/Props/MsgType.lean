import Verif.Model.MsgType
import Verif.Spec.MsgType
/-
C73: message types of ROS2 topics.
-/
namespace PyULog
open Spec

/-! ### patterns -/

theorem matchStar_iff (p : Char → Bool) (k : Str → Bool) (s : Str) :
    matchStar p k s = true ↔ ∃ w r, s = w ++ r ∧ (∀ c ∈ w, p c = true) ∧ k r = true := by
  induction s with
  | nil =>
    unfold matchStar
    constructor
    · intro h; exact ⟨[], [], rfl, by simp, h⟩
    · rintro ⟨w, r, h1, _, h3⟩
      obtain ⟨rfl, rfl⟩ := List.append_eq_nil_iff.mp h1.symm
      exact h3
  | cons c s ih =>
    unfold matchStar
    rw [Bool.or_eq_true, Bool.and_eq_true, ih]
    constructor
    · rintro (⟨h1, w, r, rfl, h3, h4⟩ | h)
      · exact ⟨c :: w, r, rfl, by simpa using ⟨h1, h3⟩, h4⟩
      · exact ⟨[], _, rfl, by simp, h⟩
    · rintro ⟨w, r, h1, h2, h3⟩
      cases w with
      | nil => rw [List.nil_append] at h1; subst h1; exact Or.inr h3
      | cons a w =>
        rw [List.cons_append] at h1
        obtain ⟨rfl, rfl⟩ := List.cons.inj h1
        exact Or.inl ⟨h2 _ (List.mem_cons_self ..), w, r, rfl, fun x hx => h2 x (List.mem_cons_of_mem _ hx), h3⟩

theorem matchStarLazy_eq (p : Char → Bool) (k : Str → Bool) (s : Str) : matchStarLazy p k s = matchStar p k s := by
  induction s with
  | nil => rfl
  | cons c s ih => unfold matchStarLazy matchStar; rw [ih, Bool.or_comm]

theorem m_rep (p : ReSet) (n : Nat) (l : Bool) (s : Str) (k : Str → Bool) :
    reMatch (.rep p n l) s k = true ↔
      ∃ w r, s = w ++ r ∧ n ≤ w.length ∧ (∀ c ∈ w, p.has c = true) ∧ k r = true := by
  unfold reMatch
  induction n generalizing s with
  | zero =>
    unfold matchRep
    rw [matchStarLazy_eq, ite_self, matchStar_iff]
    simp
  | succ n ih =>
    cases s with
    | nil =>
      unfold matchRep
      constructor
      · intro h; cases h
      · rintro ⟨w, r, h1, h2, _⟩
        obtain ⟨rfl, rfl⟩ := List.append_eq_nil_iff.mp h1.symm
        simp at h2
    | cons c s =>
      unfold matchRep
      rw [Bool.and_eq_true, ih]
      constructor
      · rintro ⟨h1, w, r, rfl, h2, h3, h4⟩
        exact ⟨c :: w, r, rfl, by simpa using h2, by simpa using ⟨h1, h3⟩, h4⟩
      · rintro ⟨w, r, h1, h2, h3, h4⟩
        cases w with
        | nil => simp at h2
        | cons a w =>
          rw [List.cons_append] at h1
          obtain ⟨rfl, rfl⟩ := List.cons.inj h1
          exact ⟨h3 _ (List.mem_cons_self ..), w, r, rfl, by simpa using h2,
            fun x hx => h3 x (List.mem_cons_of_mem _ hx), h4⟩

theorem m_empty (s : Str) (k : Str → Bool) : reMatch .empty s k = k s := by unfold reMatch; rfl
theorem m_seq (a b : Re) (s : Str) (k : Str → Bool) :
    reMatch (.seq a b) s k = reMatch a s fun r => reMatch b r k := by rw [reMatch]
theorem m_alt (a b : Re) (s : Str) (k : Str → Bool) :
    reMatch (.alt a b) s k = true ↔ reMatch a s k = true ∨ reMatch b s k = true := by
  rw [reMatch, Bool.or_eq_true]
theorem m_opt (a : Re) (s : Str) (k : Str → Bool) :
    reMatch (.opt a) s k = true ↔ reMatch a s k = true ∨ k s = true := by rw [reMatch, Bool.or_eq_true]
theorem m_stop (s : Str) (k : Str → Bool) :
    reMatch .stop s k = true ↔ (s = [] ∨ s = py! "\n") ∧ k s = true := by
  rw [reMatch, Bool.and_eq_true, Bool.or_eq_true, decide_eq_true_eq, decide_eq_true_eq]
theorem m_one (p : ReSet) (s : Str) (k : Str → Bool) :
    reMatch (.one p) s k = true ↔ ∃ c r, s = c :: r ∧ p.has c = true ∧ k r = true := by
  cases s with
  | nil => rw [reMatch]; constructor <;> simp
  | cons c s =>
    rw [reMatch, Bool.and_eq_true]
    constructor
    · rintro ⟨h1, h2⟩; exact ⟨c, s, rfl, h1, h2⟩
    · rintro ⟨c', r, h, h1, h2⟩
      obtain ⟨rfl, rfl⟩ := List.cons.inj h
      exact ⟨h1, h2⟩

/-- literal text before a pattern -/
def lits (t : Str) (r : Re) : Re := t.foldr (fun c r => .seq (.one (.char c)) r) r

theorem m_lits (t : Str) (q : Re) (s : Str) (k : Str → Bool) :
    reMatch (lits t q) s k = true ↔ ∃ r, s = t ++ r ∧ reMatch q r k = true := by
  induction t generalizing s with
  | nil => simp [lits]
  | cons c t ih =>
    show reMatch (.seq (.one (.char c)) (lits t q)) s k = true ↔ _
    rw [m_seq, m_one]
    constructor
    · rintro ⟨c', r, rfl, h1, h2⟩
      obtain ⟨r', rfl, h3⟩ := (ih r).mp h2
      have : c' = c := of_decide_eq_true h1
      subst this
      exact ⟨r', rfl, h3⟩
    · rintro ⟨r, rfl, h⟩
      exact ⟨c, t ++ r, rfl, decide_eq_true rfl, (ih _).mpr ⟨r, rfl, h⟩⟩

theorem digit_has (c : Char) : ReSet.has .digit c = true ↔ Digit c := by
  unfold ReSet.has isAsciiDig Digit
  rw [Bool.and_eq_true, decide_eq_true_eq, decide_eq_true_eq]
  omega

theorem letter_iff (c : Char) : isLetterC c = true ↔ Letter c := by
  unfold isLetterC isUpperC isLowerC Letter
  simp only [Bool.or_eq_true, Bool.and_eq_true, decide_eq_true_eq]
  omega

theorem word_has (c : Char) : ReSet.has .word c = true ↔ WordChar c := by
  unfold WordChar
  rw [← letter_iff, ← digit_has]
  unfold ReSet.has
  simp only [Bool.or_eq_true, decide_eq_true_eq, or_assoc]

theorem word_rep (w : Str) : (1 ≤ w.length ∧ ∀ c ∈ w, ReSet.has .word c = true) ↔ Word w := by
  unfold Word
  have : (1 ≤ w.length) ↔ w ≠ [] := by cases w <;> simp
  rw [this]
  simp only [word_has]

/-- `\w+` -/
theorem m_word (l : Bool) (q : Re) (s : Str) (k : Str → Bool) :
    reMatch (.seq (.rep .word 1 l) q) s k = true ↔ ∃ w, Word w ∧ ∃ r, s = w ++ r ∧ reMatch q r k = true := by
  rw [m_seq, m_rep]
  constructor
  · rintro ⟨w, r, h1, h2, h3, h4⟩
    exact ⟨w, (word_rep w).mp ⟨h2, h3⟩, r, h1, h4⟩
  · rintro ⟨w, h1, r, h2, h3⟩
    obtain ⟨h4, h5⟩ := (word_rep w).mpr h1
    exact ⟨w, r, h2, h4, h5, h3⟩

/-- `\w*` at the end -/
theorem m_any (l : Bool) (s : Str) :
    (reMatch (.seq (.rep .word 0 l) .empty) s fun _ => true) = true := by
  rw [m_seq, m_rep]
  exact ⟨[], s, rfl, Nat.zero_le _, by simp, by rw [m_empty]⟩

theorem m_end (s : Str) :
    (reMatch (.seq .stop .empty) s fun _ => true) = true ↔ s = [] ∨ s = py! "\n" := by
  rw [m_seq, m_stop, m_empty]
  simp

/-- optional `_groundtruth` -/
theorem m_truth (q : Re) (s : Str) (k : Str → Bool) :
    reMatch (.seq (.opt (lits (py! "_groundtruth") .empty)) q) s k = true ↔
      ∃ e, Truth e ∧ ∃ r, s = e ++ r ∧ reMatch q r k = true := by
  rw [m_seq, m_opt, m_lits]
  simp only [m_empty]
  unfold Truth
  constructor
  · rintro (⟨r, h1, h2⟩ | h)
    · exact ⟨_, Or.inl rfl, r, h1, h2⟩
    · exact ⟨[], Or.inr rfl, s, rfl, h⟩
  · rintro ⟨e, rfl | rfl, r, h1, h2⟩
    · exact Or.inl ⟨r, h1, h2⟩
    · exact Or.inr (by rw [h1]; exact h2)

/-- alternatives of literal texts -/
def litAlts : Str → List Str → Re
  | t, [] => .seq (lits t .empty) .empty
  | t, u :: us => .alt (.seq (lits t .empty) .empty) (litAlts u us)

theorem m_litAlts (t : Str) (us : List Str) (s : Str) (k : Str → Bool) :
    reMatch (litAlts t us) s k = true ↔ ∃ x ∈ t :: us, ∃ r, s = x ++ r ∧ k r = true := by
  induction us generalizing t with
  | nil =>
    unfold litAlts
    rw [m_seq, m_lits]
    simp only [m_empty, List.mem_singleton, exists_eq_left]
  | cons u us ih =>
    unfold litAlts
    rw [m_alt, ih, m_seq, m_lits]
    simp only [m_empty, List.mem_cons, exists_eq_or_imp]

/-- the pattern accepts the topics with `P` -/
def Means (pattern : Str) (P : Str → Prop) : Prop :=
  ∃ r, parseRe pattern = some r ∧ ∀ s, (reMatch r s fun _ => true) = true ↔ P s

theorem means_starts {pattern t : Str} {r : Re} (h : parseRe pattern = some (lits t r))
    (hr : ∀ s, (reMatch r s fun _ => true) = true) : Means pattern (Starts t) := by
  refine ⟨_, h, fun s => ?_⟩
  rw [m_lits]
  unfold Starts
  simp [hr]

theorem means_whole {pattern t : Str} (h : parseRe pattern = some (lits t (.seq .stop .empty))) :
    Means pattern (Whole t) := by
  refine ⟨_, h, fun s => ?_⟩
  rw [m_lits]
  unfold Whole
  simp only [m_end]

theorem means_01 : Means (py! "^actuator_controls_status_\\d$")
    (fun s => ∃ d, Digit d ∧ Whole (py! "actuator_controls_status_" ++ [d]) s) := by
  refine ⟨lits (py! "actuator_controls_status_") (.seq (.one .digit) (.seq .stop .empty)), by decide +kernel,
    fun s => ?_⟩
  rw [m_lits]
  simp only [m_seq .., m_one, digit_has, m_stop, m_empty, and_true]
  unfold Whole
  constructor
  · rintro ⟨r, rfl, d, r', rfl, h1, h2⟩
    exact ⟨d, h1, r', by simp, h2⟩
  · rintro ⟨d, h1, r, rfl, h2⟩
    exact ⟨d :: r, by simp, d, r, rfl, h1, h2⟩

theorem means_04 : Means (py! "^estimator_aid_src_((gnss_yaw)|(ev_yaw)|(fake_hgt)|(airspeed)|(sideslip)|(\\w+_hgt))$")
    (fun s => ∃ x, (x ∈ [py! "gnss_yaw", py! "ev_yaw", py! "fake_hgt", py! "airspeed", py! "sideslip"] ∨
      ∃ w, Word w ∧ x = w ++ py! "_hgt") ∧ Whole (py! "estimator_aid_src_" ++ x) s) := by
  refine ⟨lits (py! "estimator_aid_src_") (.seq
    (.alt (litAlts (py! "gnss_yaw") []) (.alt (litAlts (py! "ev_yaw") []) (.alt (litAlts (py! "fake_hgt") [])
      (.alt (litAlts (py! "airspeed") []) (.alt (litAlts (py! "sideslip") [])
        (.seq (.seq (.rep .word 1 false) (lits (py! "_hgt") .empty)) .empty))))))
    (.seq .stop .empty)), by decide +kernel, fun s => ?_⟩
  rw [m_lits]
  simp only [m_seq (.alt _ _), m_alt, m_litAlts, m_end, m_seq (.seq _ _), m_word, m_lits, m_empty,
    exists_eq_left, List.mem_cons, List.not_mem_nil, or_false]
  unfold Whole
  constructor
  · rintro ⟨r, rfl, ⟨e, rfl, h⟩ | ⟨e, rfl, h⟩ | ⟨e, rfl, h⟩ | ⟨e, rfl, h⟩ | ⟨e, rfl, h⟩ | ⟨w, hw, r, rfl, e, rfl, h⟩⟩
    · exact ⟨py! "gnss_yaw", by simp, e, by simp, h⟩
    · exact ⟨py! "ev_yaw", by simp, e, by simp, h⟩
    · exact ⟨py! "fake_hgt", by simp, e, by simp, h⟩
    · exact ⟨py! "airspeed", by simp, e, by simp, h⟩
    · exact ⟨py! "sideslip", by simp, e, by simp, h⟩
    · exact ⟨w ++ py! "_hgt", Or.inr ⟨w, hw, rfl⟩, e, by simp, h⟩
  · rintro ⟨x, (rfl | rfl | rfl | rfl | rfl) | ⟨w, hw, rfl⟩, e, rfl, h⟩
    · exact ⟨_, List.append_assoc .., Or.inl ⟨e, rfl, h⟩⟩
    · exact ⟨_, List.append_assoc .., Or.inr (Or.inl ⟨e, rfl, h⟩)⟩
    · exact ⟨_, List.append_assoc .., Or.inr (Or.inr (Or.inl ⟨e, rfl, h⟩))⟩
    · exact ⟨_, List.append_assoc .., Or.inr (Or.inr (Or.inr (Or.inl ⟨e, rfl, h⟩)))⟩
    · exact ⟨_, List.append_assoc .., Or.inr (Or.inr (Or.inr (Or.inr (Or.inl ⟨e, rfl, h⟩))))⟩
    · exact ⟨_, List.append_assoc .., Or.inr (Or.inr (Or.inr (Or.inr (Or.inr
        ⟨w, hw, _, List.append_assoc .., e, rfl, h⟩))))⟩

theorem means_05 : Means (py! "^estimator_aid_src_((drag)|(aux_vel)|(optical_flow)|(\\w+_pos)|(aux_global_position))$")
    (fun s => ∃ x, (x ∈ [py! "drag", py! "aux_vel", py! "optical_flow", py! "aux_global_position"] ∨
      ∃ w, Word w ∧ x = w ++ py! "_pos") ∧ Whole (py! "estimator_aid_src_" ++ x) s) := by
  refine ⟨lits (py! "estimator_aid_src_") (.seq
    (.alt (litAlts (py! "drag") []) (.alt (litAlts (py! "aux_vel") []) (.alt (litAlts (py! "optical_flow") [])
      (.alt (.seq (.seq (.rep .word 1 false) (lits (py! "_pos") .empty)) .empty)
        (litAlts (py! "aux_global_position") [])))))
    (.seq .stop .empty)), by decide +kernel, fun s => ?_⟩
  rw [m_lits]
  simp only [m_seq (.alt _ _), m_alt, m_litAlts, m_end, m_seq (.seq _ _), m_word, m_lits, m_empty,
    exists_eq_left, List.mem_cons, List.not_mem_nil, or_false]
  unfold Whole
  constructor
  · rintro ⟨r, rfl, ⟨e, rfl, h⟩ | ⟨e, rfl, h⟩ | ⟨e, rfl, h⟩ | ⟨w, hw, r, rfl, e, rfl, h⟩ | ⟨e, rfl, h⟩⟩
    · exact ⟨py! "drag", by simp, e, by simp, h⟩
    · exact ⟨py! "aux_vel", by simp, e, by simp, h⟩
    · exact ⟨py! "optical_flow", by simp, e, by simp, h⟩
    · exact ⟨w ++ py! "_pos", Or.inr ⟨w, hw, rfl⟩, e, by simp, h⟩
    · exact ⟨py! "aux_global_position", by simp, e, by simp, h⟩
  · rintro ⟨x, (rfl | rfl | rfl | rfl) | ⟨w, hw, rfl⟩, e, rfl, h⟩
    · exact ⟨_, List.append_assoc .., Or.inl ⟨e, rfl, h⟩⟩
    · exact ⟨_, List.append_assoc .., Or.inr (Or.inl ⟨e, rfl, h⟩)⟩
    · exact ⟨_, List.append_assoc .., Or.inr (Or.inr (Or.inl ⟨e, rfl, h⟩))⟩
    · exact ⟨_, List.append_assoc .., Or.inr (Or.inr (Or.inr (Or.inr ⟨e, rfl, h⟩)))⟩
    · exact ⟨_, List.append_assoc .., Or.inr (Or.inr (Or.inr (Or.inl
        ⟨w, hw, _, List.append_assoc .., e, rfl, h⟩)))⟩

/-- text, alternatives of texts, then a pattern -/
theorem means_alts {pattern t u : Str} {us : List Str} {q : Re} (Q : Str → Prop)
    (h : parseRe pattern = some (lits t (.seq (litAlts u us) q)))
    (hq : ∀ s, (reMatch q s fun _ => true) = true ↔ Q s) :
    Means pattern (fun s => ∃ x ∈ u :: us, ∃ r, s = t ++ x ++ r ∧ Q r) := by
  refine ⟨_, h, fun s => ?_⟩
  rw [m_lits]
  simp only [m_seq, m_litAlts, hq]
  constructor
  · rintro ⟨r, rfl, x, hx, r', rfl, h⟩
    exact ⟨x, hx, r', by simp, h⟩
  · rintro ⟨x, hx, r', rfl, h⟩
    exact ⟨_, List.append_assoc .., x, hx, r', rfl, h⟩

theorem Means.congr {pattern : Str} {P Q : Str → Prop} (h : Means pattern P) (e : ∀ s, P s ↔ Q s) : Means pattern Q := by
  obtain ⟨r, h1, h2⟩ := h
  exact ⟨r, h1, fun s => (h2 s).trans (e s)⟩

theorem means_06 : Means (py! "^estimator_aid_src_((ev_vel)|(gnss_vel)|(gravity)|(mag))$")
    (fun s => ∃ x ∈ [py! "ev_vel", py! "gnss_vel", py! "gravity", py! "mag"],
      Whole (py! "estimator_aid_src_" ++ x) s) :=
  means_alts (us := [_, _, _]) _ (by decide +kernel) m_end

theorem means_08 : Means (py! "^estimator_((baro)|(gnss_hgt))_bias")
    (fun s => ∃ x ∈ [py! "baro", py! "gnss_hgt"], Starts (py! "estimator_" ++ x ++ py! "_bias") s) := by
  refine (means_alts (t := py! "estimator_") (u := py! "baro") (us := [py! "gnss_hgt"]) (q := lits (py! "_bias") .empty)
    (fun s => ∃ r, s = py! "_bias" ++ r) (by decide +kernel) ?_).congr ?_
  · intro s; rw [m_lits]; simp [m_empty]
  · intro s
    unfold Starts
    constructor
    · rintro ⟨x, hx, r, rfl, r', rfl⟩
      exact ⟨x, hx, r', by simp⟩
    · rintro ⟨x, hx, r', rfl⟩
      exact ⟨x, hx, _, List.append_assoc .., r', rfl⟩

theorem means_12 : Means (py! "^sensors_status_\\w+") (fun s => ∃ w r, Word w ∧ s = py! "sensors_status_" ++ w ++ r) := by
  refine ⟨lits (py! "sensors_status_") (.seq (.rep .word 1 false) .empty), by decide +kernel, fun s => ?_⟩
  rw [m_lits]
  simp only [m_word, m_empty, and_true]
  constructor
  · rintro ⟨r, rfl, w, hw, r', rfl⟩
    exact ⟨w, r', hw, by simp⟩
  · rintro ⟨w, r', hw, rfl⟩
    exact ⟨_, List.append_assoc .., w, hw, r', rfl⟩

theorem means_truth {pattern t : Str} (h : parseRe pattern = some (.seq (.rep .word 1 true)
      (lits t (.seq (.opt (lits (py! "_groundtruth") .empty)) (.seq .stop .empty))))) :
    Means pattern (fun s => ∃ w e, Word w ∧ Truth e ∧ Whole (w ++ t ++ e) s) := by
  refine ⟨_, h, fun s => ?_⟩
  rw [m_word]
  simp only [m_lits, m_truth, m_end]
  unfold Whole
  constructor
  · rintro ⟨w, hw, _, rfl, _, rfl, e, he, z, rfl, hz⟩
    exact ⟨w, e, hw, he, z, by simp, hz⟩
  · rintro ⟨w, e, hw, he, z, rfl, hz⟩
    exact ⟨w, hw, _, by rw [List.append_assoc, List.append_assoc], _, rfl, e, he, z, rfl, hz⟩

theorem means_word {pattern t : Str} (h : parseRe pattern = some (.seq (.rep .word 1 true)
      (lits t (.seq .stop .empty)))) : Means pattern (fun s => ∃ w, Word w ∧ Whole (w ++ t) s) := by
  refine ⟨_, h, fun s => ?_⟩
  rw [m_word]
  simp only [m_lits, m_end]
  unfold Whole
  constructor
  · rintro ⟨w, hw, _, rfl, z, rfl, hz⟩
    exact ⟨w, hw, z, by simp, hz⟩
  · rintro ⟨w, hw, z, rfl, hz⟩
    exact ⟨w, hw, _, List.append_assoc .., z, rfl, hz⟩

theorem means_16 : Means (py! "^\\w+?_command\\w*") (fun s => ∃ w r, Word w ∧ s = w ++ py! "_command" ++ r) := by
  refine ⟨.seq (.rep .word 1 true) (lits (py! "_command") (.seq (.rep .word 0 false) .empty)), by decide +kernel,
    fun s => ?_⟩
  rw [m_word]
  simp only [m_lits, m_any, and_true]
  constructor
  · rintro ⟨w, hw, _, rfl, r, rfl⟩
    exact ⟨w, r, hw, by simp⟩
  · rintro ⟨w, r, hw, rfl⟩
    exact ⟨w, hw, _, List.append_assoc .., r, rfl⟩

theorem means_17 : Means (py! "^\\w+?_control_\\w+")
    (fun s => ∃ w x r, Word w ∧ Word x ∧ s = w ++ py! "_control_" ++ x ++ r) := by
  refine ⟨.seq (.rep .word 1 true) (lits (py! "_control_") (.seq (.rep .word 1 false) .empty)), by decide +kernel,
    fun s => ?_⟩
  rw [m_word]
  simp only [m_lits, m_word, m_empty, and_true]
  constructor
  · rintro ⟨w, hw, _, rfl, _, rfl, x, hx, r, rfl⟩
    exact ⟨w, x, r, hw, hx, by simp⟩
  · rintro ⟨w, x, r, hw, hx, rfl⟩
    exact ⟨w, hw, _, by rw [List.append_assoc, List.append_assoc], _, rfl, x, hx, r, rfl⟩

theorem means_18 : Means (py! "^((aux_)|(estimator_)|(vehicle_)|(external_ins_))global_position(_groundtruth)?$")
    (fun s => ∃ x ∈ [py! "aux_", py! "estimator_", py! "vehicle_", py! "external_ins_"], ∃ e, Truth e ∧
      Whole (x ++ py! "global_position" ++ e) s) := by
  refine (means_alts (t := []) (u := py! "aux_") (us := [py! "estimator_", py! "vehicle_", py! "external_ins_"])
    (q := lits (py! "global_position") (.seq (.opt (lits (py! "_groundtruth") .empty)) (.seq .stop .empty)))
    (fun s => ∃ r, s = py! "global_position" ++ r ∧ ∃ e, Truth e ∧ ∃ z, r = e ++ z ∧ (z = [] ∨ z = py! "\n"))
    (by decide +kernel) ?_).congr ?_
  · intro s; rw [m_lits]; simp only [m_truth, m_end]
  · intro s
    unfold Whole
    constructor
    · rintro ⟨x, hx, _, rfl, _, rfl, e, he, z, rfl, hz⟩
      exact ⟨x, hx, e, he, z, by simp, hz⟩
    · rintro ⟨x, hx, e, he, z, rfl, hz⟩
      exact ⟨x, hx, _, by rw [List.nil_append, List.append_assoc, List.append_assoc], _, rfl, e, he, z, rfl, hz⟩

theorem means_21 : Means (py! "^((estimator)|(vehicle))_optical_flow_vel$")
    (fun s => ∃ x ∈ [py! "estimator", py! "vehicle"], Whole (x ++ py! "_optical_flow_vel") s) := by
  refine (means_alts (t := []) (u := py! "estimator") (us := [py! "vehicle"])
    (q := lits (py! "_optical_flow_vel") (.seq .stop .empty)) (Whole (py! "_optical_flow_vel"))
    (by decide +kernel) ?_).congr ?_
  · intro s; rw [m_lits]; simp only [m_end]; rfl
  · intro s
    unfold Whole
    constructor
    · rintro ⟨x, hx, _, rfl, z, rfl, hz⟩
      exact ⟨x, hx, z, by simp, hz⟩
    · rintro ⟨x, hx, z, rfl, hz⟩
      exact ⟨x, hx, _, by rw [List.nil_append, List.append_assoc], z, rfl, hz⟩

theorem means_24 : Means (py! "^(estimator_)?wind$") (fun s => ∃ x ∈ [py! "estimator_", []], Whole (x ++ py! "wind") s) := by
  refine ⟨.seq (.opt (lits (py! "estimator_") .empty)) (lits (py! "wind") (.seq .stop .empty)), by decide +kernel,
    fun s => ?_⟩
  rw [m_seq, m_opt, m_lits]
  simp only [m_empty, m_lits, m_end]
  unfold Whole
  constructor
  · rintro (⟨_, rfl, z, rfl, hz⟩ | ⟨z, rfl, hz⟩)
    · exact ⟨py! "estimator_", by simp, z, by simp, hz⟩
    · exact ⟨[], by simp, z, by simp, hz⟩
  · rintro ⟨x, hx, z, rfl, hz⟩
    rcases List.mem_cons.mp hx with rfl | hx
    · exact Or.inl ⟨_, List.append_assoc .., z, rfl, hz⟩
    · rw [List.mem_singleton.mp hx]
      exact Or.inr ⟨z, rfl, hz⟩

/-- the two tables agree entry by entry -/
def AllMean : List (Str × Str) → List ((Str → Prop) × Str) → Prop
  | [], [] => True
  | a :: as, b :: bs => Means a.1 b.1 ∧ a.2 = b.2 ∧ AllMean as bs
  | _, _ => False

theorem table_means : AllMean regexExceptions msgTypeTable :=
  ⟨means_01, rfl,
   means_starts (r := .seq (.rep .word 0 false) .empty) (by decide +kernel) (m_any _), rfl,
   means_starts (r := .seq (.rep .word 0 false) .empty) (by decide +kernel) (m_any _), rfl,
   means_04, rfl, means_05, rfl, means_06, rfl,
   means_starts (r := .empty) (by decide +kernel) (fun s => by rw [m_empty]), rfl,
   means_08, rfl,
   means_starts (r := .seq (.rep .word 0 false) .empty) (by decide +kernel) (m_any _), rfl,
   means_whole (by decide +kernel), rfl,
   means_whole (by decide +kernel), rfl,
   means_12, rfl,
   means_starts (r := .seq (.rep .word 0 false) .empty) (by decide +kernel) (m_any _), rfl,
   means_truth (by decide +kernel), rfl,
   means_word (by decide +kernel), rfl,
   means_16, rfl, means_17, rfl, means_18, rfl,
   means_truth (by decide +kernel), rfl,
   means_word (by decide +kernel), rfl,
   means_21, rfl,
   means_starts (r := .seq (.rep .word 0 false) .empty) (by decide +kernel) (m_any _), rfl,
   means_starts (r := .seq (.rep .word 0 false) .empty) (by decide +kernel) (m_any _), rfl,
   means_24, rfl, trivial⟩

theorem pyReMatch_of_means {pattern : Str} {P : Str → Prop} (h : Means pattern P) (s : Str) :
    (P s ∧ pyReMatch pattern s = some true) ∨ (¬ P s ∧ pyReMatch pattern s = some false) := by
  obtain ⟨r, h1, h2⟩ := h
  unfold pyReMatch
  rw [h1]
  show (P s ∧ some (reMatch r s fun _ => true) = some true) ∨ (¬ P s ∧ some (reMatch r s fun _ => true) = some false)
  rw [← h2 s]
  cases reMatch r s fun _ => true
  · exact Or.inr ⟨by simp, rfl⟩
  · exact Or.inl ⟨rfl, rfl⟩

theorem firstType_spec (name : Str) : ∀ {l : List (Str × Str)} {t : List ((Str → Prop) × Str)}, AllMean l t →
    ∃ r, firstType name l = .ok r ∧
      (match r with
       | some ty => ∃ i, ∃ h : i < t.length, t[i].1 name ∧ t[i].2 = ty ∧
           ∀ j, ∀ hj : j < i, ¬ (t[j]'(by omega)).1 name
       | none => ∀ e ∈ t, ¬ e.1 name)
  | [], [], _ => ⟨none, rfl, by simp⟩
  | [], _ :: _, h => h.elim
  | _ :: _, [], h => h.elim
  | (p, ty) :: l, (P, ty') :: t, ⟨h1, h2, h3⟩ => by
    unfold firstType
    dsimp only at h1 h2
    rcases pyReMatch_of_means h1 name with ⟨hP, e⟩ | ⟨hP, e⟩
    · rw [e]
      exact ⟨some ty, rfl, 0, by simp, hP, h2.symm, fun j hj => by omega⟩
    · rw [e]
      obtain ⟨r, hr, hs⟩ := firstType_spec name h3
      refine ⟨r, hr, ?_⟩
      cases r with
      | none =>
        intro e he
        rcases List.mem_cons.mp he with rfl | he
        · exact hP
        · exact hs e he
      | some x =>
        obtain ⟨i, hi, g1, g2, g3⟩ := hs
        refine ⟨i + 1, by simpa using hi, g1, g2, ?_⟩
        intro j hj
        cases j with
        | zero => exact hP
        | succ j => exact g3 j (by omega)

/-! ### camel case -/

theorem titleUpper_eq (c : Char) : titleUpper c = upper c := by
  unfold titleUpper upper isLowerC
  have : (decide (97 ≤ c.toNat) && decide (c.toNat < 123)) = true ↔ 97 ≤ c.toNat ∧ c.toNat ≤ 122 := by
    rw [Bool.and_eq_true, decide_eq_true_eq, decide_eq_true_eq]; omega
  simp only [this]

theorem titleLower_eq (c : Char) : titleLower c = lower c := by
  unfold titleLower lower isUpperC
  have : (decide (65 ≤ c.toNat) && decide (c.toNat < 91)) = true ↔ 65 ≤ c.toNat ∧ c.toNat ≤ 90 := by
    rw [Bool.and_eq_true, decide_eq_true_eq, decide_eq_true_eq]; omega
  simp only [this]

theorem letter_any (c : Char) : isLetterC c = (some c).any fun b => decide (Letter b) := by
  show _ = decide (Letter c)
  rcases h : isLetterC c with _ | _
  · symm; rw [decide_eq_false_iff_not, ← letter_iff, h]; simp
  · symm; rw [decide_eq_true_iff, ← letter_iff, h]

/-- title of the components, with the state of the first -/
theorem camel_split (s : Str) : ∀ before : Option Char,
    (match pySplit '_' s with
     | h :: t => titleFrom (before.any fun b => decide (Letter b)) h ++ (t.map pyTitle).flatten
     | [] => []) = camel before s := by
  induction s with
  | nil => intro b; rfl
  | cons c s ih =>
    intro before
    unfold pySplit camel
    by_cases hc : c = '_'
    · rw [if_pos hc, if_pos hc]
      subst hc
      have := ih (some '_')
      revert this
      cases pySplit '_' s with
      | nil => intro h; simpa [titleFrom] using h
      | cons h t =>
        intro e
        rw [← e]
        rfl
    · rw [if_neg hc, if_neg hc]
      have := ih (some c)
      revert this
      have hne : pySplit '_' s ≠ [] := by
        cases s with
        | nil => simp [pySplit]
        | cons x xs =>
          unfold pySplit
          split
          · simp
          · split <;> simp
      cases hs : pySplit '_' s with
      | nil => exact absurd hs hne
      | cons h t =>
        intro e
        dsimp only at e ⊢
        rw [← e, ← letter_any, ← titleLower_eq, ← titleUpper_eq]
        rfl

/-- **C73**, camel case: underscores are removed; a letter that directly follows a letter is lower case,
every other letter upper case. -/
theorem C73_camel (s : Str) : toCamelCase s = camel none s := by
  rw [← camel_split]
  unfold toCamelCase
  cases pySplit '_' s with
  | nil => rfl
  | cons h t => rfl

/-- **C73**: a topic whose camel-case name is a message type gets this type. -/
theorem C73_direct {has : Str → Bool} {name : Str} (hn : ∀ c ∈ name, c.toNat < 128)
    (h : has (camel none name) = true) : calcMsgtype has name = .ok (some (camel none name)) := by
  unfold calcMsgtype
  have : (name.any fun c => decide (128 ≤ c.toNat)) = false := by
    rw [List.any_eq_false]
    intro c hc
    have := hn c hc
    rw [decide_eq_true_iff]; omega
  rw [this, C73_camel, h]
  rfl

/-- **C73**: any other topic gets the type of the first entry of the table of exceptions that holds for
it, and none if no entry holds. -/
theorem C73_exceptions {has : Str → Bool} {name : Str} (hn : ∀ c ∈ name, c.toNat < 128)
    (h : has (camel none name) = false) : ∃ t, calcMsgtype has name = .ok t ∧ FirstType name t := by
  unfold calcMsgtype
  have : (name.any fun c => decide (128 ≤ c.toNat)) = false := by
    rw [List.any_eq_false]
    intro c hc
    have := hn c hc
    rw [decide_eq_true_iff]; omega
  rw [this, C73_camel, h]
  obtain ⟨r, h1, h2⟩ := firstType_spec name table_means
  exact ⟨r, h1, by cases r <;> exact h2⟩

theorem firstType_unique {name : Str} {a b : Option Str} (ha : FirstType name a) (hb : FirstType name b) : a = b := by
  cases a with
  | none =>
    cases b with
    | none => rfl
    | some b =>
      obtain ⟨i, hi, h1, _⟩ := hb
      exact absurd h1 (ha _ (List.getElem_mem hi))
  | some a =>
    obtain ⟨i, hi, h1, h2, h3⟩ := ha
    cases b with
    | none => exact absurd h1 (hb _ (List.getElem_mem hi))
    | some b =>
      obtain ⟨j, hj, g1, g2, g3⟩ := hb
      rcases Nat.lt_trichotomy i j with hij | rfl | hij
      · exact absurd h1 (g3 i hij)
      · rw [← h2, ← g2]
      · exact absurd g1 (h3 j hij)

/-- **C73**, export: a dataset is written with a type of the package, under the camel-case name of the
topic when the package has it, and otherwise under the name from the table of exceptions. -/
theorem C73_export {type : Str → Option RosType} {d : Dataset} (hn : ∀ c ∈ d.name, c.toNat < 128)
    {name : Str} {ty : RosType} (h : exportType (px4Env type) d = some (name, ty)) :
    type name = some ty ∧
      if (type (camel none d.name)).isSome then name = camel none d.name else FirstType d.name (some name) := by
  unfold exportType at h
  split at h
  · cases h
  · rename_i n hm
    have hm : ((calcMsgtype (fun n => (type n).isSome) d.name).toOption).join = some n := hm
    split at h
    · cases h
    · rename_i t ht
      have ht : type n = some t := ht
      split at h
      · cases h
      · split at h
        · cases h
          refine ⟨ht, ?_⟩
          split
          · rename_i hs
            rw [C73_direct hn hs] at hm
            exact (Option.some.inj hm).symm
          · rename_i hs
            obtain ⟨r, h1, h2⟩ := C73_exceptions (has := fun n => (type n).isSome) hn (by simpa using hs)
            rw [h1] at hm
            have : r = some name := hm
            rwa [← this]
        · cases h

/-- lower-case letters, then digits -/
def Spec.LowerWord (w : Str) : Prop := ∃ a b, w = a ++ b ∧ a ≠ [] ∧ (∀ c ∈ a, 97 ≤ c.toNat ∧ c.toNat ≤ 122) ∧ ∀ c ∈ b, Digit c

/-- first letter in upper case -/
def Spec.capital : Str → Str
  | [] => []
  | c :: cs => upper c :: cs

theorem camel_digits : ∀ (b r : Str) (before : Option Char), (∀ c ∈ b, Digit c) → b ≠ [] →
    camel before (b ++ '_' :: r) = b ++ camel (some '_') r ∧ camel before b = b
  | [], _, _, _, h => absurd rfl h
  | c :: b, r, before, hb, _ => by
    have hc := hb c (List.mem_cons_self ..)
    unfold Digit at hc
    have hu : c ≠ '_' := by rintro rfl; revert hc; decide
    have h1 : lower c = c := by unfold lower; rw [if_neg (by omega)]
    have h2 : upper c = c := by unfold upper; rw [if_neg (by omega)]
    have key : ∀ t, camel before (c :: t) = c :: camel (some c) t := by
      intro t; rw [camel, if_neg hu, h1, h2, ite_self]
    rw [List.cons_append, key, key]
    cases b with
    | nil =>
      refine ⟨?_, rfl⟩
      rw [List.nil_append, camel, if_pos rfl]
      rfl
    | cons x b =>
      obtain ⟨g1, g2⟩ := camel_digits (x :: b) r (some c) (fun y hy => hb y (List.mem_cons_of_mem _ hy)) (by simp)
      rw [g1, g2]
      exact ⟨rfl, rfl⟩

theorem camel_lower : ∀ (a t : Str) (p : Char), Letter p → (∀ c ∈ a, 97 ≤ c.toNat ∧ c.toNat ≤ 122) →
    ∃ q, Letter q ∧ camel (some p) (a ++ t) = a ++ camel (some q) t
  | [], t, p, hp, _ => ⟨p, hp, rfl⟩
  | c :: a, t, p, hp, ha => by
    have hc := ha c (List.mem_cons_self ..)
    have hu : c ≠ '_' := by rintro rfl; revert hc; decide
    obtain ⟨q, h1, h2⟩ := camel_lower a t c (Or.inr hc) fun y hy => ha y (List.mem_cons_of_mem _ hy)
    refine ⟨q, h1, ?_⟩
    have hl : lower c = c := by unfold lower; rw [if_neg (by omega)]
    rw [List.cons_append, camel, if_neg hu, h2]
    have : ((some p).any fun b => decide (Letter b)) = true := decide_eq_true hp
    rw [if_pos this, hl]
    rfl

theorem camel_plain {w : Str} (h : LowerWord w) (before : Option Char) (hb : ∀ b ∈ before, ¬ Letter b) (r : Str) :
    camel before (w ++ '_' :: r) = capital w ++ camel (some '_') r ∧ camel before w = capital w := by
  obtain ⟨a, b, rfl, ha, hl, hd⟩ := h
  cases a with
  | nil => exact absurd rfl ha
  | cons c a =>
    have hc := hl c (List.mem_cons_self ..)
    have hu : c ≠ '_' := by rintro rfl; revert hc; decide
    have hbf : before.any (fun b => decide (Letter b)) = false := by
      cases before with
      | none => rfl
      | some b => exact decide_eq_false (hb b rfl)
    have key : ∀ t, camel before (c :: (a ++ t)) = upper c :: camel (some c) (a ++ t) := by
      intro t
      rw [camel, if_neg hu, hbf]
      rfl
    rw [List.cons_append, List.cons_append, List.append_assoc, key]
    have k2 := key b
    rw [k2]
    obtain ⟨q, h1, h2⟩ := camel_lower a (b ++ '_' :: r) c (Or.inr hc) fun y hy => hl y (List.mem_cons_of_mem _ hy)
    obtain ⟨q', h1', h2'⟩ := camel_lower a b c (Or.inr hc) fun y hy => hl y (List.mem_cons_of_mem _ hy)
    rw [h2, h2']
    unfold capital
    cases b with
    | nil =>
      refine ⟨?_, by simp [camel]⟩
      rw [List.nil_append, List.append_nil, camel, if_pos rfl]
      rfl
    | cons x b =>
      obtain ⟨g1, _⟩ := camel_digits (x :: b) r (some q) hd (by simp)
      obtain ⟨_, g2⟩ := camel_digits (x :: b) r (some q') hd (by simp)
      rw [g1, g2]
      exact ⟨by simp, rfl⟩

/-- **C73**, names: a topic made of words of lower-case letters, each possibly followed by digits, has the
words with capital first letters as its camel-case name. -/
theorem C73_words_partial : ∀ (ws : List Str), (∀ w ∈ ws, LowerWord w) →
    toCamelCase (List.intercalate (py! "_") ws) = (ws.map capital).flatten := by
  have key : ∀ (ws : List Str) (before : Option Char), (∀ w ∈ ws, LowerWord w) → (∀ b ∈ before, ¬ Letter b) →
      camel before (List.intercalate (py! "_") ws) = (ws.map capital).flatten := by
    intro ws
    induction ws with
    | nil => intro b _ _; rfl
    | cons w ws ih =>
      intro before hw hb
      cases ws with
      | nil =>
        have : List.intercalate (py! "_") [w] = w := by simp [List.intercalate]
        rw [this, (camel_plain (hw w (List.mem_cons_self ..)) before hb []).2]
        simp
      | cons v vs =>
        have : List.intercalate (py! "_") (w :: v :: vs) = w ++ '_' :: List.intercalate (py! "_") (v :: vs) := by
          simp [List.intercalate, List.intersperse]
        rw [this, (camel_plain (hw w (List.mem_cons_self ..)) before hb _).1,
          ih (some '_') (fun x hx => hw x (List.mem_cons_of_mem _ hx)) (by
            intro b hb; cases hb; decide)]
        rfl
  intro ws hw
  rw [C73_camel]
  exact key ws none hw (by simp)

/-- the failing part of **C73**: letters after a digit are capitalised too, so a topic like `px5io_status`
does not find the type `Px5ioStatus`; `px4io_status` is only found because it is in the table -/
theorem C73_digit_letter :
    (calcMsgtype (fun n => decide (n = py! "Px5ioStatus")) (py! "px5io_status")).toOption = some none ∧
    (calcMsgtype (fun n => decide (n = py! "Px4ioStatus")) (py! "px4io_status")).toOption
      = some (some (py! "Px4ioStatus")) := by decide +kernel

/-- non-vacuity -/
example : (calcMsgtype (fun n => decide (n = py! "VehicleStatus")) (py! "vehicle_status")).toOption
      = some (some (py! "VehicleStatus")) ∧
    (calcMsgtype (fun _ => false) (py! "estimator_aid_src_baro_hgt")).toOption
      = some (some (py! "EstimatorAidSource1d")) ∧
    (calcMsgtype (fun _ => false) (py! "estimator_aid_src_gnss_pos")).toOption
      = some (some (py! "EstimatorAidSource2d")) ∧
    (calcMsgtype (fun _ => false) (py! "mc_virtual_attitude_setpoint")).toOption
      = some (some (py! "VehicleAttitudeSetpoint")) ∧
    (calcMsgtype (fun _ => false) (py! "x_command_control_y")).toOption = some (some (py! "VehicleCommand")) ∧
    (calcMsgtype (fun _ => false) (py! "attitude")).toOption = some none := by decide +kernel

example : LowerWord (py! "ekf2") := ⟨py! "ekf", py! "2", rfl, by simp, by decide, by unfold Digit; decide⟩

end PyULog
