import Verif.Model.Kml
import Verif.Lemmas.Basic
import Verif.Lemmas.Decode
import Verif.Lemmas.Datasets
/-
Position tracks: C36 and C57.
-/
namespace PyULog
open Spec

/-! ### C36 -/

/-- `kept` are the positions that are left by the thinning: a position is kept iff the time since the
position that was kept last (0 at the start) is far enough. The time is a difference of unsigned 64-bit
numbers. -/
inductive Spec.Thinned (far : Nat → Bool) : Nat → List (Nat × P) → List (Nat × P) → Prop
  | nil (last) : Thinned far last [] []
  | keep {last t p rows kept} : far ((t + 2 ^ 64 - last) % 2 ^ 64) = true → Thinned far t rows kept →
      Thinned far last ((t, p) :: rows) ((t, p) :: kept)
  | drop {last t p rows kept} : far ((t + 2 ^ 64 - last) % 2 ^ 64) = false → Thinned far last rows kept →
      Thinned far last ((t, p) :: rows) kept

/-- number of changes after the first that are reached by the positions `pre`: the changes count up to the
first that is later than all of them -/
def Spec.reachedBy (changes : List (Int × Int)) (pre : List (Nat × P)) : Nat :=
  (changes.tail.takeWhile fun c => pre.any fun r => decide (c.1 ≤ (r.1 : Int))).length

/-- the points of segment `j`: position `i` belongs to the segments from the one that was current before
it to the one that is current after it -/
def Spec.segment (changes : List (Int × Int)) (kept : List (Nat × P)) (j : Nat) : List P :=
  (kept.zipIdx.filter fun r => decide (reachedBy changes (kept.take r.2) ≤ j) &&
    decide (j ≤ reachedBy changes (kept.take (r.2 + 1)))).map fun r => r.1.2

/-- the mode of segment `j`: that of change `j`; 0 if there are no changes -/
def Spec.modeOf (changes : List (Int × Int)) (j : Nat) : Int :=
  match changes[j]? with
  | some c => c.2
  | none => 0

/-- the segments of a track -/
def Spec.track (color : Int → C) (changes : List (Int × Int)) (kept : List (Nat × P)) : List (KmlLine C P) :=
  (List.range (reachedBy changes kept + 1)).map fun j =>
    ⟨modeOf changes j, color (modeOf changes j), segment changes kept j⟩

theorem takeWhile_length_mono {α : Type} {p q : α → Bool} (h : ∀ a, p a = true → q a = true) (l : List α) :
    (l.takeWhile p).length ≤ (l.takeWhile q).length := by
  induction l with
  | nil => exact Nat.le_refl _
  | cons x xs ih =>
    rw [List.takeWhile_cons, List.takeWhile_cons]
    by_cases hp : p x = true
    · rw [if_pos hp, if_pos (h x hp)]
      simpa using ih
    · rw [if_neg hp]
      exact Nat.zero_le _

theorem reachedBy_mono (changes : List (Int × Int)) (a b : List (Nat × P)) :
    reachedBy changes a ≤ reachedBy changes (a ++ b) := by
  apply takeWhile_length_mono
  intro c h
  rw [List.any_append, h]
  rfl

theorem reachedBy_nil (changes : List (Int × Int)) : reachedBy changes ([] : List (Nat × P)) = 0 := by
  unfold reachedBy
  cases changes.tail with
  | nil => rfl
  | cons x xs => rfl

theorem take_mono (changes : List (Int × Int)) (kept : List (Nat × P)) {i j : Nat} (h : i ≤ j) :
    reachedBy changes (kept.take i) ≤ reachedBy changes (kept.take j) := by
  have : kept.take j = kept.take i ++ (kept.drop i).take (j - i) := by
    conv => lhs; rw [show j = i + (j - i) by omega]
    exact List.take_add
  rw [this]
  exact reachedBy_mono _ _ _

theorem segment_snoc (changes : List (Int × Int)) (kept : List (Nat × P)) (r : Nat × P) (j : Nat) :
    segment changes (kept ++ [r]) j = segment changes kept j ++
      (if reachedBy changes kept ≤ j ∧ j ≤ reachedBy changes (kept ++ [r]) then [r.2] else []) := by
  unfold segment
  rw [List.zipIdx_append, List.filter_append, List.map_append]
  congr 1
  · congr 1
    apply List.filter_congr
    rintro ⟨x, i⟩ hx
    have hi := (List.mem_zipIdx hx).2.1
    dsimp only
    rw [List.take_append_of_le_length (by omega), List.take_append_of_le_length (by omega)]
  · rw [Nat.zero_add]
    show (List.filter _ [(r, kept.length)]).map _ = _
    have h1 : (kept ++ [r]).take kept.length = kept := by simp
    have h2 : (kept ++ [r]).take (kept.length + 1) = kept ++ [r] := by
      rw [List.take_of_length_le (by simp)]
    rw [List.filter_cons, List.filter_nil]
    dsimp only
    rw [h1, h2]
    by_cases h : reachedBy changes kept ≤ j ∧ j ≤ reachedBy changes (kept ++ [r])
    · rw [if_pos h, if_pos (by simp [h.1, h.2])]
      rfl
    · rw [if_neg h, if_neg (by simpa using h)]
      rfl

/-- segments that are not started yet are empty -/
theorem segment_later (changes : List (Int × Int)) (kept : List (Nat × P)) {j : Nat}
    (h : reachedBy changes kept < j) : segment changes kept j = [] := by
  unfold segment
  rw [List.map_eq_nil_iff, List.filter_eq_nil_iff]
  rintro ⟨x, i⟩ hx hc
  have hi := (List.mem_zipIdx hx).2.1
  rw [Bool.and_eq_true, decide_eq_true_eq, decide_eq_true_eq] at hc
  dsimp only at hc
  have := take_mono changes kept (i := i + 1) (j := kept.length) (by omega)
  rw [List.take_length] at this
  omega

/-- the state after the positions `kept` -/
def Spec.stateOf (color : Int → C) (changes : List (Int × Int)) (last n : Nat)
    (pts : Nat → List P) : KmlState C P :=
  { done := (List.range n).map fun j => ⟨modeOf changes j, color (modeOf changes j), pts j⟩
    cur := ⟨modeOf changes n, color (modeOf changes n), pts n⟩
    idx := n
    lastT := last }

theorem changes_get (changes : List (Int × Int)) (n : Nat) : changes[n + 1]? = changes.tail[n]? := by
  cases changes with
  | nil => rfl
  | cons c cs => rfl

theorem takeWhile_stop {α : Type} {p : α → Bool} {l : List α} {x : α}
    (h : l[(l.takeWhile p).length]? = some x) : p x = false := by
  induction l with
  | nil => simp at h
  | cons y ys ih =>
    rw [List.takeWhile_cons] at h
    by_cases hp : p y = true
    · rw [if_pos hp, List.length_cons, List.getElem?_cons_succ] at h
      exact ih h
    · rw [if_neg hp] at h
      simp at h
      rw [← h]
      simpa using hp

theorem takeWhile_before {α : Type} {p : α → Bool} {l : List α} {x : α} {i : Nat} (hi : i < (l.takeWhile p).length)
    (h : l[i]? = some x) : p x = true := by
  induction l generalizing i with
  | nil => simp at h
  | cons y ys ih =>
    rw [List.takeWhile_cons] at hi
    by_cases hp : p y = true
    · rw [if_pos hp] at hi
      cases i with
      | zero => simp at h; rw [← h]; exact hp
      | succ i => exact ih (by simpa using hi) (by simpa using h)
    · rw [if_neg hp] at hi
      simp at hi

/-- the mode loop moves to the last segment that is reached with the new position -/
theorem modeLoop_spec {colors : Int → Except PyErr C} {color : Int → C} (hc : ∀ m, colors m = .ok (color m))
    (changes : List (Int × Int)) (kept : List (Nat × P)) (r : Nat × P) (last : Nat) (pts : Nat → List P)
    (m : Nat) :
    ∀ n fuel, reachedBy changes kept ≤ n → n + m = reachedBy changes (kept ++ [r]) → m ≤ fuel →
      (∀ j, n < j → pts j = [r.2]) →
      modeLoop colors changes r.1 r.2 fuel (stateOf color changes last n pts)
        = .ok (stateOf color changes last (n + m) pts) := by
  induction m with
  | zero =>
    intro n fuel hle hn hf hp
    cases fuel with
    | zero => rfl
    | succ f =>
      unfold modeLoop
      rw [show changes[(stateOf color changes last n pts).idx + 1]? = changes.tail[n]? from changes_get changes n]
      cases hx : changes.tail[n]? with
      | none => rfl
      | some x =>
        dsimp only
        rw [if_neg]
        · rfl
        · intro hle
          have hs := takeWhile_stop (p := fun c => (kept ++ [r]).any fun r => decide (c.1 ≤ (r.1 : Int)))
            (l := changes.tail) (x := x) (by
              have : n = reachedBy changes (kept ++ [r]) := by omega
              rw [this] at hx
              exact hx)
          rw [List.any_append] at hs
          simp [hle] at hs
  | succ m ih =>
    intro n fuel hle hn hf hp
    obtain ⟨f, rfl⟩ : ∃ f, fuel = f + 1 := ⟨fuel - 1, by omega⟩
    have hlt : n < reachedBy changes (kept ++ [r]) := by omega
    obtain ⟨x, hx⟩ : ∃ x, changes.tail[n]? = some x := by
      have hl : reachedBy changes (kept ++ [r]) ≤ changes.tail.length :=
        (List.takeWhile_prefix _).length_le
      exact ⟨_, List.getElem?_eq_getElem (by omega)⟩
    have hreach : x.1 ≤ (r.1 : Int) := by
      have h1 := takeWhile_before (p := fun c => (kept ++ [r]).any fun r => decide (c.1 ≤ (r.1 : Int))) hlt hx
      rw [List.any_append, Bool.or_eq_true] at h1
      rcases h1 with h1 | h1
      · obtain ⟨k, hk, hxk⟩ := List.any_eq_true.mp h1
        obtain ⟨c0, hc0⟩ : ∃ c0, changes.tail[reachedBy changes kept]? = some c0 := by
          have hl : reachedBy changes (kept ++ [r]) ≤ changes.tail.length :=
            (List.takeWhile_prefix _).length_le
          exact ⟨_, List.getElem?_eq_getElem (by omega)⟩
        have h2 := takeWhile_stop (p := fun c : Int × Int => kept.any fun r => decide (c.1 ≤ (r.1 : Int))) hc0
        have h3 := takeWhile_before (p := fun c => (kept ++ [r]).any fun r => decide (c.1 ≤ (r.1 : Int)))
          (i := reachedBy changes kept) (show _ < reachedBy changes (kept ++ [r]) by omega) hc0
        rw [List.any_append, h2] at h3
        have h4 : c0.1 ≤ (r.1 : Int) := by simpa using h3
        have h5 := List.any_eq_false.mp h2 k hk
        simp only [decide_eq_true_eq] at h5 hxk
        omega
      · simpa using h1
    unfold modeLoop
    rw [show changes[(stateOf color changes last n pts).idx + 1]? = changes.tail[n]? from changes_get changes n, hx]
    dsimp only
    rw [if_pos hreach, hc]
    dsimp only
    have hst : ({ done := (stateOf color changes last n pts).done ++ [(stateOf color changes last n pts).cur]
                  cur := ⟨x.2, color x.2, [r.2]⟩
                  idx := (stateOf color changes last n pts).idx + 1
                  lastT := (stateOf color changes last n pts).lastT } : KmlState C P)
        = stateOf color changes last (n + 1) pts := by
      have hm : modeOf changes (n + 1) = x.2 := by
        unfold modeOf
        rw [changes_get, hx]
      unfold stateOf
      rw [hm, hp (n + 1) (by omega), List.range_succ, List.map_append]
      rfl
    rw [hst, ih (n + 1) f (by omega) (by omega) (by omega) (fun j hj => hp j (by omega))]
    congr 2
    omega

theorem kmlStep_keep {colors : Int → Except PyErr C} {color : Int → C} (hc : ∀ m, colors m = .ok (color m))
    {far : Nat → Bool} (changes : List (Int × Int)) (kept : List (Nat × P)) (r : Nat × P) (last : Nat)
    (hf : far ((r.1 + 2 ^ 64 - last) % 2 ^ 64) = true) :
    kmlStep far colors changes (stateOf color changes last (reachedBy changes kept) (segment changes kept)) r
      = .ok (stateOf color changes r.1 (reachedBy changes (kept ++ [r])) (segment changes (kept ++ [r]))) := by
  have hmono := reachedBy_mono changes kept [r]
  unfold kmlStep
  rw [if_pos (c := far ((r.1 + 2 ^ 64 - (stateOf color changes last (reachedBy changes kept)
    (segment changes kept)).lastT) % 2 ^ 64) = true) hf]
  have hst : ({ done := (stateOf color changes last (reachedBy changes kept) (segment changes kept)).done
                cur := ⟨modeOf changes (reachedBy changes kept), color (modeOf changes (reachedBy changes kept)),
                  segment changes kept (reachedBy changes kept) ++ [r.2]⟩
                idx := reachedBy changes kept
                lastT := r.1 } : KmlState C P)
      = stateOf color changes r.1 (reachedBy changes kept)
        (fun j => if j ≤ reachedBy changes (kept ++ [r]) then segment changes (kept ++ [r]) j else [r.2]) := by
    unfold stateOf
    congr 1
    · apply List.map_congr_left
      intro j hj
      have hj := List.mem_range.mp hj
      dsimp only
      rw [if_pos (by omega), segment_snoc, if_neg (by omega), List.append_nil]
    · dsimp only
      rw [if_pos hmono, segment_snoc, if_pos ⟨Nat.le_refl _, hmono⟩]
  have hloop := modeLoop_spec hc changes kept r r.1
    (fun j => if j ≤ reachedBy changes (kept ++ [r]) then segment changes (kept ++ [r]) j else [r.2])
    (reachedBy changes (kept ++ [r]) - reachedBy changes kept) (reachedBy changes kept) changes.length
    (Nat.le_refl _) (by omega) (by
      have hl : reachedBy changes (kept ++ [r]) ≤ changes.tail.length := (List.takeWhile_prefix _).length_le
      rw [List.length_tail] at hl
      omega) (by
      intro j hj
      by_cases h : j ≤ reachedBy changes (kept ++ [r])
      · rw [if_pos h, segment_snoc, segment_later changes kept hj, if_pos ⟨by omega, h⟩]
        rfl
      · rw [if_neg h])
  refine Eq.trans (congrArg (modeLoop colors changes r.1 r.2 changes.length) hst) (hloop.trans ?_)
  rw [show reachedBy changes kept + (reachedBy changes (kept ++ [r]) - reachedBy changes kept)
    = reachedBy changes (kept ++ [r]) by omega]
  congr 1
  unfold stateOf
  congr 1
  · apply List.map_congr_left
    intro j hj
    have hj := List.mem_range.mp hj
    dsimp only
    rw [if_pos (by omega)]
  · dsimp only
    rw [if_pos (Nat.le_refl _)]

theorem kmlLoop_spec {colors : Int → Except PyErr C} {color : Int → C} (hc : ∀ m, colors m = .ok (color m))
    {far : Nat → Bool} (changes : List (Int × Int)) {rows kept : List (Nat × P)} {last : Nat}
    (h : Thinned far last rows kept) (pre : List (Nat × P)) :
    ∃ last', rows.foldlM (kmlStep far colors changes)
        (stateOf color changes last (reachedBy changes pre) (segment changes pre))
      = .ok (stateOf color changes last' (reachedBy changes (pre ++ kept)) (segment changes (pre ++ kept))) := by
  induction h generalizing pre with
  | nil last => exact ⟨last, by rw [List.append_nil]; rfl⟩
  | @keep last t p rows kept hf _ ih =>
    obtain ⟨l', hl⟩ := ih (pre ++ [(t, p)])
    refine ⟨l', ?_⟩
    rw [List.foldlM_cons, kmlStep_keep hc changes pre (t, p) last hf, ok_bind, hl, List.append_assoc]
    rfl
  | @drop last t p rows kept hf _ ih =>
    obtain ⟨l', hl⟩ := ih pre
    refine ⟨l', ?_⟩
    have : kmlStep far colors changes
        (stateOf color changes last (reachedBy changes pre) (segment changes pre)) (t, p)
        = .ok (stateOf color changes last (reachedBy changes pre) (segment changes pre)) := by
      unfold kmlStep
      rw [if_neg (by rw [show far (((t, p).1 + 2 ^ 64 - (stateOf color changes last (reachedBy changes pre)
        (segment changes pre)).lastT) % 2 ^ 64) = false from hf]; decide)]
    rw [List.foldlM_cons, this, ok_bind, hl]

/-- every sequence of positions has one thinning -/
theorem thinned_exists (far : Nat → Bool) (last : Nat) (rows : List (Nat × P)) :
    ∃ kept, Thinned far last rows kept := by
  induction rows generalizing last with
  | nil => exact ⟨[], .nil last⟩
  | cons r rows ih =>
    obtain ⟨t, p⟩ := r
    cases hf : far ((t + 2 ^ 64 - last) % 2 ^ 64) with
    | true => obtain ⟨k, hk⟩ := ih t; exact ⟨_, .keep hf hk⟩
    | false => obtain ⟨k, hk⟩ := ih last; exact ⟨_, .drop hf hk⟩

/-- **C36**: the track consists of the thinned positions, divided into the segments of the flight modes:
one for every change that has been reached, and the position at which it was reached belongs to the
segments before and after it. -/
theorem C36_track {colors : Int → Except PyErr C} {color : Int → C} (hc : ∀ m, colors m = .ok (color m))
    (far : Nat → Bool) (changes : List (Int × Int)) (rows : List (Nat × P)) :
    ∃ kept, Thinned far 0 rows kept ∧ kmlTrack far colors changes rows = .ok (track color changes kept) := by
  obtain ⟨kept, hk⟩ := thinned_exists far 0 rows
  refine ⟨kept, hk, ?_⟩
  obtain ⟨l', hl⟩ := kmlLoop_spec hc changes hk []
  have hinit : stateOf color changes 0 (reachedBy changes ([] : List (Nat × P))) (segment changes ([] : List (Nat × P)))
      = ⟨[], ⟨firstMode changes, color (firstMode changes), ([] : List P)⟩, 0, 0⟩ := by
    rw [reachedBy_nil]
    unfold stateOf modeOf firstMode
    cases changes <;> rfl
  rw [hinit] at hl
  unfold kmlTrack
  rw [hc, ok_bind, hl, ok_bind]
  unfold track stateOf
  rw [List.range_succ, List.map_append]
  rfl

/-- **C36**, thinning: the kept positions are a subsequence, and consecutive ones are far apart. -/
theorem C36_thinning {far : Nat → Bool} {rows kept : List (Nat × P)} {last : Nat} (h : Thinned far last rows kept) :
    kept.Sublist rows ∧
    ∀ i, ∀ hi : i < kept.length, far ((kept[i].1 + 2 ^ 64 - (last :: kept.map (·.1))[i]'(by simp; omega)) % 2 ^ 64) = true := by
  induction h with
  | nil last => exact ⟨List.Sublist.refl _, fun i hi => absurd hi (by simp)⟩
  | @keep last t p rows kept hf _ ih =>
    refine ⟨ih.1.cons_cons _, fun i hi => ?_⟩
    cases i with
    | zero => exact hf
    | succ i => exact ih.2 i (by simpa using hi)
  | @drop last t p rows kept hf _ ih =>
    exact ⟨ih.1.cons _, ih.2⟩

/-- **C36**, thinning: a position that is left out is near to the position that was kept last. -/
theorem C36_dropped {far : Nat → Bool} {rows kept : List (Nat × P)} {last : Nat} (h : Thinned far last rows kept)
    {a b : List (Nat × P)} {t : Nat} {p : P} (he : rows = a ++ (t, p) :: b) :
    ∃ ka kb, Thinned far last a ka ∧ ((kept = ka ++ (t, p) :: kb) ∨
      (kept = ka ++ kb ∧ far ((t + 2 ^ 64 - ((last :: ka.map (·.1)).getLast (by simp))) % 2 ^ 64) = false)) := by
  induction h generalizing a with
  | nil last => exact absurd he (by simp)
  | @keep last t' p' rows kept hf hk ih =>
    cases a with
    | nil =>
      cases he
      exact ⟨[], kept, .nil _, Or.inl rfl⟩
    | cons x a =>
      injection he with h1 h2
      subst h1
      obtain ⟨ka, kb, h3, h4⟩ := ih h2
      refine ⟨(t', p') :: ka, kb, .keep hf h3, ?_⟩
      rcases h4 with h4 | ⟨h4, h5⟩
      · exact Or.inl (by rw [h4]; rfl)
      · exact Or.inr ⟨by rw [h4]; rfl, by rw [← h5]; rfl⟩
  | @drop last t' p' rows kept hf hk ih =>
    cases a with
    | nil =>
      cases he
      exact ⟨[], kept, .nil _, Or.inr ⟨rfl, hf⟩⟩
    | cons x a =>
      injection he with h1 h2
      subst h1
      obtain ⟨ka, kb, h3, h4⟩ := ih h2
      exact ⟨ka, kb, .drop hf h3, h4⟩

/-- **C36**, contents: the segments together contain every kept position once, when the copies at the
starts of the later segments are left out. -/
theorem C36_complete (changes : List (Int × Int)) (kept : List (Nat × P)) :
    segment changes kept 0 ++ ((List.range (reachedBy changes kept)).flatMap fun j =>
      (segment changes kept (j + 1)).tail) = kept.map (·.2) ∧
    ∀ j, j < reachedBy changes kept →
      (segment changes kept (j + 1)).head? = (segment changes kept j).getLast? ∧ segment changes kept (j + 1) ≠ [] := by
  induction hlen : kept.length generalizing kept with
  | zero =>
    have := List.eq_nil_of_length_eq_zero hlen
    subst this
    rw [reachedBy_nil]
    exact ⟨rfl, fun j hj => absurd hj (by omega)⟩
  | succ n ih =>
    obtain ⟨init, r, rfl⟩ : ∃ init r, kept = init ++ [r] :=
      ⟨kept.dropLast, kept.getLast (by intro h; rw [h] at hlen; simp at hlen), (List.dropLast_concat_getLast _).symm⟩
    obtain ⟨ih1, ih2⟩ := ih init (by simpa using hlen)
    have hmono := reachedBy_mono changes init [r]
    obtain ⟨m, hm⟩ : ∃ m, reachedBy changes (init ++ [r]) = reachedBy changes init + m :=
      ⟨_, (Nat.add_sub_of_le hmono).symm⟩
    have hseg := segment_snoc changes init r
    have hlater := fun j => segment_later changes init (j := j)
    rw [hm] at hseg ⊢
    generalize reachedBy changes init = q at *
    have hold : ∀ j, j < q → segment changes (init ++ [r]) j = segment changes init j := by
      intro j hj
      rw [hseg, if_neg (by omega), List.append_nil]
    have hq : segment changes (init ++ [r]) q = segment changes init q ++ [r.2] := by
      rw [hseg, if_pos (by omega)]
    have hnew : ∀ j, q < j → j ≤ q + m → segment changes (init ++ [r]) j = [r.2] := by
      intro j h1 h2
      rw [hseg, hlater j h1, if_pos (by omega)]
      rfl
    constructor
    · rw [List.map_append, ← ih1]
      have hsplit : List.range (q + m) = List.range q ++ List.range' q m := by
        rw [List.range_eq_range', List.range_eq_range']
        have := List.range'_append_1 (s := 0) (m := q) (n := m)
        rw [Nat.zero_add] at this
        exact this.symm
      rw [hsplit, List.flatMap_append]
      have hz : (List.range' q m).flatMap (fun j => (segment changes (init ++ [r]) (j + 1)).tail) = [] := by
        rw [List.flatMap_eq_nil_iff]
        intro j hj
        have := List.mem_range'_1.mp hj
        rw [hnew (j + 1) (by omega) (by omega)]
        rfl
      rw [hz, List.append_nil]
      cases q with
      | zero =>
        rw [hq]
        simp
      | succ q =>
        rw [hold 0 (by omega), List.range_succ, List.flatMap_append, List.flatMap_append]
        have hsame : (List.range q).flatMap (fun j => (segment changes (init ++ [r]) (j + 1)).tail)
            = (List.range q).flatMap (fun j => (segment changes init (j + 1)).tail) := by
          rw [List.flatMap_def, List.flatMap_def]
          congr 1
          apply List.map_congr_left
          intro j hj
          have := List.mem_range.mp hj
          rw [hold (j + 1) (by omega)]
        rw [hsame, List.flatMap_cons, List.flatMap_cons, List.flatMap_nil, hq,
          List.tail_append_of_ne_nil (ih2 q (by omega)).2]
        simp
    · intro j hj
      rcases Nat.lt_or_ge (j + 1) q with h | h
      · rw [hold _ h, hold _ (by omega)]
        exact ih2 j (by omega)
      · rcases Nat.lt_or_ge q (j + 1) with h2 | h2
        · rw [hnew (j + 1) h2 (by omega)]
          refine ⟨?_, by simp⟩
          rcases Nat.lt_or_ge q j with h3 | h3
          · rw [hnew j h3 (by omega)]; rfl
          · have : j = q := by omega
            subst this
            rw [hq]
            simp
        · have he : j + 1 = q := by omega
          have := ih2 j (by omega)
          rw [he] at this ⊢
          rw [hq, hold j (by omega)]
          refine ⟨?_, by simp⟩
          rw [← this.1, List.head?_append]
          cases hh : segment changes init q with
          | nil => exact absurd hh this.2
          | cons x xs => rfl

/-- positions at 1, 2, 3 and 9 s; the mode changes to 4 at 3 s and to 5 at 4 s -/
def Sample.track : List (Nat × Nat) := [(1000000, 0), (1000001, 1), (2000000, 2), (3000000, 3), (9000000, 4)]

example : (kmlTrack (fun d => decide (d > 100000)) (fun m => .ok m) [(0, 2), (3000000, 4), (4000000, 5)]
    Sample.track).toOption
    = some [⟨2, 2, [0, 2, 3]⟩, ⟨4, 4, [3, 4]⟩, ⟨5, 5, [4]⟩] := by decide +kernel

example : Thinned (fun d => decide (d > 100000)) 0 Sample.track
    [(1000000, 0), (2000000, 2), (3000000, 3), (9000000, 4)] :=
  .keep (by decide) (.drop (by decide) (.keep (by decide) (.keep (by decide) (.keep (by decide) (.nil _)))))

/-! ### C57 -/

/-- **C57**: the default colours exist for the flight modes up to 17 and for the end of the log. -/
theorem C57_colors_partial (m : Int) (h : m < 18) : ∃ c, defaultColors m = .ok c := by
  unfold defaultColors pyIndex
  have : (max m 0).toNat < colorTable.length := by
    show _ < 18
    omega
  rw [List.getElem?_eq_getElem this]
  exact ⟨_, rfl⟩

/-- the colours of the modes 0 to 17; the end of the log (-1) has the colour of mode 0 -/
theorem C57_table :
    (List.range 18).map (fun m : Nat => (defaultColors (m : Int)).toOption) =
      ["red", "green", "blue", "violet", "yellow", "orange", "burlywood", "azure", "lightblue", "lawngreen", "indianred",
        "hotpink", "bisque", "cyan", "darksalmon", "deepskyblue", "lime", "orchid"].map (fun s => some s.toList) ∧
    ∀ m : Int, m ≤ 0 → defaultColors m = .ok ['r', 'e', 'd'] := by
  refine ⟨by decide +kernel, fun m h => ?_⟩
  unfold defaultColors
  rw [show (max m 0).toNat = 0 by omega]
  rfl

/-- different modes have different colours -/
theorem C57_distinct {m n : Int} {c : Str} (hm : 0 ≤ m) (hn : 0 ≤ n) (h1 : defaultColors m = .ok c)
    (h2 : defaultColors n = .ok c) : m = n := by
  have key : ∀ i j : Fin 18, colorTable[i.1]? = colorTable[j.1]? → i = j := by decide +kernel
  unfold defaultColors at h1 h2
  rw [show (max m 0).toNat = m.toNat by omega] at h1
  rw [show (max n 0).toNat = n.toNat by omega] at h2
  have hb : ∀ {k : Nat}, pyIndex colorTable k = .ok c → colorTable[k]? = some c ∧ k < 18 := by
    intro k h
    unfold pyIndex at h
    cases hk : colorTable[k]? with
    | none => rw [hk] at h; cases h
    | some x =>
      rw [hk] at h
      injection h with h
      exact ⟨by rw [h], (List.getElem?_eq_some_iff.mp hk).1⟩
  obtain ⟨a1, b1⟩ := hb h1
  obtain ⟨a2, b2⟩ := hb h2
  have := key ⟨m.toNat, b1⟩ ⟨n.toNat, b2⟩ (a1.trans a2.symm)
  have : m.toNat = n.toNat := congrArg Fin.val this
  omega

/-- the failing part of **C57**: a log with a higher mode (such as 18, landing) cannot be exported. -/
theorem C57_no_color (far : Nat → Bool) (m : Int) (h : 18 ≤ m) (t : Int) (rest : List (Int × Int)) (rows : List (Nat × P)) :
    kmlTrack far defaultColors ((t, m) :: rest) rows = .error .indexError := by
  have : defaultColors m = .error .indexError := by
    unfold defaultColors pyIndex
    rw [List.getElem?_eq_none (by show 18 ≤ _; omega)]
  unfold kmlTrack
  show (defaultColors m >>= _) = _
  rw [this]
  rfl

/-- the mode can also be reached later -/
example : (kmlTrack (fun _ => true) defaultColors [(0, 2), (5, 18), (9, -1)] [(1, 0), (6, 1)]).toOption = none := by
  decide +kernel
example : ((kmlTrack (fun _ => true) defaultColors [(0, 2), (5, 17), (9, -1)] [(1, 0), (6, 1)]).toOption.map
    fun l => l.map (·.color)) = some [py! "blue", py! "orchid"] := by
  decide +kernel

/-! ### input of the track -/

theorem zip_filterMap {α : Type} (p : Nat → Bool) (f : Nat → α) (l : List Nat) :
    ((l.map p).zip (l.map f)).filterMap (fun q => if q.1 then some q.2 else none) = (l.filter p).map f := by
  induction l with
  | nil => rfl
  | cons x xs ih =>
    rw [List.map_cons, List.map_cons, List.zip_cons_cons, List.filterMap_cons, ih, List.filter_cons]
    cases p x <;> rfl

theorem maskBy_range {α : Type} (p : Nat → Bool) (f : Nat → α) (l : List Nat) :
    maskBy (l.map p) (l.map f) = .ok ((l.filter p).map f) := by
  unfold maskBy
  rw [if_pos (by simp), zip_filterMap]

theorem pyIndex_map {α : Type} (f : Nat → α) (l : List Nat) {i : Nat} (h : i < l.length) :
    pyIndex (l.map f) i = .ok (f l[i]) := by
  unfold pyIndex
  rw [List.getElem?_map, List.getElem?_eq_getElem h]
  rfl

/-- the column that is used for a coordinate: the one with the first name, or else the second -/
def Spec.ColumnOf (d : Dataset) (a b : Str) (col : List NpVal) : Prop :=
  d.data.get? a = some col ∨ (d.data.get? a = none ∧ d.data.get? b = some col)

/-- the field `lon` is an integer -/
def Spec.IntLon (d : Dataset) : Prop := ∃ f ∈ d.fields, f.name = py! "lon" ∧ f.type = .i32

theorem scaledLon_iff {d : Dataset} (h : (d.fields.map (·.name)).Nodup) : scaledLon d = true ↔ IntLon d := by
  unfold scaledLon IntLon
  generalize d.fields = l at h
  induction l with
  | nil => simp
  | cons f l ih =>
    rw [List.map_cons, List.nodup_cons] at h
    rw [List.filter_cons]
    by_cases hf : f.name = py! "lon"
    · rw [if_pos (by simpa using hf)]
      simp only [decide_eq_true_eq]
      constructor
      · intro ht
        exact ⟨f, by simp, hf, ht⟩
      · rintro ⟨g, hg, hg1, hg2⟩
        rcases List.mem_cons.mp hg with rfl | hg
        · exact hg2
        · exact absurd (List.mem_map.mpr ⟨g, hg, hg1.trans hf.symm⟩) h.1
    · rw [if_neg (by simpa using hf), ih h.2]
      constructor
      · rintro ⟨g, hg, h1, h2⟩
        exact ⟨g, List.mem_cons_of_mem _ hg, h1, h2⟩
      · rintro ⟨g, hg, h1, h2⟩
        rcases List.mem_cons.mp hg with rfl | hg
        · exact absurd h1 hf
        · exact ⟨g, hg, h1, h2⟩

theorem eitherCol_of {d : Dataset} {a b : Str} {col : List NpVal} (h : ColumnOf d a b col) :
    eitherCol d a b = .ok col := by
  unfold eitherCol dictGet
  rcases h with h | ⟨h, h'⟩
  · rw [h]
  · rw [h, h']

/-- **C36**, input: the positions are the rows with a fix, each with its timestamp; all rows if it is not
known whether there is a fix. Coordinates are scaled iff the longitude is an integer. -/
theorem C36_positions (coord : Bool → NpVal → NpVal → NpVal → P) (d : Dataset) (n : Nat)
    (t : Nat → Nat) (fix : Option (Nat → Int)) (lon lat alt : Nat → NpVal) (scaled : Bool)
    (hd : (d.fields.map (·.name)).Nodup) (hs : scaled = true ↔ IntLon d) (ht : ∀ i, t i < 2 ^ 64)
    (h1 : d.data.get? (py! "timestamp") = some ((List.range n).map fun i => .int (t i)))
    (h2 : d.data.get? (py! "fix_type") = fix.map fun f => (List.range n).map fun i => .int (f i))
    (h3 : ColumnOf d (py! "lon") (py! "longitude_deg") ((List.range n).map lon))
    (h4 : ColumnOf d (py! "lat") (py! "latitude_deg") ((List.range n).map lat))
    (h5 : ColumnOf d (py! "alt") (py! "altitude_msl_m") ((List.range n).map alt)) :
    positions coord d = .ok (((List.range n).filter fun i => fix.all fun f => f i > 2).map fun i =>
      (t i, coord scaled (lon i) (lat i) (alt i))) := by
  have hsc : scaledLon d = scaled := by
    have := scaledLon_iff hd
    rw [← hs] at this
    cases h : scaledLon d <;> cases h' : scaled <;> simp_all
  subst hsc
  have hm : fixMask d (List.length ((List.range n).map lon))
      = .ok ((List.range n).map fun i => fix.all fun f => decide (f i > 2)) := by
    unfold fixMask
    cases fix with
    | none =>
      rw [h2]
      simp only [Option.map_none, Option.all_none, List.length_map, List.length_range]
      congr 1
      apply List.ext_getElem <;> simp
    | some fix =>
      rw [h2]
      dsimp only [Option.map_some]
      rw [mapM_ok (g := fun v => match v with
        | .int k => decide (k > 2)
        | _ => false)]
      · rw [List.map_map]; rfl
      · intro v hv
        obtain ⟨i, _, rfl⟩ := List.mem_map.mp hv
        rfl
  have hget : ∀ {k : Str} {c : List NpVal}, d.data.get? k = some c → dictGet d.data k = .ok c := by
    intro k c hk
    unfold dictGet
    rw [hk]
  unfold positions
  rw [eitherCol_of h3, ok_bind, eitherCol_of h4, ok_bind, eitherCol_of h5, ok_bind, hget h1, ok_bind, hm,
    ok_bind, maskBy_range, ok_bind, maskBy_range, ok_bind, maskBy_range, ok_bind, maskBy_range, ok_bind]
  generalize (List.range n).filter (fun i => fix.all fun f => decide (f i > 2)) = l
  rw [List.length_map, mapM_ok (g := fun i => (t (l.getD i 0), coord (scaledLon d) (lon (l.getD i 0))
    (lat (l.getD i 0)) (alt (l.getD i 0))))]
  · congr 1
    apply List.ext_getElem (by simp)
    intro i hi hi'
    simp at hi
    rw [List.getElem_map, List.getElem_map, List.getElem_range, List.getD_eq_getElem?_getD,
      List.getElem?_eq_getElem hi]
    rfl
  · intro i hi
    have hi := List.mem_range.mp hi
    rw [pyIndex_map _ _ hi, ok_bind, pyIndex_map _ _ hi, ok_bind, pyIndex_map _ _ hi, ok_bind,
      pyIndex_map _ _ hi, ok_bind, List.getD_eq_getElem?_getD, List.getElem?_eq_getElem hi]
    have : npU64 (.int (t l[i])) = .ok (t l[i]) := by
      have := ht l[i]
      generalize t l[i] = x at this
      have he : npU64 (.int (x : Nat)) = if 0 ≤ (x : Int) ∧ (x : Int) < 2 ^ 64 then .ok (x : Int).toNat
        else .error .unmodelled := rfl
      rw [he, if_pos (by omega), Int.toNat_natCast]
    rw [this, ok_bind]
    rfl

/-- three positions, the second without a fix -/
def Sample.gpsPos : Dataset :=
  { multiId := 0, msgId := 1, name := py! "vehicle_gps_position", tsIdx := 0,
    fields := [⟨py! "timestamp", .u64⟩, ⟨py! "lon", .i32⟩, ⟨py! "latitude_deg", .i32⟩, ⟨py! "alt", .i32⟩,
      ⟨py! "fix_type", .u8⟩],
    data := [(py! "timestamp", [.int 1000000, .int 2000000, .int 3000000]),
      (py! "lon", [.int 10, .int 11, .int 12]), (py! "latitude_deg", [.int 20, .int 21, .int 22]),
      (py! "alt", [.int 30, .int 31, .int 32]), (py! "fix_type", [.int 3, .int 2, .int 4])] }

example : (positions (fun s x y z => (s, x, y, z)) Sample.gpsPos).toOption
    = some [(1000000, true, .int 10, .int 20, .int 30), (3000000, true, .int 12, .int 22, .int 32)] := by
  decide +kernel

example : IntLon Sample.gpsPos := ⟨⟨py! "lon", .i32⟩, by decide +kernel, by decide +kernel, by decide +kernel⟩
example : ColumnOf Sample.gpsPos (py! "lat") (py! "latitude_deg") [.int 20, .int 21, .int 22] :=
  Or.inr (by decide +kernel)

end PyULog
