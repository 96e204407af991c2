import Verif.Spec.ScriptPath
/-
Lemmas about the name of a migration file.
-/
namespace PyULog
open Spec

theorem scanField_eq {b : Bool} {acc s name rest : Str} {c : Char} (h : scanField b acc s = .ok (name, c, rest)) :
    acc.reverse ++ s = name ++ c :: rest := by
  induction s generalizing b acc with
  | nil => cases b <;> cases h
  | cons x xs ih =>
    cases b with
    | true =>
      have := ih h
      simpa using this
    | false =>
      simp only [scanField] at h
      split at h
      · cases h
      · split at h
        · cases h
          rfl
        · have := ih h
          simpa using this

theorem replacement_ok {value name t : Str} {c : Char} (h : replacement value name c = .ok t) :
    name = py! "migration_id" ∧ c = '}' ∧ t = value := by
  simp only [replacement] at h
  split at h
  · cases h
  · rename_i hc
    split at h
    · split at h <;> cases h
    · split at h
      · rename_i hn
        cases h
        exact ⟨hn, Decidable.not_not.mp hc, rfl⟩
      · split at h <;> cases h

/-- a character that is no bracket is copied -/
theorem formatId_copy {v : Str} {n : Nat} {c : Char} {cs : Str} (h1 : c ≠ '{') (h2 : c ≠ '}') :
    formatId v (n + 1) (c :: cs) = (formatId v n cs).bind fun r => .ok (c :: r) := by
  rw [formatId]
  · rfl
  all_goals first | (intros; simp_all) | skip

theorem formatId_open2 {v : Str} {n : Nat} {cs : Str} :
    formatId v (n + 1) ('{' :: '{' :: cs) = (formatId v n cs).bind fun r => .ok ('{' :: r) := rfl

theorem formatId_close2 {v : Str} {n : Nat} {cs : Str} :
    formatId v (n + 1) ('}' :: '}' :: cs) = (formatId v n cs).bind fun r => .ok ('}' :: r) := rfl

theorem formatId_close {v : Str} {n : Nat} {c : Char} {cs : Str} (h : c ≠ '}') :
    formatId v (n + 1) ('}' :: c :: cs) = .error .valueError := by
  rw [formatId]
  intro x hx
  simp_all

theorem formatId_field {v : Str} {n : Nat} {c : Char} {cs : Str} (h : c ≠ '{') :
    formatId v (n + 1) ('{' :: c :: cs) = (scanField false [] (c :: cs)).bind fun x =>
      (replacement v x.1 x.2.1).bind fun t => (formatId v n x.2.2).bind fun r => .ok (t ++ r) := by
  rw [formatId]
  · rfl
  · intro x hx
    simp_all
  · intro hx
    cases hx

theorem bind_eq_ok {x : Except PyErr α} {f : α → Except PyErr β} {y : β} (h : x.bind f = .ok y) :
    ∃ a, x = .ok a ∧ f a = .ok y := by
  cases x with
  | error e => cases h
  | ok a => exact ⟨a, rfl, h⟩

/-- a text without brackets is copied -/
theorem formatId_plain {v s tl : Str} {n : Nat} (hs : NoBraces s) :
    formatId v (n + s.length) (s ++ tl) = (formatId v n tl).map (s ++ ·) := by
  induction s generalizing n with
  | nil =>
    show formatId v n tl = _
    cases formatId v n tl <;> rfl
  | cons c cs ih =>
    have h1 : c ≠ '{' := fun e => hs.1 (by simp [e])
    have h2 : c ≠ '}' := fun e => hs.2 (by simp [e])
    have h3 : NoBraces cs := ⟨fun e => hs.1 (by simp [e]), fun e => hs.2 (by simp [e])⟩
    show formatId v (n + cs.length + 1) (c :: (cs ++ tl)) = _
    rw [formatId_copy h1 h2, ih h3]
    cases formatId v n tl <;> rfl

/-- the last part of the path -/
theorem formatId_tail {v : Str} {n : Nat} : formatId v (n + 26) (py! "pyulog.{migration_id}.sql") =
    .ok (py! "pyulog." ++ v ++ py! ".sql") := by
  have h1 : formatId v (n + 18) (py! ".sql") = .ok (py! ".sql") :=
    formatId_plain (v := v) (s := py! ".sql") (tl := []) (n := n + 14) (by decide)
  have h2 : formatId v (n + 19) (py! "{migration_id}.sql") = .ok (v ++ py! ".sql") := by
    show formatId v (n + 18 + 1) ('{' :: 'm' :: _) = _
    rw [formatId_field (by decide)]
    have hs : scanField false [] (py! "migration_id}.sql") = .ok (py! "migration_id", '}', py! ".sql") := rfl
    have hf : replacement v (py! "migration_id") '}' = .ok v := by
      simp only [replacement]
      rw [if_neg (by decide), if_neg (by decide)]
      exact if_pos trivial
    simp only [hs, Except.bind, hf, h1]
  have h3 := formatId_plain (v := v) (s := py! "pyulog.") (tl := py! "{migration_id}.sql") (n := n + 19) (by decide)
  have h3' : formatId v (n + 26) (py! "pyulog.{migration_id}.sql") = _ := h3
  rw [h3', h2]
  show Except.ok (py! "pyulog." ++ (v ++ py! ".sql")) = _
  rw [← List.append_assoc]

/-- two texts that begin together -/
theorem append_eq_prefix {a b p r : Str} (h : a ++ b = p ++ r) (hb : ∀ c, b.head? = some c → c ∉ p) (hne : b ≠ []) :
    ∃ a', a = p ++ a' ∧ r = a' ++ b := by
  induction p generalizing a with
  | nil => exact ⟨a, rfl, h.symm⟩
  | cons x p ih =>
    cases a with
    | nil =>
      simp only [List.nil_append] at h
      subst h
      exact absurd (List.mem_cons_self ..) (hb x rfl)
    | cons y a =>
      simp only [List.cons_append, List.cons.injEq] at h
      obtain ⟨a', rfl, hr⟩ := ih h.2 (fun c hc hm => hb c hc (List.mem_cons_of_mem _ hm))
      exact ⟨a', by rw [h.1]; rfl, hr⟩

/-- brackets in the directory make the path shorter -/
theorem formatId_short {v tl x : Str} (hv : v.length < 14) (hne : tl ≠ [])
    (hh : ∀ c, tl.head? = some c → c ∉ py! "{migration_id}")
    (htl : ∀ n, tl.length < n → formatId v n tl = .ok x) (hx : x.length + 14 = tl.length + v.length) :
    ∀ (n : Nat) (dir t : Str), dir.length + tl.length < n → formatId v n (dir ++ tl) = .ok t →
      t.length + 14 ≤ dir.length + tl.length + v.length ∧
        (¬ NoBraces dir → t.length + 14 < dir.length + tl.length + v.length) := by
  intro n
  induction n with
  | zero => intro dir t hn; omega
  | succ n ih =>
    intro dir t hn h
    match dir with
    | [] =>
      rw [List.nil_append, htl _ (by simpa using hn)] at h
      cases h
      exact ⟨by simp; omega, fun hb => absurd ⟨by simp, by simp⟩ hb⟩
    | c :: dir =>
      simp only [List.length_cons] at hn
      obtain ⟨c0, cs0, hcs⟩ : ∃ c cs, dir ++ tl = c :: cs := by
        cases hd : dir ++ tl with
        | nil => exact absurd (List.append_eq_nil_iff.mp hd).2 hne
        | cons a b => exact ⟨a, b, rfl⟩
      have hhead : ∀ d, c0 = d → d ∈ py! "{migration_id}" → ∃ dir2, dir = d :: dir2 := by
        intro d hd hm
        cases dir with
        | nil =>
          refine absurd hm (hh d ?_)
          rw [List.nil_append] at hcs
          rw [hcs, hd]; rfl
        | cons y ys =>
          simp only [List.cons_append, List.cons.injEq] at hcs
          exact ⟨ys, by rw [hcs.1, hd]⟩
      by_cases h1 : c = '{'
      · subst h1
        by_cases h2 : c0 = '{'
        · obtain ⟨dir2, rfl⟩ := hhead '{' h2 (by decide)
          simp only [List.cons_append, formatId_open2] at h
          obtain ⟨r, hr, ht⟩ := bind_eq_ok h
          cases ht
          simp only [List.length_cons] at hn ⊢
          have := (ih dir2 r (by omega) hr).1
          exact ⟨by omega, fun _ => by omega⟩
        · rw [List.cons_append, hcs, formatId_field h2] at h
          obtain ⟨⟨name, close, rest⟩, hf, h⟩ := bind_eq_ok h
          obtain ⟨t1, ht1, h⟩ := bind_eq_ok h
          obtain ⟨r, hr, h⟩ := bind_eq_ok h
          cases h
          obtain ⟨hname, hclose, rfl⟩ := replacement_ok ht1
          simp only at hname hclose hr
          have he := scanField_eq hf
          rw [← hcs, hname, hclose] at he
          have he' : dir ++ tl = py! "migration_id}" ++ rest := by simpa using he
          obtain ⟨dir2, rfl, rfl⟩ := append_eq_prefix he' (fun c hc hm => hh c hc (by
            simp only [List.mem_cons] at hm ⊢
            exact .inr hm)) hne
          have := (ih dir2 r (by simp at hn; omega) hr).1
          simp only [List.length_append, List.length_cons]
          simp
          exact ⟨by omega, fun _ => by omega⟩
      · by_cases h2 : c = '}'
        · subst h2
          by_cases h3 : c0 = '}'
          · obtain ⟨dir2, rfl⟩ := hhead '}' h3 (by decide)
            simp only [List.cons_append, formatId_close2] at h
            obtain ⟨r, hr, ht⟩ := bind_eq_ok h
            cases ht
            simp only [List.length_cons] at hn ⊢
            have := (ih dir2 r (by omega) hr).1
            exact ⟨by omega, fun _ => by omega⟩
          · rw [List.cons_append, hcs, formatId_close h3] at h
            cases h
        · rw [List.cons_append, formatId_copy h1 h2] at h
          obtain ⟨r, hr, ht⟩ := bind_eq_ok h
          cases ht
          have hrec := ih dir r (by omega) hr
          simp only [List.length_cons]
          refine ⟨by omega, fun hb => ?_⟩
          have : ¬ NoBraces dir := fun hd => hb ⟨by simp [hd.1, Ne.symm h1], by simp [hd.2, Ne.symm h2]⟩
          have := hrec.2 this
          omega

end PyULog
