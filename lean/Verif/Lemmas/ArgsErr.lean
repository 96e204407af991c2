import Verif.Lemmas.Args
/-
Command lines that are refused.
-/
namespace PyULog
open Spec

/-! ### exit codes -/

theorem exit_bind_error {x : Except Nat α} {f : α → Except Nat β} {e : Nat} :
    (x >>= f) = .error e ↔ x = .error e ∨ ∃ a, x = .ok a ∧ f a = .error e := by
  cases x <;> simp [bind, Except.bind]

theorem parseOptional_error {d : CliDecl} {s : Str} {e : Nat} (h : parseOptional d s = .error e) : e = 2 := by
  unfold parseOptional at h
  split at h
  · cases h
  · split at h
    · cases h
    · split at h
      · cases h
      · split at h
        · cases h
        · dsimp only at h
          split at h
          · cases h
          · split at h
            · cases h; rfl
            · cases h
            · split at h
              · cases h
              · split at h <;> cases h

theorem classify_error {d : CliDecl} {ws : List Str} {e : Nat} (h : classify d ws = .error e) : e = 2 := by
  induction ws with
  | nil => cases h
  | cons s ws ih =>
    rw [classify] at h
    split at h
    · cases h
    · rcases exit_bind_error.mp h with h | ⟨t, _, h⟩
      · exact parseOptional_error h
      · rcases exit_bind_error.mp h with h | ⟨ts, _, h⟩
        · exact ih h
        · cases t <;> cases h

theorem optActions_error {d : CliDecl} {rest : List Tok} : ∀ {fuel : Nat} {o : OptDecl} {name : Str} {sep : Bool}
    {e : Option Str} {c : Nat}, optActions d rest fuel o name sep e = .error c → c = 2 := by
  have hnone : ∀ {fuel : Nat} {o : OptDecl} {name : Str} {sep : Bool} {c : Nat},
      optActions d rest fuel o name sep none = .error c → c = 2 := by
    intro fuel o name sep c h
    rw [optActions_none] at h
    split at h
    · cases rest with
      | nil => cases h; rfl
      | cons t r => cases t <;> cases h <;> rfl
    · cases h
  intro fuel
  induction fuel with
  | zero =>
    intro o name sep e c h
    cases e with
    | none => exact hnone h
    | some e =>
      unfold optActions at h
      split at h
      · cases h
      · split at h
        · cases h; rfl
        · cases e <;> (cases h; rfl)
  | succ fuel ih =>
    intro o name sep e c h
    cases e with
    | none => exact hnone h
    | some e =>
      unfold optActions at h
      split at h
      · cases h
      · split at h
        · cases h; rfl
        · cases e with
          | nil => cases h; rfl
          | cons c e =>
            dsimp only at h
            split at h
            · cases h; rfl
            · split at h
              · cases h
              · split at h <;>
                  (rcases exit_bind_error.mp h with h | ⟨y, _, h⟩
                   · exact ih h
                   · cases h)

theorem takeOpt_error {isDir : Str → Bool} {ns : Dict Str ArgVal} {x : OptDecl × List Str} {c : Nat}
    (h : takeOpt isDir ns x = .error c) : c = 2 ∨ (c = 0 ∧ x.1.action = .help) := by
  unfold takeOpt at h
  split at h
  · next ha => cases h; exact .inr ⟨rfl, ha⟩
  · cases h
  · rcases exit_bind_error.mp h with h | ⟨v, _, h⟩
    · left
      unfold convertArg at h
      split at h
      · cases h
      · split at h <;> cases h; rfl
      · split at h <;> cases h; rfl
    · cases h
  · cases h

theorem foldOpt_error {isDir : Str → Bool} {l : List (OptDecl × List Str)} {ns : Dict Str ArgVal} {c : Nat}
    (h : l.foldlM (takeOpt isDir) ns = .error c) : c = 2 ∨ (c = 0 ∧ ∃ x ∈ l, x.1.action = .help) := by
  induction l generalizing ns with
  | nil => cases h
  | cons x l ih =>
    rw [List.foldlM_cons] at h
    rcases exit_bind_error.mp h with h | ⟨v, _, h⟩
    · rcases takeOpt_error h with h | ⟨h, h'⟩
      · exact .inl h
      · exact .inr ⟨h, x, List.mem_cons_self, h'⟩
    · rcases ih h with h | ⟨h, y, hy, h'⟩
      · exact .inl h
      · exact .inr ⟨h, y, List.mem_cons_of_mem _ hy, h'⟩

theorem consumeOpt_error {d : CliDecl} {isDir : Str → Bool} {st : ArgSt} {s : Str} {f : Found} {rest : List Tok} {c : Nat}
    (h : consumeOpt d isDir st s f rest = .error c) : c = 2 ∨ (c = 0 ∧ ∃ o x fuel, f.action = some o ∧
      optActions d rest fuel o f.name f.sep f.expl = .ok x ∧ ∃ y ∈ x.1, y.1.action = .help) := by
  unfold consumeOpt at h
  split at h
  · cases h
  · next o ho =>
    rcases exit_bind_error.mp h with h | ⟨x, hx, h⟩
    · exact .inl (optActions_error h)
    · rcases exit_bind_error.mp h with h | ⟨ns, _, h⟩
      · rcases foldOpt_error h with h | ⟨h, h'⟩
        · exact .inl h
        · exact .inr ⟨h, o, x, _, ho, hx, h'⟩
      · cases h

/-! ### what the loop keeps -/

theorem optActions_rest {d : CliDecl} {rest : List Tok} : ∀ {fuel : Nat} {o : OptDecl} {name : Str} {sep : Bool}
    {e : Option Str} {x : List (OptDecl × List Str) × List Str × List Tok},
    optActions d rest fuel o name sep e = .ok x → x.2.2 = rest ∨ ∃ s, rest = .arg s :: x.2.2 := by
  have hnone : ∀ {fuel : Nat} {o : OptDecl} {name : Str} {sep : Bool}
      {x : List (OptDecl × List Str) × List Str × List Tok},
      optActions d rest fuel o name sep none = .ok x → x.2.2 = rest ∨ ∃ s, rest = .arg s :: x.2.2 := by
    intro fuel o name sep x h
    rw [optActions_none] at h
    split at h
    · cases rest with
      | nil => cases h
      | cons t r =>
        cases t <;> cases h
        exact .inr ⟨_, rfl⟩
    · cases h; exact .inl rfl
  intro fuel
  induction fuel with
  | zero =>
    intro o name sep e x h
    cases e with
    | none => exact hnone h
    | some e =>
      unfold optActions at h
      split at h
      · cases h; exact .inl rfl
      · split at h
        · cases h
        · cases e <;> cases h
  | succ fuel ih =>
    intro o name sep e x h
    cases e with
    | none => exact hnone h
    | some e =>
      unfold optActions at h
      split at h
      · cases h; exact .inl rfl
      · split at h
        · cases h
        · cases e with
          | nil => cases h
          | cons c e =>
            dsimp only at h
            split at h
            · cases h
            · split at h
              · cases h; exact .inl rfl
              · split at h <;>
                  (obtain ⟨y, hy, h⟩ := exit_bind_ok.mp h
                   cases h
                   have := ih hy
                   exact this)

/-- the options that follow are kept, and the strings that are not recognized -/
theorem consumeOpt_keeps {d : CliDecl} {isDir : Str → Bool} {st : ArgSt} {s : Str} {f : Found} {rest : List Tok}
    {x : ArgSt × List Tok} (h : consumeOpt d isDir st s f rest = .ok x) :
    (∀ t ∈ rest, t.isOpt = true → t ∈ x.2) ∧ x.2 <:+ rest ∧ st.extras <+: x.1.extras ∧
      (f.action = none → x.1.extras ≠ []) := by
  unfold consumeOpt at h
  split at h
  · cases h
    exact ⟨fun t ht _ => ht, List.suffix_refl _, ⟨_, rfl⟩, fun _ => by simp⟩
  · next o ho =>
    obtain ⟨y, hy, h⟩ := exit_bind_ok.mp h
    obtain ⟨ns, _, h⟩ := exit_bind_ok.mp h
    cases h
    refine ⟨fun t ht hto => ?_, ?_, ⟨_, rfl⟩, fun hn => by rw [ho] at hn; cases hn⟩
    · rcases optActions_rest hy with he | ⟨a, he⟩
      · rw [he]; exact ht
      · rw [he] at ht
        rcases List.mem_cons.mp ht with rfl | ht
        · cases hto
        · exact ht
    · rcases optActions_rest hy with he | ⟨a, he⟩
      · rw [he]; exact List.suffix_refl _
      · dsimp only; conv => rhs; rw [he]
        exact List.suffix_cons _ _

theorem dashes_keep {l : List Tok} {t : Tok} (ht : t ∈ l) (h : t.isDash = false) : t ∈ l.dropWhile Tok.isDash := by
  induction l with
  | nil => cases ht
  | cons y l ih =>
    rw [List.dropWhile_cons]
    split
    · next hy =>
      rcases List.mem_cons.mp ht with rfl | ht
      · rw [h] at hy; cases hy
      · exact ih ht
    · exact ht

theorem posMatch_keeps {opt : Bool} {ts : List Tok} {x : List Str × List Tok} (h : posMatch opt ts = some x) :
    (∀ t ∈ ts, t.isOpt = true → t ∈ x.2) ∧ x.2 <:+ ts := by
  have hk : ∀ {l : List Tok} {t : Tok}, t ∈ l → t.isOpt = true → t ∈ l.dropWhile Tok.isDash := by
    intro l t ht hto
    refine dashes_keep ht ?_
    cases t with
    | opt s f => rfl
    | arg s => rfl
    | dash => cases hto
  unfold posMatch at h
  dsimp only at h
  split at h
  · next s r hr =>
    injection h with h
    subst h
    constructor
    · intro t ht hto
      have := hk ht hto
      rw [hr] at this
      rcases List.mem_cons.mp this with rfl | this
      · cases hto
      · exact hk this hto
    · have h1 := List.dropWhile_suffix Tok.isDash (l := ts)
      rw [hr] at h1
      exact (List.dropWhile_suffix _).trans ((List.suffix_cons _ _).trans h1)
  · split at h
    · injection h with h
      subst h
      exact ⟨fun t ht hto => hk ht hto, List.dropWhile_suffix _⟩
    · cases h

theorem matchPartial_keeps (ps : List PosDecl) (ts : List Tok) :
    (∀ t ∈ ts, t.isOpt = true → t ∈ (matchPartial ps ts).2.2) ∧ (matchPartial ps ts).2.2 <:+ ts := by
  induction ps generalizing ts with
  | nil => exact ⟨fun t ht _ => ht, List.suffix_refl _⟩
  | cons p ps ih =>
    unfold matchPartial
    cases hp : posMatch p.opt ts with
    | none => exact ⟨fun t ht _ => ht, List.suffix_refl _⟩
    | some x =>
      obtain ⟨h1, h2⟩ := posMatch_keeps hp
      obtain ⟨h3, h4⟩ := ih x.2
      exact ⟨fun t ht hto => h3 t (h1 t ht hto) hto, h4.trans h2⟩

theorem opts_behind {ts : List Tok} {t : Tok} (ht : t ∈ ts) (h : t.isOpt = true) : t ∈ ts.dropWhile fun t => !t.isOpt := by
  induction ts with
  | nil => cases ht
  | cons y l ih =>
    rw [List.dropWhile_cons]
    split
    · next hy =>
      rcases List.mem_cons.mp ht with rfl | ht
      · rw [h] at hy; cases hy
      · exact ih ht
    · exact ht

/-- the option leaves strings that are not recognized, or is an error -/
def Leaves (d : CliDecl) (isDir : Str → Bool) (s : Str) (f : Found) : Prop :=
  ∀ st rest x, consumeOpt d isDir st s f rest = .ok x → x.1.extras ≠ []

theorem leaves_unknown {d : CliDecl} {isDir : Str → Bool} {s : Str} {f : Found} (h : f.action = none) : Leaves d isDir s f :=
  fun _ _ _ h1 => (consumeOpt_keeps h1).2.2.2 h

/-- strings that are not recognized stay so, and an option that is unknown is one of them -/
theorem argLoop_extras {d : CliDecl} {isDir : Str → Bool} : ∀ {n : Nat} {ts : List Tok} {st st' : ArgSt}, ts.length < n →
    argLoop d isDir n ts st = .ok st' → (st.extras ≠ [] ∨ ∃ s f, Tok.opt s f ∈ ts ∧ Leaves d isDir s f) → st'.extras ≠ [] := by
  intro n
  induction n with
  | zero => intro ts st st' h; exact absurd h (Nat.not_lt_zero _)
  | succ n ih =>
    intro ts st st' hl h hx
    have hopt : ∀ {st1 : ArgSt} {s : Str} {f : Found} {rest : List Tok}, rest.length < n →
        (consumeOpt d isDir st1 s f rest >>= fun x => argLoop d isDir n x.2 x.1) = .ok st' →
        (st1.extras ≠ [] ∨ ∃ s' f', Tok.opt s' f' ∈ Tok.opt s f :: rest ∧ Leaves d isDir s' f') → st'.extras ≠ [] := by
      intro st1 s f rest hl' h' hx'
      obtain ⟨x, h1, h2⟩ := exit_bind_ok.mp h'
      obtain ⟨k1, k2, k3, k4⟩ := consumeOpt_keeps h1
      refine ih (by have := consumeOpt_len h1; omega) h2 ?_
      rcases hx' with hx' | ⟨s', f', hm, hf⟩
      · left
        intro he
        rw [he] at k3
        exact hx' (List.prefix_nil.mp k3)
      · rcases List.mem_cons.mp hm with hm | hm
        · cases hm
          exact .inl (hf _ _ _ h1)
        · exact .inr ⟨s', f', k1 _ hm rfl, hf⟩
    cases hany : ts.any Tok.isOpt with
    | false =>
      rw [argLoop_end hany] at h
      cases h
      rcases hx with hx | ⟨s, f, hm, hf⟩
      · intro he
        exact hx (List.append_eq_nil_iff.mp he).1
      · have := List.any_eq_false.mp hany _ hm
        exact absurd rfl this
    | true =>
      cases ts with
      | nil => cases hany
      | cons t rest =>
        cases ht : t.isOpt with
        | true =>
          cases t with
          | arg s => cases ht
          | dash => cases ht
          | opt s f =>
            simp only [List.length_cons] at hl
            rw [argLoop_opt] at h
            exact hopt (by omega) h hx
        | false =>
          rw [argLoop_arg ht hany] at h
          obtain ⟨k1, k2⟩ := matchPartial_keeps st.left (t :: rest)
          have hx2 : (consumePos st (t :: rest)).1.extras ≠ [] ∨
              ∃ s f, Tok.opt s f ∈ (consumePos st (t :: rest)).2 ∧ Leaves d isDir s f := by
            rcases hx with hx | ⟨s, f, hm, hf⟩
            · exact .inl hx
            · exact .inr ⟨s, f, k1 _ hm rfl, hf⟩
          split at h
          · exact ih (by omega) h hx2
          · split at h
            · next s f r hr =>
              have hle := (List.dropWhile_sublist (fun t : Tok => !t.isOpt) (l := t :: rest)).length_le
              rw [hr] at hle
              simp only [List.length_cons] at hle hl
              refine hopt (by omega) h ?_
              rcases hx with hx | ⟨s', f', hm, hf⟩
              · left
                intro he
                exact hx (List.append_eq_nil_iff.mp he).1
              · refine .inr ⟨s', f', ?_, hf⟩
                rw [← hr]
                exact opts_behind hm rfl
            · next hr =>
              cases h
              obtain ⟨y, hy, hyo⟩ := List.any_eq_true.mp hany
              have := opts_behind hy hyo
              exfalso
              cases hdw : List.dropWhile (fun t : Tok => !t.isOpt) (t :: rest) with
              | nil => rw [hdw] at this; cases this
              | cons z zs =>
                have hz := List.head?_dropWhile_not (fun t : Tok => !t.isOpt) (t :: rest)
                rw [hdw] at hz
                cases z with
                | opt s f => exact hr _ _ _ hdw
                | arg s => simp [Tok.isOpt] at hz
                | dash => simp [Tok.isOpt] at hz

/-! ### words that are no option -/

/-- words that no option string begins with -/
theorem parse_unknown {d : CliDecl} {w : Str} (h : Unknown d w) :
    parseOptional d w = .ok (some ⟨none, w, false, none⟩) := by
  obtain ⟨c, r, rfl, hc1, hc2, hc3, hsp, h2, hp⟩ := h
  have hc2 : isDig c = false := by
    unfold isDig
    cases hx : digitVal c with
    | none => rfl
    | some k => exact absurd (digit_iff.mp hx) (hc2 k)
  have hneg : negativeNumber ('-' :: c :: r) = false := by
    have hb : beforeEnd ('-' :: c :: r) = '-' :: c :: r ∨ ∃ r', beforeEnd ('-' :: c :: r) = '-' :: c :: r' ∨
        beforeEnd ('-' :: c :: r) = ['-'] := by
      unfold beforeEnd
      split
      · next q hq =>
        have hq' : '-' :: c :: r = q.reverse ++ ['\n'] := by
          have := congrArg List.reverse hq
          rw [List.reverse_reverse, List.reverse_cons] at this
          exact this
        right
        cases hqr : q.reverse with
        | nil => rw [hqr] at hq'; cases hq'
        | cons a q' =>
          rw [hqr] at hq'
          injection hq' with h1 h3
          subst h1
          cases q' with
          | nil => exact ⟨[], .inr rfl⟩
          | cons b q'' =>
            injection h3 with h3 _
            subst h3
            exact ⟨q'', .inl rfl⟩
      · exact .inl rfl
    have hd : ∀ r' : Str, (c :: r').takeWhile isDig = [] ∧ (c :: r').dropWhile isDig = c :: r' := by
      intro r'
      rw [List.takeWhile_cons, List.dropWhile_cons, hc2]
      exact ⟨rfl, rfl⟩
    have hcase : ∀ r' : Str, beforeEnd ('-' :: c :: r) = '-' :: c :: r' → negativeNumber ('-' :: c :: r) = false := by
      intro r' he
      unfold negativeNumber
      rw [he]
      show (match List.dropWhile isDig (c :: r') with
        | [] => !(List.takeWhile isDig (c :: r')).isEmpty
        | '.' :: f => !f.isEmpty && f.all isDig
        | _ => false) = false
      rw [(hd r').1, (hd r').2]
      split
      · next hx => cases hx
      · next hx => injection hx with hx _; exact absurd hx hc3
      · rfl
    rcases hb with hb | ⟨r', hb | hb⟩
    · exact hcase r hb
    · exact hcase r' hb
    · unfold negativeNumber
      rw [hb]
      rfl
  rw [parse_foreign ⟨c, r, rfl, h2, hp⟩, hneg, if_neg (by decide), if_neg hsp]

theorem classify_mem {d : CliDecl} {w : Str} {f : Found} (h : parseOptional d w = .ok (some f)) (hw : w ≠ py! "--")
    (after : List Str) : ∀ (before : List Str), py! "--" ∉ before → ∀ {ts : List Tok},
      classify d (before ++ w :: after) = .ok ts → Tok.opt w f ∈ ts := by
  intro before
  induction before with
  | nil =>
    intro _ ts hts
    rw [List.nil_append, classify_found h hw] at hts
    cases hc : classify d after with
    | error e => rw [hc] at hts; cases hts
    | ok us =>
      rw [hc] at hts
      cases hts
      exact List.mem_cons_self
  | cons b before ih =>
    intro hb ts hts
    rw [List.mem_cons, not_or] at hb
    rw [List.cons_append, classify, if_neg (Ne.symm hb.1)] at hts
    obtain ⟨t, _, hts⟩ := exit_bind_ok.mp hts
    obtain ⟨us, hus, hts⟩ := exit_bind_ok.mp hts
    have hm := ih hb.2 hus
    cases t with
    | none => cases hts; exact List.mem_cons_of_mem _ hm
    | some f' => cases hts; exact List.mem_cons_of_mem _ hm

theorem unknown_dash {d : CliDecl} {w : Str} (h : Unknown d w) : w ≠ py! "--" := by
  obtain ⟨c, r, rfl, hc1, _⟩ := h
  intro he
  injection he with _ he
  injection he with he hr
  exact hc1 he hr

/-- flags, and a letter that is none -/
theorem letters_leave {d : CliDecl} (hd : Orderly d) {rest : List Tok} {c : Char} (hc : ['-', c] ∉ optionNames d) (e : Str) :
    ∀ (fl : Str), (∀ x ∈ fl, ∃ o ∈ d.opts, ['-', x] ∈ o.names ∧ o.action = .storeTrue) →
      ∀ {fuel : Nat} {o : OptDecl} {x : Char} {y : List (OptDecl × List Str) × List Str × List Tok}, o.takes = false → x ≠ '-' →
        optActions d rest fuel o ['-', x] (explOf (fl ++ c :: e)).1 (explOf (fl ++ c :: e)).2 = .ok y → y.2.1 ≠ [] := by
  have hname : ∀ {x : Char}, x ≠ '-' → startsWith (py! "--") ['-', x] = false := by
    intro x hx
    rw [Bool.eq_false_iff]
    intro hs
    obtain ⟨t, ht⟩ := (pre_iff _ _).mp hs
    injection ht with _ ht
    injection ht with ht _
    exact hx ht.symm
  intro fl
  induction fl with
  | nil =>
    intro _ fuel o x y ho hx h
    rw [List.nil_append] at h
    by_cases hce : c = '='
    · subst hce
      have : explOf ('=' :: e) = (true, some e) := rfl
      rw [this] at h
      unfold optActions at h
      dsimp only at h
      rw [ho, hname hx] at h
      cases e with
      | nil => cases h
      | cons z e => cases fuel <;> cases h
    · have : explOf (c :: e) = (false, some (c :: e)) := by
        unfold explOf
        split
        · rename_i hh; cases hh
        · rename_i hh; injection hh with hh _; exact absurd hh hce
        · rfl
      rw [this] at h
      unfold optActions at h
      dsimp only at h
      rw [ho, hname hx] at h
      cases fuel with
      | zero => cases h
      | succ fuel =>
        dsimp only at h
        rw [if_neg (by decide), if_neg (by decide)] at h
        split at h
        · cases h
        · rw [table_none hc] at h
          cases h
          intro hh
          cases hh
  | cons z fl ih =>
    intro hfl fuel o x y ho hx h
    obtain ⟨o', ho', hz, ha⟩ := hfl z (List.mem_cons_self ..)
    have hletter : AsciiLetter z := by
      obtain ⟨c', r, h1, h2⟩ := shape_cases hd (names_mem ho' hz)
      injection h1 with _ h1
      injection h1 with h1 h3
      subst h1
      rcases h2 with h2 | ⟨_, h2⟩
      · exact h2
      · exact absurd h3.symm h2
    obtain ⟨n1, n2, _⟩ := letter_ne hletter
    have : explOf (z :: fl ++ c :: e) = (false, some (z :: (fl ++ c :: e))) := by
      rw [List.cons_append]
      unfold explOf
      split
      · rename_i hh; cases hh
      · rename_i hh; injection hh with hh _; subst hh; simp at n1 n2
      · rfl
    rw [this] at h
    cases fuel with
    | zero =>
      unfold optActions at h
      dsimp only at h
      rw [ho, hname hx] at h
      cases h
    | succ fuel =>
      rw [optActions_more ho hx (by first | exact n1 | exact n2) (table_get hd (.inr ho') hz)] at h
      cases hr : optActions d rest fuel o' ['-', z] (explOf (fl ++ c :: e)).1 (explOf (fl ++ c :: e)).2 with
      | error e => rw [hr] at h; cases h
      | ok y' =>
        rw [hr] at h
        cases h
        exact ih (fun x hx => hfl x (List.mem_cons_of_mem _ hx)) (y := y') (takes_flag ha) (by first | exact n1 | exact n2) hr

/-! ### too many file names -/

theorem consumePos_none {st : ArgSt} (h : st.left = []) (ts : List Tok) : consumePos st ts = (st, ts) := by
  unfold consumePos
  rw [h]
  cases st
  subst h
  rfl

/-- no argument left: the file names are not recognized -/
theorem files_left {d : CliDecl} {isDir : Str → Bool} {st : ArgSt} (h : st.left = []) {gs : List Str} {r : List Tok}
    (hr : StopsHere r) (hne : r ≠ []) :
    argRun d isDir (gs.map Tok.arg ++ r) st = argRun d isDir r { st with extras := st.extras ++ gs } := by
  cases gs with
  | nil => rw [List.append_nil]; rfl
  | cons g gs =>
    obtain ⟨t, r, rfl⟩ := List.exists_cons_of_ne_nil hne
    have ht := hr t rfl
    cases t with
    | arg s => cases ht
    | dash => cases ht
    | opt s f =>
      have hdrop : ∀ gs : List Str, (gs.map Tok.arg ++ .opt s f :: r).dropWhile (fun t => !t.isOpt) = .opt s f :: r ∧
          ((gs.map Tok.arg ++ .opt s f :: r).takeWhile fun t => !t.isOpt).map Tok.text = gs := by
        intro gs
        induction gs with
        | nil => exact ⟨rfl, rfl⟩
        | cons g gs ih =>
          refine ⟨ih.1, ?_⟩
          exact congrArg (g :: ·) ih.2
      unfold argRun
      rw [show (g :: gs).map Tok.arg ++ .opt s f :: r = .arg g :: (gs.map Tok.arg ++ .opt s f :: r) from rfl,
        argLoop_arg rfl (by simp [Tok.isOpt]), consumePos_none h, if_neg (Nat.lt_irrefl _)]
      rw [show Tok.arg g :: (gs.map Tok.arg ++ .opt s f :: r) = (g :: gs).map Tok.arg ++ .opt s f :: r from rfl,
        (hdrop (g :: gs)).1, (hdrop (g :: gs)).2]
      dsimp only
      have := argRun_opt (d := d) (isDir := isDir) (s := s) (f := f) (rest := r) (st := { st with extras := st.extras ++ g :: gs })
      unfold argRun at this
      rw [this]
      cases hc : consumeOpt d isDir { st with extras := st.extras ++ g :: gs } s f r with
      | error e => rfl
      | ok x =>
        have hlen := consumeOpt_len hc
        rw [exit_bind, exit_bind]
        refine argLoop_fuel ?_ (by omega)
        simp only [List.length_cons, List.length_append, List.length_map]
        omega

/-- file names, as many as arguments, and more behind them -/
theorem match_full {ps : List PosDecl} {fs : List Str} (hl : fs.length = ps.length) (hf : ∀ f ∈ fs, f ≠ py! "--")
    {gs : List Str} {r : List Tok} (h : StopsHere r) :
    (matchPartial ps (fs.map Tok.arg ++ (gs.map Tok.arg ++ r))).2 = ([], gs.map Tok.arg ++ r) ∧
      ∀ ns, (matchPartial ps (fs.map Tok.arg ++ (gs.map Tok.arg ++ r))).1.foldl takePos ns = setPos ps fs ns := by
  induction fs generalizing ps with
  | nil =>
    cases ps with
    | nil => exact ⟨rfl, fun _ => rfl⟩
    | cons p ps => cases hl
  | cons f fs ih =>
    cases ps with
    | nil => cases hl
    | cons p ps =>
      obtain ⟨h1, h2⟩ := ih (Nat.succ.inj hl) fun x hx => hf x (List.mem_cons_of_mem _ hx)
      have hm := posMatch_arg (opt := p.opt) (f := f) (fs := fs ++ gs) h
      rw [show (f :: (fs ++ gs)).map Tok.arg ++ r = (f :: fs).map Tok.arg ++ (gs.map Tok.arg ++ r) by simp,
        show (fs ++ gs).map Tok.arg ++ r = fs.map Tok.arg ++ (gs.map Tok.arg ++ r) by simp] at hm
      unfold matchPartial
      rw [hm]
      refine ⟨h1, fun ns => ?_⟩
      dsimp only
      rw [List.foldl_cons, takePos_one (hf f List.mem_cons_self)]
      exact h2 _

theorem matchPartial_required {ps : List PosDecl} (h : ∃ p ∈ ps, p.opt = false) :
    ∃ p ∈ (matchPartial ps []).2.1, p.opt = false := by
  induction ps with
  | nil => obtain ⟨p, hp, _⟩ := h; cases hp
  | cons p ps ih =>
    unfold matchPartial
    rw [posMatch_stop (by intro t ht; cases ht)]
    cases ho : p.opt with
    | false => exact ⟨p, List.mem_cons_self, ho⟩
    | true =>
      rw [if_pos rfl]
      obtain ⟨q, hq, hqo⟩ := h
      rcases List.mem_cons.mp hq with rfl | hq
      · rw [ho] at hqo; cases hqo
      · exact ih ⟨q, hq, hqo⟩

/-! ### the help -/

theorem optActions_help {d : CliDecl} (hh : ∀ o ∈ d.opts, o.action ≠ .help) {rest : List Tok} :
    ∀ {fuel : Nat} {o : OptDecl} {name : Str} {sep : Bool}
    {e : Option Str} {x : List (OptDecl × List Str) × List Str × List Tok},
    optActions d rest fuel o name sep e = .ok x → (∃ y ∈ x.1, y.1.action = .help) →
      o.action = .help ∨ ∃ s, e = some s ∧ 'h' ∈ s := by
  have hnone : ∀ {fuel : Nat} {o : OptDecl} {name : Str} {sep : Bool}
      {x : List (OptDecl × List Str) × List Str × List Tok},
      optActions d rest fuel o name sep none = .ok x → (∃ y ∈ x.1, y.1.action = .help) → o.action = .help := by
    intro fuel o name sep x h hy
    obtain ⟨y, hy, hya⟩ := hy
    rw [optActions_none] at h
    split at h
    · cases rest with
      | nil => cases h
      | cons t r =>
        cases t <;> cases h
        rw [List.mem_singleton.mp hy] at hya
        exact hya
    · cases h
      rw [List.mem_singleton.mp hy] at hya
      exact hya
  intro fuel
  induction fuel with
  | zero =>
    intro o name sep e x h hy
    cases e with
    | none => exact .inl (hnone h hy)
    | some e =>
      obtain ⟨y, hy, hya⟩ := hy
      unfold optActions at h
      split at h
      · cases h
        rw [List.mem_singleton.mp hy] at hya
        exact .inl hya
      · split at h
        · cases h
        · cases e <;> cases h
  | succ fuel ih =>
    intro o name sep e x h hy
    cases e with
    | none => exact .inl (hnone h hy)
    | some e =>
      obtain ⟨y, hy, hya⟩ := hy
      unfold optActions at h
      split at h
      · cases h
        rw [List.mem_singleton.mp hy] at hya
        exact .inl hya
      · split at h
        · cases h
        · cases e with
          | nil => cases h
          | cons c e =>
            dsimp only at h
            split at h
            · cases h
            · split at h
              · cases h
                rw [List.mem_singleton.mp hy] at hya
                exact .inl hya
              · next o' ho' =>
                have hc : o'.action = .help → 'h' ∈ c :: e := by
                  intro ha
                  have := table_mem.mp (Dict.mem_of_get? _ _ _ ho')
                  rcases this with ⟨rfl | hm, hn⟩
                  · have : c = 'h' := by
                      unfold helpOpt at hn
                      simp at hn
                      exact hn
                    rw [this]
                    exact List.mem_cons_self
                  · exact absurd ha (hh _ hm)
                have key : ∀ {sep' : Bool} {e' : Option Str} {z : List (OptDecl × List Str) × List Str × List Tok},
                    optActions d rest fuel o' ['-', c] sep' e' = .ok z → (∀ s, e' = some s → ∀ a ∈ s, a ∈ e) →
                    x = ((o, []) :: z.1, z.2) → o.action = .help ∨ ∃ s, some (c :: e) = some s ∧ 'h' ∈ s := by
                  intro sep' e' z hz hs hx
                  subst hx
                  rcases List.mem_cons.mp hy with rfl | hy
                  · exact .inl hya
                  · rcases ih hz ⟨y, hy, hya⟩ with ha | ⟨s, he, hs'⟩
                    · exact .inr ⟨_, rfl, hc ha⟩
                    · exact .inr ⟨_, rfl, List.mem_cons_of_mem _ (hs s he _ hs')⟩
                split at h
                · obtain ⟨z, hz, h⟩ := exit_bind_ok.mp h
                  cases h
                  exact key hz (by intro s hs; cases hs) rfl
                · obtain ⟨z, hz, h⟩ := exit_bind_ok.mp h
                  cases h
                  exact key hz (by intro s hs a ha; cases hs; exact List.mem_cons_of_mem _ ha) rfl
                · obtain ⟨z, hz, h⟩ := exit_bind_ok.mp h
                  cases h
                  exact key hz (by intro s hs a ha; cases hs; exact ha) rfl

/-- the action of the help is found for a word that may ask for it; an explicit argument is part of the word -/
theorem parse_help {d : CliDecl} (hh : ∀ o ∈ d.opts, o.action ≠ .help) {w : Str} {f : Found}
    (h : parseOptional d w = .ok (some f)) (hw : w ≠ py! "--") :
    w.head? = some '-' ∧ (∀ o, f.action = some o → o.action = .help → MayHelp w) ∧ (∀ e, f.expl = some e → ∀ a ∈ e, a ∈ w) := by
  have hname : ∀ {n : Str} {o : OptDecl}, (n, o) ∈ d.table → o.action = .help → n = py! "-h" ∨ n = py! "--help" := by
    intro n o hm ha
    rcases table_mem.mp hm with ⟨rfl | ho, hn⟩
    · simpa [helpOpt] using hn
    · exact absurd ha (hh o ho)
  have hdrop : ∀ a ∈ (partitionEq w).2.2, a ∈ w := fun a ha =>
    (List.dropWhile_sublist _).subset (List.mem_of_mem_drop ha)
  unfold parseOptional at h
  split at h
  · cases h
  · split at h
    · cases h
    · next hst =>
      have hst : startsWith (py! "-") w = true := by simpa using hst
      obtain ⟨t, ht⟩ := (pre_iff _ _).mp hst
      have hhd : w.head? = some '-' := by rw [← ht]; rfl
      refine ⟨hhd, ?_⟩
      split at h
      · next o ho =>
        cases h
        refine ⟨fun o' ho' ha => ⟨hhd, .inl ?_⟩, fun e he => by cases he⟩
        cases ho'
        rcases hname (Dict.mem_of_get? _ _ _ ho) ha with rfl | rfl <;> decide
      · split at h
        · cases h
        · next hlen =>
          dsimp only at h
          split at h
          · next o ho =>
            cases h
            have ho : d.table.get? (partitionEq w).1 = some o := by
              split at ho
              · exact ho
              · cases ho
            refine ⟨fun o' ho' ha => ⟨hhd, .inl ?_⟩, fun e he => ?_⟩
            · cases ho'
              have hsub : ∀ a ∈ (partitionEq w).1, a ∈ w := fun a ha => (List.takeWhile_sublist _).subset ha
              rcases hname (Dict.mem_of_get? _ _ _ ho) ha with hn | hn
              · exact hsub _ (by rw [hn]; decide)
              · exact hsub _ (by rw [hn]; decide)
            · cases he
              exact hdrop
          · split at h
            · cases h
            · next f' hf' =>
              cases h
              have hmem : f ∈ optionTuples d w := by rw [hf']; exact List.mem_cons_self
              unfold optionTuples at hmem
              split at hmem
              · next h2 =>
                dsimp only at hmem
                obtain ⟨m, hm, he⟩ := List.mem_filterMap.mp hmem
                split at he
                · next hp =>
                  cases he
                  constructor
                  · intro o ho ha
                    cases ho
                    refine ⟨hhd, ?_⟩
                    obtain ⟨u, hu⟩ := (pre_iff _ _).mp h2
                    have hp := (pre_iff _ _).mp hp
                    cases u with
                    | nil => exact absurd hu.symm hw
                    | cons x u =>
                      by_cases hx : x = '='
                      · subst hx
                        right
                        exact ⟨u, hu⟩
                      · left
                        have hpre : py! "--" ++ [x] <+: (partitionEq w).1 := by
                          unfold partitionEq
                          rw [← hu]
                          refine ⟨u.takeWhile fun c => decide (c ≠ '='), ?_⟩
                          simp [hx]
                        have hx : x = 'h' := by
                          have := hpre.trans hp
                          rcases hname hm ha with hn | hn
                          · rw [hn] at this
                            obtain ⟨v, hv⟩ := this
                            cases hv
                          · rw [hn] at this
                            obtain ⟨v, hv⟩ := this
                            injection hv with _ hv
                            injection hv with _ hv
                            injection hv
                        rw [← hu, hx]
                        simp
                  · intro e he
                    dsimp only at he
                    split at he
                    · cases he
                      exact hdrop
                    · cases he
                · cases he
              · next h2 =>
                obtain ⟨m, hm, he⟩ := List.mem_filterMap.mp hmem
                split at he
                · next hp =>
                  cases he
                  refine ⟨fun o ho ha => ⟨hhd, .inl ?_⟩, fun e he => ?_⟩
                  · cases ho
                    refine List.mem_of_mem_take (i := 2) ?_
                    rw [← hp]
                    rcases hname hm ha with hn | hn <;> (rw [hn]; decide)
                  · cases he
                    intro a ha
                    exact List.mem_of_mem_drop ha
                · split at he
                  · next hnt hp =>
                    cases he
                    refine ⟨fun o ho ha => ⟨hhd, .inl ?_⟩, fun e he => by cases he⟩
                    cases ho
                    have hp := (pre_iff _ _).mp hp
                    rw [← ht] at hp h2 hlen
                    cases t with
                    | nil => exact absurd rfl hlen
                    | cons x t =>
                      rw [← ht]
                      rcases hname hm ha with hn | hn
                      · rw [hn] at hp
                        obtain ⟨v, hv⟩ := hp
                        injection hv with _ hv
                        injection hv with hv _
                        rw [hv]
                        simp
                      · rw [hn] at hp
                        obtain ⟨v, hv⟩ := hp
                        injection hv with _ hv
                        injection hv with hv _
                        exfalso
                        refine h2 ((pre_iff _ _).mpr ⟨t, ?_⟩)
                        rw [hv]
                        rfl
                  · cases he
            · split at h
              · cases h
              · split at h
                · cases h
                · cases h
                  exact ⟨fun o ho => (by cases ho), fun e he => (by cases he)⟩

/-- every option among the strings is a word of the line -/
theorem classify_opts {d : CliDecl} {ws : List Str} {ts : List Tok} (h : classify d ws = .ok ts) {s : Str} {f : Found}
    (hm : Tok.opt s f ∈ ts) : s ∈ ws ∧ s ≠ py! "--" ∧ parseOptional d s = .ok (some f) := by
  induction ws generalizing ts with
  | nil => cases h; cases hm
  | cons w ws ih =>
    rw [classify] at h
    split at h
    · cases h
      rcases List.mem_cons.mp hm with hm | hm
      · cases hm
      · obtain ⟨x, _, hx⟩ := List.mem_map.mp hm
        cases hx
    · next hw =>
      obtain ⟨t, ht, h⟩ := exit_bind_ok.mp h
      obtain ⟨us, hus, h⟩ := exit_bind_ok.mp h
      cases t with
      | none =>
        cases h
        rcases List.mem_cons.mp hm with hm | hm
        · cases hm
        · obtain ⟨h1, h2⟩ := ih hus hm
          exact ⟨List.mem_cons_of_mem _ h1, h2⟩
      | some f' =>
        cases h
        rcases List.mem_cons.mp hm with hm | hm
        · cases hm
          exact ⟨List.mem_cons_self, hw, ht⟩
        · obtain ⟨h1, h2⟩ := ih hus hm
          exact ⟨List.mem_cons_of_mem _ h1, h2⟩

/-- an error of the loop is an error of an option in it -/
theorem argLoop_error {d : CliDecl} {isDir : Str → Bool} : ∀ {n : Nat} {ts : List Tok} {st : ArgSt} {c : Nat},
    argLoop d isDir n ts st = .error c →
    ∃ st' s f rest, Tok.opt s f ∈ ts ∧ consumeOpt d isDir st' s f rest = .error c := by
  intro n
  induction n with
  | zero => intro ts st c h; cases h
  | succ n ih =>
    intro ts st c h
    have hopt : ∀ {st1 : ArgSt} {s : Str} {f : Found} {rest : List Tok},
        (consumeOpt d isDir st1 s f rest >>= fun x => argLoop d isDir n x.2 x.1) = .error c →
        ∃ st' s' f' rest', Tok.opt s' f' ∈ Tok.opt s f :: rest ∧ consumeOpt d isDir st' s' f' rest' = .error c := by
      intro st1 s f rest h'
      rcases exit_bind_error.mp h' with h' | ⟨x, h1, h2⟩
      · exact ⟨_, _, _, _, List.mem_cons_self, h'⟩
      · obtain ⟨_, k2, _⟩ := consumeOpt_keeps h1
        obtain ⟨st', s', f', rest', hm, he⟩ := ih h2
        exact ⟨st', s', f', rest', List.mem_cons_of_mem _ (k2.subset hm), he⟩
    cases hany : ts.any Tok.isOpt with
    | false => rw [argLoop_end hany] at h; cases h
    | true =>
      cases ts with
      | nil => cases hany
      | cons t rest =>
        cases ht : t.isOpt with
        | true =>
          cases t with
          | arg s => cases ht
          | dash => cases ht
          | opt s f =>
            rw [argLoop_opt] at h
            exact hopt h
        | false =>
          rw [argLoop_arg ht hany] at h
          obtain ⟨_, k2⟩ := matchPartial_keeps st.left (t :: rest)
          split at h
          · obtain ⟨st', s', f', rest', hm, he⟩ := ih h
            exact ⟨st', s', f', rest', k2.subset hm, he⟩
          · split at h
            · next s f r hr =>
              obtain ⟨st', s', f', rest', hm, he⟩ := hopt h
              refine ⟨st', s', f', rest', ?_, he⟩
              rw [← hr] at hm
              exact (List.dropWhile_sublist _).subset hm
            · cases h

end PyULog
