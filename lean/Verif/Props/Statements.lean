import Verif.Spec.Statements
import Verif.Model.Migrate
/-
C43: the tokenizer finds the statements of every script.
-/
namespace PyULog
open Spec

theorem split_quote {q : Char} {b : Str} (h : q ∉ b) (acc rest : Str) :
    splitStmts (.quote q) acc (b ++ q :: rest) = splitStmts .normal (q :: (b.reverse ++ acc)) rest := by
  induction b generalizing acc with
  | nil => rw [List.nil_append, splitStmts, lexStep, if_pos rfl]; rfl
  | cons c b ih =>
    rw [List.mem_cons, not_or] at h
    rw [List.cons_append, splitStmts, lexStep, if_neg (Ne.symm h.1)]
    dsimp only
    rw [ih h.2]
    simp

theorem split_bracket {b : Str} (h : ']' ∉ b) (acc rest : Str) :
    splitStmts .bracket acc (b ++ ']' :: rest) = splitStmts .normal (']' :: (b.reverse ++ acc)) rest := by
  induction b generalizing acc with
  | nil => rfl
  | cons c b ih =>
    rw [List.mem_cons, not_or] at h
    rw [List.cons_append, splitStmts, lexStep, if_neg (Ne.symm h.1)]
    dsimp only
    rw [ih h.2]
    simp

theorem split_line {b : Str} (h : '\n' ∉ b) (acc rest : Str) :
    splitStmts .line acc (b ++ '\n' :: rest) = splitStmts .normal acc rest := by
  induction b with
  | nil => rfl
  | cons c b ih =>
    rw [List.mem_cons, not_or] at h
    rw [List.cons_append, splitStmts, lexStep, if_neg (Ne.symm h.1)]
    dsimp only
    exact ih h.2

theorem split_block {b : Str} (h : ¬ ['*', '/'] <:+: b ++ ['*']) (acc rest : Str) :
    splitStmts .block acc (b ++ '*' :: '/' :: rest) = splitStmts .normal acc rest ∧
      (b.head? ≠ some '/' → splitStmts .star acc (b ++ '*' :: '/' :: rest) = splitStmts .normal acc rest) := by
  induction b with
  | nil => exact ⟨rfl, fun _ => rfl⟩
  | cons c b ih =>
    have hb : ¬ ['*', '/'] <:+: b ++ ['*'] := fun hi => h (hi.trans (List.suffix_cons c (b ++ ['*'])).isInfix)
    obtain ⟨i1, i2⟩ := ih hb
    have hstar : c = '*' → splitStmts .star acc (b ++ '*' :: '/' :: rest) = splitStmts .normal acc rest := by
      intro hc
      refine i2 ?_
      intro hh
      cases b with
      | nil => cases hh
      | cons x b =>
        injection hh with hh
        subst hh
        subst hc
        exact h ⟨[], b ++ ['*'], by simp⟩
    constructor
    · rw [List.cons_append, splitStmts, lexStep]
      by_cases hc : c = '*'
      · rw [if_pos hc]; exact hstar hc
      · rw [if_neg hc]; exact i1
    · intro hh
      have hs : c ≠ '/' := fun he => hh (by rw [he]; rfl)
      rw [List.cons_append, splitStmts, lexStep, if_neg hs]
      by_cases hc : c = '*'
      · rw [if_pos hc]; exact hstar hc
      · rw [if_neg hc]; exact i1

/-- a dash or a slash that begins no comment -/
theorem split_dash {rest : Str} (h : rest.head? ≠ some '-') (acc : Str) :
    splitStmts .dash acc rest = splitStmts .normal ('-' :: acc) rest := by
  cases rest with
  | nil => rfl
  | cons c r =>
    have hc : c ≠ '-' := fun he => h (by rw [he]; rfl)
    have : lexStep .dash acc c = lexStep .normal ('-' :: acc) c := if_neg hc
    rw [splitStmts, splitStmts, this]

theorem split_slash {rest : Str} (h : rest.head? ≠ some '*') (acc : Str) :
    splitStmts .slash acc rest = splitStmts .normal ('/' :: acc) rest := by
  cases rest with
  | nil => rfl
  | cons c r =>
    have hc : c ≠ '*' := fun he => h (by rw [he]; rfl)
    have : lexStep .slash acc c = lexStep .normal ('/' :: acc) c := if_neg hc
    rw [splitStmts, splitStmts, this]

/-- the texts of the first statement are appended -/
def joined (acc : Str) : List Str → List Str
  | [] => [acc]
  | s :: l => (acc ++ s) :: l

theorem statements_cons {p : Piece} (h : p ≠ .semicolon) (ps : List Piece) :
    statementsOf (p :: ps) = joined p.text (statementsOf ps) := by
  cases p with
  | semicolon => exact absurd rfl h
  | char c => simp only [statementsOf]; cases statementsOf ps <;> rfl
  | quoted q b => simp only [statementsOf]; cases statementsOf ps <;> rfl
  | bracketed b => simp only [statementsOf]; cases statementsOf ps <;> rfl
  | line b => simp only [statementsOf]; cases statementsOf ps <;> rfl
  | block b => simp only [statementsOf]; cases statementsOf ps <;> rfl

theorem joined_joined (a b : Str) {l : List Str} : joined a (joined b l) = joined (a ++ b) l := by
  cases l <;> simp [joined]

theorem statements_ne (ps : List Piece) : statementsOf ps ≠ [] := by
  cases ps with
  | nil => exact nofun
  | cons p ps =>
    by_cases hp : p = .semicolon
    · subst hp; exact nofun
    · rw [statements_cons hp]
      cases statementsOf ps <;> exact nofun

theorem split_pieces {ps : List Piece} (h : PiecesOk ps) (acc : Str) :
    splitStmts .normal acc (scriptOf ps) = joined acc.reverse (statementsOf ps) := by
  induction ps generalizing acc with
  | nil => simp [scriptOf, splitStmts, statementsOf, joined]
  | cons p ps ih =>
    obtain ⟨hp, hps⟩ := h
    have hsrc : scriptOf (p :: ps) = p.source ++ scriptOf ps := by simp [scriptOf]
    rw [hsrc]
    cases p with
    | semicolon =>
      show splitStmts .normal acc (';' :: scriptOf ps) = _
      rw [splitStmts, lexStep, lexNormal, if_pos rfl]
      dsimp only
      rw [ih hps]
      simp only [statementsOf, joined, List.append_nil, List.reverse_nil]
      cases hs : statementsOf ps with
      | nil => exact absurd hs (statements_ne ps)
      | cons s l => simp
    | char c =>
      obtain ⟨h1, h2, h3, h4, h5, h6, h7⟩ := hp
      rw [statements_cons (by simp), joined_joined]
      show splitStmts .normal acc (c :: scriptOf ps) = _
      have hcase : splitStmts .normal acc (c :: scriptOf ps) = splitStmts .normal (c :: acc) (scriptOf ps) := by
        rw [splitStmts, lexStep, lexNormal, if_neg h1, if_neg (by simp [h2, h3, h4]), if_neg h5]
        by_cases hd : c = '-'
        · rw [if_pos hd]
          dsimp only
          rw [split_dash (h6 hd), hd]
        · rw [if_neg hd]
          by_cases hs : c = '/'
          · rw [if_pos hs]
            dsimp only
            rw [split_slash (h7 hs), hs]
          · rw [if_neg hs]
      rw [hcase, ih hps]
      simp [Piece.text]
    | quoted q b =>
      obtain ⟨h1, h2⟩ := hp
      rw [statements_cons (by simp), joined_joined]
      have : (Piece.quoted q b).source ++ scriptOf ps = q :: (b ++ q :: scriptOf ps) := by simp [Piece.source]
      rw [this, splitStmts, lexStep, lexNormal, if_neg (by rcases h1 with rfl | rfl | rfl <;> decide), if_pos h1]
      dsimp only
      rw [split_quote h2, ih hps]
      simp [Piece.text]
    | bracketed b =>
      rw [statements_cons (by simp), joined_joined]
      have : (Piece.bracketed b).source ++ scriptOf ps = '[' :: (b ++ ']' :: scriptOf ps) := by simp [Piece.source]
      rw [this, splitStmts, lexStep, lexNormal, if_neg (by decide), if_neg (by decide), if_pos rfl]
      dsimp only
      rw [split_bracket hp, ih hps]
      simp [Piece.text]
    | line b =>
      rw [statements_cons (by simp), joined_joined]
      have : (Piece.line b).source ++ scriptOf ps = '-' :: '-' :: (b ++ '\n' :: scriptOf ps) := by simp [Piece.source]
      rw [this, splitStmts, lexStep, lexNormal, if_neg (by decide), if_neg (by decide), if_neg (by decide), if_pos rfl]
      dsimp only
      rw [splitStmts, lexStep, if_pos rfl]
      dsimp only
      rw [split_line hp, ih hps]
      simp [Piece.text]
    | block b =>
      rw [statements_cons (by simp), joined_joined]
      have : (Piece.block b).source ++ scriptOf ps = '/' :: '*' :: (b ++ '*' :: '/' :: scriptOf ps) := by simp [Piece.source]
      rw [this, splitStmts, lexStep, lexNormal, if_neg (by decide), if_neg (by decide), if_neg (by decide), if_neg (by decide),
        if_pos rfl]
      dsimp only
      rw [splitStmts, lexStep, if_pos rfl]
      dsimp only
      rw [(split_block hp _ _).1, ih hps]
      simp [Piece.text]

/-- **C43.** The statements that a script executes are the texts between its semicolons; a semicolon in quotes, in
brackets or in a comment separates nothing. -/
theorem C43_statements {ps : List Piece} (h : PiecesOk ps) : splitStmts .normal [] (scriptOf ps) = statementsOf ps := by
  rw [split_pieces h]
  cases hs : statementsOf ps with
  | nil => exact absurd hs (statements_ne ps)
  | cons s l => rfl

/-- non-vacuity: `A';'[;]-- ;⏎;B/*;*/;` has two statements and a blank one -/
example : splitStmts .normal [] (py! "A';'[;]-- ;\n;B-/*;*/;") = [py! "A';'[;] ", py! "B- ", []] := by
  have := C43_statements (ps := [.char 'A', .quoted '\'' [';'], .bracketed [';'], .line (py! " ;"), .semicolon, .char 'B', .char '-',
    .block [';'], .semicolon]) (by simp [PiecesOk, Piece.Ok, scriptOf, Piece.source]; decide)
  exact this

end PyULog
