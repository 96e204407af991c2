import Verif.Lemmas.Migrate
import Verif.Model.SqlAst
/-
The shipped scripts: each is one transaction, and its statements are those of `Model/SqlAst.lean`.
-/
namespace PyULog
open Spec

instance (c : Char) : Decidable (plainC c) := by unfold plainC; infer_instance

theorem lexRun_stmt (acc s rest : Str) (h : ∀ c ∈ s, plainC c) :
    lexRun .normal acc (s ++ ';' :: rest) =
      (let r := lexRun .normal [] rest
       (r.1, r.2.1, (acc.reverse ++ s) :: r.2.2)) := by
  rw [lexRun_append, lexRun_plain acc s h]
  simp [lexRun, lexStep, lexNormal]

/-- the statements of a script text: all but the first begin with a line break -/
theorem lexRun_script (ss : List Str) (h : ∀ s ∈ ss, ∀ c ∈ s, plainC c) :
    lexRun .normal ['\n'] (scriptText ss) = (.normal, ['\n'], ss.map ('\n' :: ·)) := by
  induction ss with
  | nil => rfl
  | cons s ss ih =>
    have e : scriptText (s :: ss) = s ++ ';' :: ('\n' :: scriptText ss) := by
      simp [scriptText]
    have e2 : lexRun .normal [] ('\n' :: scriptText ss) = lexRun .normal ['\n'] (scriptText ss) := rfl
    rw [e, lexRun_stmt _ _ _ (h s (by simp)), e2, ih (fun s hs => h s (by simp [hs]))]
    rfl

/-- a text made of `BEGIN`, ordinary statements and `COMMIT` is one transaction -/
theorem one_scriptText (body : List Str) (hp : ∀ s ∈ body, ∀ c ∈ s, plainC c)
    (ho : ∀ s ∈ body, stmtKind ('\n' :: s) = .other) :
    OneTransaction (scriptText ([py! "BEGIN"] ++ body ++ [py! "COMMIT"])) (body.map ('\n' :: ·)) := by
  have hl : lexRun .normal [] (scriptText ([py! "BEGIN"] ++ body ++ [py! "COMMIT"]))
      = (.normal, ['\n'], py! "BEGIN" :: body.map ('\n' :: ·) ++ [py! "\nCOMMIT"]) := by
    have e : scriptText ([py! "BEGIN"] ++ body ++ [py! "COMMIT"])
        = py! "BEGIN" ++ ';' :: ('\n' :: scriptText (body ++ [py! "COMMIT"])) := by
      simp [scriptText]
    have e2 : ∀ t, lexRun .normal [] ('\n' :: t) = lexRun .normal ['\n'] t := fun _ => rfl
    rw [e, lexRun_stmt _ _ _ (by decide), e2, lexRun_script]
    · simp
    · intro s hs
      rcases List.mem_append.mp hs with hs | hs
      · exact hp s hs
      · rw [List.mem_singleton.mp hs]; decide
  refine ⟨⟨⟨[], '\n' :: scriptText (body ++ [py! "COMMIT"]), by simp [scriptText], by simp [BlankText]⟩,
    ⟨scriptText ([py! "BEGIN"] ++ body), ['\n'], by simp [scriptText], ?_⟩⟩, ?_, ?_, ?_, ?_⟩
  · intro c hc; rw [List.mem_singleton.mp hc]; decide
  · rw [hl]; exact Or.inl rfl
  · rw [hl]; intro c hc; rw [List.mem_singleton.mp hc]; decide
  · rw [hl]; exact ⟨_, _, rfl, rfl, rfl⟩
  · intro s hs
    obtain ⟨a, ha, rfl⟩ := List.mem_map.mp hs
    exact Or.inl (ho a ha)

/-- statements of the shipped scripts -/
def shippedAst : Nat → List SqlStmt
  | 1 => ast1
  | 2 => ast2
  | 3 => ast3
  | 4 => ast4
  | 5 => ast5
  | _ => []

/-- texts of the statements of the shipped scripts -/
def shippedBody : Nat → List Str
  | 1 => body1.map ('\n' :: ·)
  | 2 => body2.map ('\n' :: ·)
  | 3 => body3.map ('\n' :: ·)
  | 4 => body4.map ('\n' :: ·)
  | 5 => body5.map ('\n' :: ·)
  | _ => []

theorem plain1 : ∀ s ∈ body1, ∀ c ∈ s, plainC c := by decide +kernel
theorem plain2 : ∀ s ∈ body2, ∀ c ∈ s, plainC c := by decide +kernel
theorem plain3 : ∀ s ∈ body3, ∀ c ∈ s, plainC c := by decide +kernel
theorem plain4 : ∀ s ∈ body4, ∀ c ∈ s, plainC c := by decide +kernel
theorem plain5 : ∀ s ∈ body5, ∀ c ∈ s, plainC c := by decide +kernel
theorem other1 : ∀ s ∈ body1, stmtKind ('\n' :: s) = .other := by decide +kernel
theorem other2 : ∀ s ∈ body2, stmtKind ('\n' :: s) = .other := by decide +kernel
theorem other3 : ∀ s ∈ body3, stmtKind ('\n' :: s) = .other := by decide +kernel
theorem other4 : ∀ s ∈ body4, stmtKind ('\n' :: s) = .other := by decide +kernel
theorem other5 : ∀ s ∈ body5, stmtKind ('\n' :: s) = .other := by decide +kernel

/-- the statement of a text -/
def parseStmt (s : Str) : Option SqlStmt := parseTokens (sqlTokens [] s)

theorem parse1 : (body1.map ('\n' :: ·)).map parseStmt = ast1.map some := by decide +kernel
theorem parse2 : (body2.map ('\n' :: ·)).map parseStmt = ast2.map some := by decide +kernel
theorem parse3 : (body3.map ('\n' :: ·)).map parseStmt = ast3.map some := by decide +kernel
theorem parse4 : (body4.map ('\n' :: ·)).map parseStmt = ast4.map some := by decide +kernel
theorem parse5 : (body5.map ('\n' :: ·)).map parseStmt = ast5.map some := by decide +kernel

/-! ### running parsed scripts -/

/-- the statements of one script on the tables -/
def runAst : List SqlStmt → Schema → Except PyErr Schema
  | [], s => .ok s
  | st :: sts, s => (execStmt s st).bind (runAst sts)

theorem runAst_append (a b : List SqlStmt) (s : Schema) :
    runAst (a ++ b) s = (runAst a s).bind (runAst b) := by
  induction a generalizing s with
  | nil => rfl
  | cons st sts ih =>
    simp only [List.cons_append, runAst]
    cases execStmt s st with
    | error e => rfl
    | ok s' => exact ih s'

theorem applyBody_ast : ∀ (body : List Str) (ast : List SqlStmt) (d : SDb Schema),
    body.map parseStmt = ast.map some → (∀ s ∈ body, stmtKind s = .other) →
    applyBody sqlite body d = (runAst ast d.content).map fun c => { d with content := c }
  | [], [], d, _, _ => rfl
  | [], _ :: _, _, h, _ => by simp at h
  | _ :: _, [], _, h, _ => by simp at h
  | s :: body, st :: ast, d, h, ho => by
    simp only [List.map_cons, List.cons.injEq] at h
    have hp : parseTokens (sqlTokens [] s) = some st := h.1
    simp only [applyBody, ho s (by simp), sqlite, hp, runAst]
    cases he : execStmt d.content st with
    | error e => rfl
    | ok c => exact applyBody_ast body ast { d with content := c } h.2 (fun x hx => ho x (by simp [hx]))

theorem other_of {body : List Str} (h : ∀ s ∈ body, stmtKind ('\n' :: s) = .other) :
    ∀ s ∈ body.map ('\n' :: ·), stmtKind s = .other := by
  intro s hs
  obtain ⟨a, ha, rfl⟩ := List.mem_map.mp hs
  exact h a ha

theorem applyBody_shipped (id : Nat) (d : SDb Schema) :
    applyBody sqlite (shippedBody id) d
      = (runAst (shippedAst id) d.content).map fun c => { d with content := c } := by
  unfold shippedBody shippedAst
  split
  · exact applyBody_ast _ _ d parse1 (other_of other1)
  · exact applyBody_ast _ _ d parse2 (other_of other2)
  · exact applyBody_ast _ _ d parse3 (other_of other3)
  · exact applyBody_ast _ _ d parse4 (other_of other4)
  · exact applyBody_ast _ _ d parse5 (other_of other5)
  · rfl

theorem shipped_one (id : Nat) : id = 1 ∨ id = 2 ∨ id = 3 ∨ id = 4 ∨ id = 5 →
    ∃ text, shipped id = some text ∧ OneTransaction text (shippedBody id) := by
  rintro (rfl | rfl | rfl | rfl | rfl)
  · exact ⟨_, rfl, one_scriptText body1 plain1 other1⟩
  · exact ⟨_, rfl, one_scriptText body2 plain2 other2⟩
  · exact ⟨_, rfl, one_scriptText body3 plain3 other3⟩
  · exact ⟨_, rfl, one_scriptText body4 plain4 other4⟩
  · exact ⟨_, rfl, one_scriptText body5 plain5 other5⟩

theorem mem_idsFrom {v id : Nat} (h : id ∈ idsFrom v) : id = 1 ∨ id = 2 ∨ id = 3 ∨ id = 4 ∨ id = 5 := by
  simp only [idsFrom, List.mem_range'] at h
  omega

theorem shipped_ok (v : Nat) : ScriptsOk shipped shippedBody (idsFrom v) := by
  intro id hid
  obtain ⟨t, h1, h2⟩ := shipped_one id (mem_idsFrom hid)
  exact Or.inr ⟨t, h1, Or.inr h2⟩

theorem shipped_present {v id : Nat} (h : id ∈ idsFrom v) : Present shipped id := by
  obtain ⟨t, h1, h2⟩ := shipped_one id (mem_idsFrom h)
  exact ⟨t, h1, h2.framed⟩

theorem sqlite_keeps : KeepsVersion sqlite := by
  intro s d d' h
  simp only [sqlite] at h
  split at h
  · rename_i st _
    cases he : execStmt d.content st with
    | error e => rw [he] at h; cases h
    | ok c => rw [he] at h; cases h; rfl
  · cases h

/-- the scripts `ids` one after the other -/
def runScripts : List Nat → Schema → Except PyErr Schema
  | [], s => .ok s
  | id :: ids, s => (runAst (shippedAst id) s).bind (runScripts ids)

theorem applied_shipped : ∀ (ids : List Nat) (d : SDb Schema),
    (applied sqlite shippedBody ids d).map (·.content) = runScripts ids d.content
  | [], _ => rfl
  | id :: ids, d => by
    simp only [applied, applyBody_shipped, runScripts]
    cases runAst (shippedAst id) d.content with
    | error e => rfl
    | ok c => exact applied_shipped ids _

/-- the schema after the first `n` scripts on a new database -/
def freshSchema : Nat → Schema
  | 0 => {}
  | n + 1 => match runAst (shippedAst (n + 1)) (freshSchema n) with
    | .ok s => s
    | .error _ => {}

/-- whether a result is a value -/
def isOk (x : Except ε α) : Bool := match x with | .ok _ => true | .error _ => false

set_option maxRecDepth 4000 in
theorem fresh_runs : ∀ n < 5, isOk (runAst (shippedAst (n + 1)) (freshSchema n)) = true := by
  decide +kernel

theorem fresh_run (n : Nat) (h : n < 5) :
    runAst (shippedAst (n + 1)) (freshSchema n) = .ok (freshSchema (n + 1)) := by
  have := fresh_runs n h
  rw [freshSchema]
  cases he : runAst (shippedAst (n + 1)) (freshSchema n) with
  | ok s => rfl
  | error e => rw [he] at this; cases this

end PyULog
