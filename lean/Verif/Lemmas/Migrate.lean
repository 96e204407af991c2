import Verif.Spec.Migrate
import Verif.Lemmas.Decimal
/-
Lemmas about the migration driver.
-/
namespace PyULog
open Spec

/-! ### lexing -/

theorem lexRun_append (m : LexMode) (acc a b : Str) :
    lexRun m acc (a ++ b) =
      (let r := lexRun m acc a
       let q := lexRun r.1 r.2.1 b
       (q.1, q.2.1, r.2.2 ++ q.2.2)) := by
  induction a generalizing m acc with
  | nil => rfl
  | cons c cs ih =>
    simp only [List.cons_append, lexRun, ih, List.append_assoc]

/-- what remains at the end of a text -/
def lexTail (m : LexMode) (acc : Str) : Str :=
  match m with
  | .dash => ('-' :: acc).reverse
  | .slash => ('/' :: acc).reverse
  | _ => acc.reverse

theorem splitStmts_eq (m : LexMode) (acc s : Str) :
    splitStmts m acc s = (lexRun m acc s).2.2 ++ [lexTail (lexRun m acc s).1 (lexRun m acc s).2.1] := by
  induction s generalizing m acc with
  | nil => cases m <;> rfl
  | cons c cs ih =>
    have h1 : splitStmts m acc (c :: cs) = (match lexStep m acc c with
      | (m', acc', some s) => s :: splitStmts m' acc' cs
      | (m', acc', none) => splitStmts m' acc' cs) := by cases m <;> rfl
    rw [h1]
    simp only [lexRun]
    rcases lexStep m acc c with ⟨m', acc', o⟩
    cases o <;> simp [ih]

/-- characters that the tokenizer copies -/
def plainC (c : Char) : Prop :=
  c ≠ ';' ∧ c ≠ '\'' ∧ c ≠ '"' ∧ c ≠ '`' ∧ c ≠ '[' ∧ c ≠ '-' ∧ c ≠ '/'

theorem lexRun_plain (acc s : Str) (h : ∀ c ∈ s, plainC c) :
    lexRun .normal acc s = (.normal, s.reverse ++ acc, []) := by
  induction s generalizing acc with
  | nil => rfl
  | cons c cs ih =>
    obtain ⟨h1, h2, h3, h4, h5, h6, h7⟩ := h c (by simp)
    have hs : lexStep .normal acc c = (.normal, c :: acc, none) := by
      simp [lexStep, lexNormal, h1, h2, h3, h4, h5, h6, h7]
    simp only [lexRun, hs]
    rw [ih _ (fun c hc => h c (by simp [hc]))]
    simp

theorem sqlSpace_iff {c : Char} : isSqlSpace c = true ↔ c.toNat ∈ [32, 9, 10, 12, 13] := by
  unfold isSqlSpace
  simp [or_assoc]

theorem sqlWords_blank (s rest : Str) (h : SqlBlank s) : sqlWords [] (s ++ rest) = sqlWords [] rest := by
  induction s with
  | nil => rfl
  | cons c cs ih =>
    have hc : isSqlSpace c = true := sqlSpace_iff.mpr (h c (by simp))
    simp only [List.cons_append, sqlWords, hc, if_true]
    exact ih (fun c hc => h c (by simp [hc]))

theorem digit_facts {c : Char} (h : isDigitC c) : plainC c ∧ isSqlSpace c = false ∧ upperC c = c := by
  have : 48 ≤ c.toNat ∧ c.toNat ≤ 57 := h
  refine ⟨?_, ?_, ?_⟩
  · unfold plainC
    refine ⟨?_, ?_, ?_, ?_, ?_, ?_, ?_⟩ <;> (rintro rfl; revert this; decide)
  · unfold isSqlSpace
    simp
    omega
  · unfold upperC
    rw [if_neg (by omega)]

theorem sqlWords_digits (acc s : Str) (h : ∀ c ∈ s, isDigitC c) (hne : acc ≠ [] ∨ s ≠ []) :
    sqlWords acc s = [acc.reverse ++ s] := by
  induction s generalizing acc with
  | nil =>
    cases acc with
    | nil => simp at hne
    | cons a as => simp [sqlWords]
  | cons c cs ih =>
    obtain ⟨_, h2, h3⟩ := digit_facts (h c (by simp))
    have hs : sqlWords acc (c :: cs) = sqlWords (c :: acc) cs := by
      cases acc <;> simp [sqlWords, h2, h3]
    rw [hs, ih _ (fun c hc => h c (by simp [hc])) (Or.inl (by simp))]
    simp

/-- the recording statement -/
theorem stmtKind_version (pre : Str) (hb : SqlBlank pre) (id : Nat) :
    stmtKind (pre ++ (py! "PRAGMA user_version = " ++ natDec id)) = .version id := by
  have hw : sqlWords [] (pre ++ (py! "PRAGMA user_version = " ++ natDec id))
      = [py! "PRAGMA", py! "USER_VERSION", py! "=", natDec id] := by
    rw [sqlWords_blank _ _ hb]
    have := sqlWords_digits [] (natDec id) (natDec_chars id) (Or.inr (natDec_ne_nil id))
    show py! "PRAGMA" :: py! "USER_VERSION" :: py! "=" :: sqlWords [] (natDec id) = _
    rw [this]; rfl
  unfold stmtKind
  rw [hw]
  have hall : (natDec id).all sqlNumberC = true := by
    rw [List.all_eq_true]
    intro c hc
    have : 48 ≤ c.toNat ∧ c.toNat ≤ 57 := natDec_chars id c hc
    simp [sqlNumberC, this]
  show (if (natDec id).all sqlNumberC = true then match pyInt (natDec id) with
    | .ok n => StmtKind.version n
    | .error _ => .other else .other) = _
  rw [if_pos hall, pyInt_natDec]

theorem stmtKind_nil : stmtKind [] = .blank := rfl

/-- the statements of a script with the recording statement -/
theorem split_script {text : Str} {body : List Str} (h : OneTransaction text body) (id : Nat) :
    ∃ b c v, splitStmts .normal [] (text ++ py! "\nPRAGMA user_version = " ++ natDec id ++ py! ";")
        = b :: body ++ [c, v, []] ∧
      stmtKind b = .begin ∧ stmtKind c = .commit ∧ stmtKind v = .version id := by
  obtain ⟨b, c, hs, hb, hc⟩ := h.stmts
  have hplain : ∀ x ∈ py! "PRAGMA user_version = " ++ natDec id, plainC x := by
    intro x hx
    rcases List.mem_append.mp hx with hx | hx
    · have : ∀ x ∈ py! "PRAGMA user_version = ", plainC x := by unfold plainC; decide
      exact this x hx
    · exact (digit_facts (natDec_chars id x hx)).1
  -- the text after the script
  have htail : ∃ pre, SqlBlank pre ∧
      lexRun (lexRun .normal [] text).1 (lexRun .normal [] text).2.1
        ('\n' :: (py! "PRAGMA user_version = " ++ natDec id ++ py! ";"))
      = (.normal, [], [pre ++ (py! "PRAGMA user_version = " ++ natDec id)]) := by
    have hlast : ∀ acc, lexRun .normal acc (py! "PRAGMA user_version = " ++ natDec id ++ py! ";")
        = (.normal, [], [acc.reverse ++ (py! "PRAGMA user_version = " ++ natDec id)]) := by
      intro acc
      rw [lexRun_append, lexRun_plain _ _ hplain]
      simp [lexRun, lexStep, lexNormal]
    have hbl := h.tail
    generalize (lexRun .normal [] text).2.1 = acc at hbl
    have hrev : SqlBlank acc.reverse := fun c hc => hbl c (List.mem_reverse.mp hc)
    rcases h.closed with hm | hm <;> rw [hm]
    · refine ⟨('\n' :: acc).reverse, ?_, ?_⟩
      · intro c hc
        rcases List.mem_cons.mp (List.mem_reverse.mp hc) with rfl | hc
        · decide
        · exact hbl c hc
      · show (let t := lexStep .normal acc '\n'
              let r := lexRun t.1 t.2.1 (py! "PRAGMA user_version = " ++ natDec id ++ py! ";")
              (r.1, r.2.1, t.2.2.toList ++ r.2.2)) = _
        have : lexStep .normal acc '\n' = (.normal, '\n' :: acc, none) := rfl
        simp only [this, hlast]
        rfl
    · refine ⟨acc.reverse, hrev, ?_⟩
      show (let t := lexStep .line acc '\n'
            let r := lexRun t.1 t.2.1 (py! "PRAGMA user_version = " ++ natDec id ++ py! ";")
            (r.1, r.2.1, t.2.2.toList ++ r.2.2)) = _
      have : lexStep .line acc '\n' = (.normal, acc, none) := rfl
      simp only [this, hlast]
      rfl
  obtain ⟨pre, hpre, ht⟩ := htail
  refine ⟨b, c, pre ++ (py! "PRAGMA user_version = " ++ natDec id), ?_, hb, hc,
    stmtKind_version pre hpre id⟩
  have happ : text ++ py! "\nPRAGMA user_version = " ++ natDec id ++ py! ";"
      = text ++ ('\n' :: (py! "PRAGMA user_version = " ++ natDec id ++ py! ";")) := by
    simp
  rw [happ, splitStmts_eq, lexRun_append]
  simp only [ht, hs, lexTail]
  simp

/-! ### the text check -/

theorem space_iff {c : Char} : isSpaceC c = true ↔ c.toNat ∈ whiteSpace := by
  unfold isSpaceC whiteSpace
  simp only [Bool.or_eq_true, Bool.and_eq_true, decide_eq_true_eq, List.mem_cons, List.not_mem_nil, or_false]
  omega

theorem dropWhile_blank (a b : Str) (h : BlankText a) : (a ++ b).dropWhile isSpaceC = b.dropWhile isSpaceC := by
  induction a with
  | nil => rfl
  | cons c cs ih =>
    simp only [List.cons_append, List.dropWhile_cons, space_iff.mpr (h c (by simp)), if_true]
    exact ih fun c hc => h c (by simp [hc])

theorem dropWhile_split (s : Str) : ∃ a, s = a ++ s.dropWhile isSpaceC ∧ BlankText a := by
  induction s with
  | nil => exact ⟨[], rfl, fun _ h => by cases h⟩
  | cons c cs ih =>
    by_cases hc : isSpaceC c = true
    · obtain ⟨a, h1, h2⟩ := ih
      refine ⟨c :: a, ?_, ?_⟩
      · simp only [List.dropWhile_cons, hc, if_true, List.cons_append]
        rw [← h1]
      · intro x hx
        rcases List.mem_cons.mp hx with rfl | hx
        · exact space_iff.mp hc
        · exact h2 x hx
    · refine ⟨[], ?_, fun _ h => by cases h⟩
      simp [hc]

/-- `strip` keeps a middle part that begins and ends with other characters -/
theorem pyStrip_split (s : Str) :
    ∃ a b, s = a ++ pyStrip s ++ b ∧ BlankText a ∧ BlankText b := by
  obtain ⟨a, h1, h2⟩ := dropWhile_split s
  obtain ⟨b, h3, h4⟩ := dropWhile_split (s.dropWhile isSpaceC).reverse
  refine ⟨a, b.reverse, ?_, h2, fun c hc => h4 c (List.mem_reverse.mp hc)⟩
  unfold pyStrip
  have h5 := congrArg List.reverse h3
  rw [List.reverse_reverse, List.reverse_append] at h5
  rw [List.append_assoc, ← h5]
  exact h1

theorem dropWhile_head {p : Char → Bool} {s : Str} {c : Char} {t : Str}
    (h : s.dropWhile p = c :: t) : p c = false := by
  induction s with
  | nil => cases h
  | cons x xs ih =>
    rw [List.dropWhile_cons] at h
    by_cases hx : p x = true
    · rw [if_pos hx] at h; exact ih h
    · rw [if_neg hx] at h; cases h; simpa using hx

theorem reverse_dropWhile_keep (l m : Str) (c : Char) (hc : isSpaceC c = false) :
    ∃ m', ((l ++ c :: m).reverse.dropWhile isSpaceC).reverse = l ++ c :: m' := by
  have : (l ++ c :: m).reverse = m.reverse ++ (c :: l.reverse) := by simp
  rw [this]
  obtain ⟨a, h1, h2⟩ := dropWhile_split m.reverse
  by_cases hd : m.reverse.dropWhile isSpaceC = []
  · refine ⟨[], ?_⟩
    rw [hd] at h1
    rw [h1, List.append_nil, dropWhile_blank _ _ h2, List.dropWhile_cons, hc]
    simp
  · obtain ⟨x, xs, hx⟩ := List.exists_cons_of_ne_nil hd
    refine ⟨(m.reverse.dropWhile isSpaceC).reverse, ?_⟩
    have hx' := dropWhile_head hx
    conv => lhs; rw [h1]
    rw [List.append_assoc, dropWhile_blank _ _ h2, hx, List.cons_append, List.dropWhile_cons, hx']
    simp

/-- the text check of `_read_migration_file` -/
theorem framed_iff (text : Str) :
    (startsWith (py! "BEGIN;") (pyStrip text) = true ∧ (py! "COMMIT;").isSuffixOf (pyStrip text) = true)
      ↔ Framed text := by
  unfold startsWith
  rw [List.isPrefixOf_iff_prefix, List.isSuffixOf_iff_suffix]
  obtain ⟨a, b, h1, h2, h3⟩ := pyStrip_split text
  constructor
  · rintro ⟨⟨t, ht⟩, ⟨q, hq⟩⟩
    refine ⟨⟨a, t ++ b, ?_, h2⟩, ⟨a ++ q, b, ?_, h3⟩⟩
    · conv => lhs; rw [h1, ← ht]
      simp
    · conv => lhs; rw [h1, ← hq]
      simp
  · rintro ⟨⟨a', b', e1, e2⟩, ⟨a'', b'', e3, e4⟩⟩
    constructor
    · -- stripping on the left leaves BEGIN; at the start
      have hl : text.dropWhile isSpaceC = py! "BEGIN;" ++ b' := by
        rw [e1, List.append_assoc, dropWhile_blank _ _ e2]; rfl
      unfold pyStrip
      rw [hl]
      obtain ⟨m', hm⟩ := reverse_dropWhile_keep (py! "BEGIN") b' ';' (by decide)
      have : py! "BEGIN;" ++ b' = py! "BEGIN" ++ ';' :: b' := rfl
      rw [this, hm]
      exact ⟨m', rfl⟩
    · -- the left part is non-empty up to the C of COMMIT
      have hl : ∃ q, text.dropWhile isSpaceC = q ++ py! "COMMIT;" ++ b'' := by
        rw [e3]
        obtain ⟨p, h5, h6⟩ := dropWhile_split a''
        by_cases hd : a''.dropWhile isSpaceC = []
        · rw [hd, List.append_nil] at h5
          refine ⟨[], ?_⟩
          rw [h5, List.append_assoc, dropWhile_blank _ _ h6]; rfl
        · obtain ⟨x, xs, hx⟩ := List.exists_cons_of_ne_nil hd
          refine ⟨x :: xs, ?_⟩
          conv => lhs; rw [h5]
          rw [List.append_assoc, List.append_assoc, dropWhile_blank _ _ h6, hx]
          simp [dropWhile_head hx]
      obtain ⟨q, hq⟩ := hl
      unfold pyStrip
      rw [hq]
      have hrev : (q ++ py! "COMMIT;" ++ b'').reverse = b''.reverse ++ (q ++ py! "COMMIT;").reverse := by
        simp
      rw [hrev, dropWhile_blank _ _ (fun c hc => e4 c (List.mem_reverse.mp hc))]
      refine ⟨q, ?_⟩
      have : (q ++ py! "COMMIT;").reverse = py! ";TIMMOC" ++ q.reverse := by simp
      rw [this]
      show q ++ py! "COMMIT;" = (py! ";TIMMOC" ++ q.reverse).reverse
      simp

theorem readMigration_none {dir : SqlDir} {id : Nat} (h : dir id = none) :
    readMigration dir id = .error .fileNotFound := by
  unfold readMigration; rw [h]

theorem readMigration_bad {dir : SqlDir} {id : Nat} {text : Str} (h : dir id = some text)
    (hf : ¬ Framed text) : readMigration dir id = .error .valueError := by
  unfold readMigration
  rw [h]
  simp only
  by_cases h1 : startsWith (py! "BEGIN;") (pyStrip text) = true
  · rw [if_neg (by simpa using h1)]
    by_cases h2 : (py! "COMMIT;").isSuffixOf (pyStrip text) = true
    · exact absurd ((framed_iff text).mp ⟨h1, h2⟩) hf
    · rw [if_pos h2]
  · rw [if_pos h1]

theorem readMigration_ok {dir : SqlDir} {id : Nat} {text : Str} (h : dir id = some text)
    (hf : Framed text) :
    readMigration dir id = .ok (text ++ py! "\nPRAGMA user_version = " ++ natDec id ++ py! ";") := by
  unfold readMigration
  rw [h]
  obtain ⟨h1, h2⟩ := (framed_iff text).mpr hf
  simp only
  rw [if_neg (by simpa using h1), if_neg (by simpa using h2)]

/-! ### running a script -/

theorem execAll_body (E : Engine σ) (disk : SDb σ) (rest : List Str) :
    ∀ (ss : List Str) (d : SDb σ), (∀ s ∈ ss, stmtKind s = .other ∨ stmtKind s = .blank) →
      match applyBody E ss d with
      | .ok d' => execAll E { disk := disk, tx := some d } (ss ++ rest)
          = execAll E { disk := disk, tx := some d' } rest
      | .error e => ∃ c', execAll E { disk := disk, tx := some d } (ss ++ rest) = (c', some e) ∧
          c'.disk = disk := by
  intro ss
  induction ss with
  | nil => intro d _; rfl
  | cons s ss ih =>
    intro d hk
    have hk' := fun s hs => hk s (List.mem_cons_of_mem _ hs)
    rcases hk s (by simp) with h | h
    · -- an ordinary statement
      have h1 : execOne E { disk := disk, tx := some d } s
          = (E.exec s d).map fun d' => { disk := disk, tx := some d' } := by
        unfold execOne; rw [h]; rfl
      simp only [applyBody, h, List.cons_append, execAll, h1]
      cases hx : E.exec s d with
      | ok d' =>
        simp only [Except.map]
        exact ih d' hk'
      | error e =>
        simp only [Except.map]
        exact ⟨_, rfl, rfl⟩
    · have h1 : execOne E { disk := disk, tx := some d } s = .ok { disk := disk, tx := some d } := by
        unfold execOne; rw [h]
      simp only [applyBody, h, List.cons_append, execAll, h1]
      exact ih d hk'

/-- a script of one transaction runs completely and is recorded, or changes nothing -/
theorem executescript_one (E : Engine σ) (c : Conn σ) {text : Str} {body : List Str}
    (h : OneTransaction text body) (id : Nat) (hc : c.tx = none) :
    match applyBody E body c.disk with
    | .ok d => executescript E c (text ++ py! "\nPRAGMA user_version = " ++ natDec id ++ py! ";")
        = ({ disk := { d with version := id }, tx := none }, none)
    | .error e => ∃ c', executescript E c
        (text ++ py! "\nPRAGMA user_version = " ++ natDec id ++ py! ";") = (c', some e) ∧
        c'.disk = c.disk := by
  obtain ⟨b, k, v, hs, hb, hk, hv⟩ := split_script h id
  obtain ⟨disk, tx⟩ := c
  simp only at hc
  subst hc
  unfold executescript
  rw [hs]
  have h0 : execOne E ({ disk := disk, tx := none } : Conn σ).commit b
      = .ok { disk := disk, tx := some disk } := by
    unfold execOne; rw [hb]; rfl
  simp only [List.cons_append, execAll, h0]
  have h1 := execAll_body E disk [k, v, []] body disk h.ordinary
  cases hx : applyBody E body disk with
  | ok d =>
    rw [hx] at h1
    simp only at h1 ⊢
    rw [h1]
    have h3 : execOne E { disk := disk, tx := some d } k = .ok { disk := d, tx := none } := by
      unfold execOne; rw [hk]
    have h4 : execOne E { disk := d, tx := none } v = .ok { disk := { d with version := id }, tx := none } := by
      unfold execOne; rw [hv]; rfl
    have h5 : execOne E { disk := { d with version := id }, tx := none } []
        = .ok { disk := { d with version := id }, tx := none } := by
      unfold execOne; rw [stmtKind_nil]
    simp only [execAll, h3, h4, h5]
  | error e =>
    rw [hx] at h1
    simp only at h1 ⊢
    exact h1

/-! ### the loop -/

/-- the loop applies the scripts in order until one is refused -/
theorem migrateLoop_spec (E : Engine σ) (dir : SqlDir) (body : Nat → List Str) :
    ∀ (ids : List Nat) (c : Conn σ), c.tx = none → ScriptsOk dir body ids →
      ∃ done d, applied E body done c.disk = .ok d ∧
        ((done = ids ∧ migrateLoop E dir false ids c = ({ disk := d, tx := none }, none)) ∨
         ∃ id rest e c', ids = done ++ id :: rest ∧
          migrateLoop E dir false ids c = (c', some e) ∧ c'.disk = d ∧ Refused E dir body id d e) := by
  intro ids
  induction ids with
  | nil =>
    rintro ⟨disk, tx⟩ hc _
    simp only at hc
    subst hc
    exact ⟨[], disk, rfl, Or.inl ⟨rfl, rfl⟩⟩
  | cons id ids ih =>
    intro c hc hok
    have stop : ∀ c' e, migrateLoop E dir false (id :: ids) c = (c', some e) → c'.disk = c.disk →
        Refused E dir body id c.disk e →
        ∃ done d, applied E body done c.disk = .ok d ∧
          ((done = id :: ids ∧ migrateLoop E dir false (id :: ids) c = ({ disk := d, tx := none }, none)) ∨
           ∃ id' rest e c', id :: ids = done ++ id' :: rest ∧
            migrateLoop E dir false (id :: ids) c = (c', some e) ∧ c'.disk = d ∧
            Refused E dir body id' d e) := fun c' e h hd hr =>
      ⟨[], c.disk, rfl, Or.inr ⟨id, ids, e, c', rfl, h, hd, hr⟩⟩
    rcases hok id (by simp) with hn | ⟨text, ht, hb | hone⟩
    · exact stop c .fileNotFound (by simp only [migrateLoop, readMigration_none hn]) rfl (Or.inl ⟨hn, rfl⟩)
    · exact stop c .valueError (by simp only [migrateLoop, readMigration_bad ht hb]) rfl
        (Or.inr (Or.inl ⟨text, ht, hb, rfl⟩))
    · have hx := executescript_one E c hone id hc
      have hl : migrateLoop E dir false (id :: ids) c =
          match executescript E c (text ++ py! "\nPRAGMA user_version = " ++ natDec id ++ py! ";") with
          | (c', none) => migrateLoop E dir false ids c'
          | (c', some e) => (c', some e) := by
        simp only [migrateLoop, readMigration_ok ht hone.framed, Bool.false_eq_true, if_false]
        rfl
      cases ha : applyBody E (body id) c.disk with
      | error e =>
        rw [ha] at hx
        obtain ⟨c', h1, h2⟩ := hx
        rw [h1] at hl
        exact stop c' e hl h2 (Or.inr (Or.inr ⟨text, ht, hone.framed, ha⟩))
      | ok d =>
        rw [ha] at hx
        simp only at hx
        rw [hx] at hl
        simp only at hl
        obtain ⟨done, d', h1, h2⟩ := ih { disk := { d with version := id }, tx := none } rfl
          (fun i hi => hok i (List.mem_cons_of_mem _ hi))
        refine ⟨id :: done, d', ?_, ?_⟩
        · simp only [applied, ha]
          exact h1
        · rw [hl]
          rcases h2 with ⟨h3, h4⟩ | ⟨id', rest, e, c', h3, h4, h5, h6⟩
          · exact Or.inl ⟨by rw [h3], h4⟩
          · exact Or.inr ⟨id', rest, e, c', by rw [h3]; rfl, h4, h5, h6⟩

/-! ### crash points -/

theorem stmtDisks_body (E : Engine σ) (disk : SDb σ) (rest : List Str) :
    ∀ (ss : List Str) (d : SDb σ), (∀ s ∈ ss, stmtKind s = .other ∨ stmtKind s = .blank) →
      ∀ x ∈ stmtDisks E { disk := disk, tx := some d } (ss ++ rest),
        x = disk ∨ ∃ d', applyBody E ss d = .ok d' ∧
          x ∈ stmtDisks E { disk := disk, tx := some d' } rest := by
  intro ss
  induction ss with
  | nil => intro d _ x hx; exact Or.inr ⟨d, rfl, hx⟩
  | cons s ss ih =>
    intro d hk x hx
    have hk' := fun s hs => hk s (List.mem_cons_of_mem _ hs)
    simp only [List.cons_append, stmtDisks] at hx
    rcases List.mem_cons.mp hx with rfl | hx
    · exact Or.inl rfl
    · rcases hk s (by simp) with h | h
      · have h1 : execOne E { disk := disk, tx := some d } s
            = (E.exec s d).map fun d' => { disk := disk, tx := some d' } := by
          unfold execOne; rw [h]; rfl
        rw [h1] at hx
        simp only [applyBody, h]
        cases he : E.exec s d with
        | ok d' =>
          rw [he] at hx
          simp only [Except.map] at hx
          exact ih d' hk' x hx
        | error e =>
          rw [he] at hx
          simp [Except.map] at hx
      · have h1 : execOne E { disk := disk, tx := some d } s = .ok { disk := disk, tx := some d } := by
          unfold execOne; rw [h]
        rw [h1] at hx
        simp only [applyBody, h]
        exact ih d hk' x hx

/-- the states of the disk while one script runs: before, committed but not recorded, recorded -/
theorem stmtDisks_one (E : Engine σ) (disk : SDb σ) {text : Str} {body : List Str}
    (h : OneTransaction text body) (id : Nat) :
    ∀ x ∈ stmtDisks E { disk := disk, tx := none } (splitStmts .normal []
        (text ++ py! "\nPRAGMA user_version = " ++ natDec id ++ py! ";")),
      x = disk ∨ ∃ d, applyBody E body disk = .ok d ∧ (x = d ∨ x = { d with version := id }) := by
  obtain ⟨b, k, v, hs, hb, hk, hv⟩ := split_script h id
  intro x hx
  rw [hs] at hx
  have h0 : execOne E ({ disk := disk, tx := none } : Conn σ) b
      = .ok { disk := disk, tx := some disk } := by
    unfold execOne; rw [hb]
  simp only [List.cons_append, stmtDisks, h0] at hx
  rcases List.mem_cons.mp hx with rfl | hx
  · exact Or.inl rfl
  · rcases stmtDisks_body E disk [k, v, []] body disk h.ordinary x hx with hx | ⟨d, ha, hx⟩
    · exact Or.inl hx
    · have h3 : execOne E { disk := disk, tx := some d } k = .ok { disk := d, tx := none } := by
        unfold execOne; rw [hk]
      have h4 : execOne E { disk := d, tx := none } v
          = .ok { disk := { d with version := id }, tx := none } := by
        unfold execOne; rw [hv]; rfl
      have h5 : execOne E { disk := { d with version := id }, tx := none } []
          = .ok { disk := { d with version := id }, tx := none } := by
        unfold execOne; rw [stmtKind_nil]
      simp only [stmtDisks, h3, h4, h5, List.mem_cons, List.not_mem_nil, or_false] at hx
      rcases hx with hx | hx | hx | hx
      · exact Or.inl hx
      · exact Or.inr ⟨d, ha, Or.inl hx⟩
      · exact Or.inr ⟨d, ha, Or.inr hx⟩
      · exact Or.inr ⟨d, ha, Or.inr hx⟩

/-- the states of the disk during the loop: some scripts applied and recorded, or one more applied but
not recorded -/
theorem loopDisks_spec (E : Engine σ) (dir : SqlDir) (body : Nat → List Str) :
    ∀ (ids : List Nat) (disk : SDb σ), ScriptsOk dir body ids →
      ∀ x ∈ loopDisks E dir ids { disk := disk, tx := none },
        ∃ done rest d, ids = done ++ rest ∧ (∀ id ∈ done, Present dir id) ∧
          applied E body done disk = .ok d ∧
          (x = d ∨ ∃ id rest', rest = id :: rest' ∧ Present dir id ∧ applyBody E (body id) d = .ok x) := by
  intro ids
  induction ids with
  | nil =>
    intro disk _ x hx
    have : x = disk := by simpa [loopDisks, Conn.commit, Conn.cur] using hx
    exact ⟨[], [], disk, rfl, fun _ h => (by cases h), rfl, Or.inl this⟩
  | cons id ids ih =>
    intro disk hok x hx
    have here : x = disk → ∃ done rest d, id :: ids = done ++ rest ∧ (∀ id ∈ done, Present dir id) ∧
          applied E body done disk = .ok d ∧
          (x = d ∨ ∃ id rest', rest = id :: rest' ∧ Present dir id ∧ applyBody E (body id) d = .ok x) :=
      fun h => ⟨[], id :: ids, disk, rfl, fun _ h => (by cases h), rfl, Or.inl h⟩
    rcases hok id (by simp) with hn | ⟨text, ht, hb | hone⟩
    · simp only [loopDisks, readMigration_none hn, List.mem_singleton] at hx
      exact here hx
    · simp only [loopDisks, readMigration_bad ht hb, List.mem_singleton] at hx
      exact here hx
    · simp only [loopDisks, readMigration_ok ht hone.framed] at hx
      rcases List.mem_append.mp hx with hx | hx
      · rcases List.mem_cons.mp hx with rfl | hx
        · exact here rfl
        · have hcc : ({ disk := disk, tx := none } : Conn σ).commit = { disk := disk, tx := none } := rfl
          rw [hcc] at hx
          rcases stmtDisks_one E disk hone id x hx with hx | ⟨d, ha, hx | hx⟩
          · exact here hx
          · exact ⟨[], id :: ids, disk, rfl, fun _ h => (by cases h), rfl,
              Or.inr ⟨id, ids, rfl, ⟨text, ht, hone.framed⟩, by rw [ha, hx]⟩⟩
          · refine ⟨[id], ids, x, rfl, ?_, by simp only [applied, ha, hx], Or.inl rfl⟩
            intro i hi
            rw [List.mem_singleton.mp hi]
            exact ⟨text, ht, hone.framed⟩
      · have h1 := executescript_one E { disk := disk, tx := none } hone id rfl
        cases ha : applyBody E (body id) disk with
        | error e =>
          simp only [ha] at h1
          obtain ⟨c', h1, _⟩ := h1
          rw [h1] at hx
          cases hx
        | ok d =>
          simp only [ha] at h1
          rw [h1] at hx
          obtain ⟨done, rest, d', e1, e0, e2, e3⟩ := ih { d with version := id }
            (fun i hi => hok i (List.mem_cons_of_mem _ hi)) x hx
          refine ⟨id :: done, rest, d', by rw [e1]; rfl, ?_, ?_, e3⟩
          · intro i hi
            rcases List.mem_cons.mp hi with rfl | hi
            · exact ⟨text, ht, hone.framed⟩
            · exact e0 i hi
          · simp only [applied, ha]
            exact e2

/-! ### versions -/

theorem applied_version {E : Engine σ} {body : Nat → List Str} {ids : List Nat} {d d' : SDb σ}
    (h : applied E body ids d = .ok d') : d'.version = (ids.getLast?.map Int.ofNat).getD d.version := by
  induction ids generalizing d with
  | nil => cases h; rfl
  | cons id ids ih =>
    simp only [applied] at h
    cases ha : applyBody E (body id) d with
    | error e => rw [ha] at h; cases h
    | ok d1 =>
      rw [ha] at h
      have := ih h
      rw [this]
      cases ids with
      | nil => rfl
      | cons i is =>
        rw [List.getLast?_cons_cons]
        cases hl : (i :: is).getLast? with
        | none => simp at hl
        | some x => rfl

theorem applied_append {E : Engine σ} {body : Nat → List Str} {a b : List Nat} {d d1 : SDb σ}
    (h : applied E body a d = .ok d1) : applied E body (a ++ b) d = applied E body b d1 := by
  induction a generalizing d with
  | nil => cases h; rfl
  | cons id ids ih =>
    simp only [applied] at h
    simp only [List.cons_append, applied]
    cases ha : applyBody E (body id) d with
    | error e => rw [ha] at h; cases h
    | ok d2 => rw [ha] at h; exact ih h

/-- splitting the list of scripts -/
theorem idsFrom_split {v : Nat} {done rest : List Nat} (h : idsFrom v = done ++ rest) :
    rest = idsFrom (v + done.length) ∧ (done.getLast?.map Int.ofNat).getD (v : Int) = (v + done.length : Nat) := by
  unfold idsFrom at h ⊢
  have hlen := congrArg List.length h
  simp only [List.length_range', List.length_append] at hlen
  have h1 : done = List.range' (v + 1) done.length := by
    apply List.ext_getElem (by simp)
    intro i hi _
    have hg : (done ++ rest)[i]? = (List.range' (v + 1) (5 - v))[i]? := by rw [h]
    rw [List.getElem?_append_left hi, List.getElem?_range' (by omega), List.getElem?_eq_getElem hi] at hg
    rw [List.getElem_range']
    exact Option.some.inj hg
  have h2 : rest = List.range' (v + 1 + done.length) (5 - v - done.length) := by
    have := congrArg (List.drop done.length) h
    rw [List.drop_left, List.drop_range'] at this
    rw [← this]
    simp
  constructor
  · rw [h2]
    congr 1 <;> omega
  · cases hd : done.length with
    | zero =>
      have : done = [] := List.length_eq_zero_iff.mp hd
      subst this; simp
    | succ n =>
      rw [h1, hd, List.range'_concat]
      simp
      omega

theorem migrationIds_eq (v : Nat) : migrationIds v = idsFrom v := rfl

end PyULog
