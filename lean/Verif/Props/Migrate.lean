import Verif.Lemmas.Migrate
import Verif.Spec.SampleSql
/-
Property theorems about `migrate_db` (C43) and about a process that dies during a migration (C44), for
every SQL engine.
-/
namespace PyULog
open Spec

theorem start_version {file : Option (SDb σ)} {force : Bool} {v : Nat} (h : Start file force v) :
    readSchemaVersion file force = .ok v := by
  rcases h with ⟨rfl, rfl⟩ | ⟨d, rfl, hv, hf⟩
  · rfl
  · unfold readSchemaVersion
    simp only [hv]
    rw [if_neg, if_neg (by omega)]
    · simp
    · rintro ⟨h1, h2⟩
      rcases hf with hf | hf
      · exact hf (by simpa using h1)
      · rw [hf] at h2; cases h2

theorem migrateDb_start {E : Engine σ} {dir : SqlDir} {noop force : Bool} {file : Option (SDb σ)} {v : Nat}
    (h : Start file force v) :
    migrateDb E (some dir) noop force file =
      (let r := closeWith (migrateLoop E dir noop (idsFrom v) { disk := contents E file, tx := none })
       (some r.1, r.2)) := by
  unfold migrateDb
  simp only [start_version h]
  rfl

theorem start_contents {E : Engine σ} {file : Option (SDb σ)} {force : Bool} {v : Nat}
    (h : Start file force v) : (contents E file).version = v := by
  rcases h with ⟨rfl, rfl⟩ | ⟨d, rfl, hv, _⟩
  · rfl
  · exact hv

/-! ### C43 -/

/-- **C43.** For every SQL engine, every start version and every directory in which each script is
missing, without the required frame, or one transaction: `migrate_db` applies the scripts `v+1, v+2, ...`
in this order, each completely and recorded. It ends without an error exactly when all scripts up to
version 5 were applied; otherwise it stops at the first script that is missing, is rejected or fails,
with the corresponding error, and the database is left as the scripts before it made it. -/
theorem C43_in_order (E : Engine σ) (dir : SqlDir) (body : Nat → List Str) (force : Bool)
    (file : Option (SDb σ)) (v : Nat) (hs : Start file force v) (hok : ScriptsOk dir body (idsFrom v)) :
    ∃ done d, applied E body done (contents E file) = .ok d ∧ d.version = (v + done.length : Nat) ∧
      ((done = idsFrom v ∧ migrateDb E (some dir) false force file = (some d, .ok ())) ∨
       ∃ id rest e, idsFrom v = done ++ id :: rest ∧
        migrateDb E (some dir) false force file = (some d, .error e) ∧ Refused E dir body id d e) := by
  obtain ⟨done, d, h1, h2⟩ := migrateLoop_spec E dir body (idsFrom v)
    { disk := contents E file, tx := none } rfl hok
  simp only at h1
  have hv : ∀ rest, idsFrom v = done ++ rest → d.version = (v + done.length : Nat) := by
    intro rest hr
    rw [applied_version h1, start_contents hs]
    exact (idsFrom_split hr).2
  refine ⟨done, d, h1, ?_⟩
  rw [migrateDb_start hs]
  rcases h2 with ⟨h3, h4⟩ | ⟨id, rest, e, c', h3, h4, h5, h6⟩
  · refine ⟨hv [] (by simp [h3]), Or.inl ⟨h3, ?_⟩⟩
    rw [h4]
    rfl
  · refine ⟨hv _ h3, Or.inr ⟨id, rest, e, h3, ?_, h6⟩⟩
    rw [h4]
    simp only [closeWith, Conn.rollback, h5]

/-- non-vacuity: the sample directory from a new file applies scripts 1 and 2 and stops at script 3 -/
example : Start (none : Option (SDb (List Str))) false 0 ∧
    ScriptsOk Sample.sqlDir Sample.sqlBody (idsFrom 0) := by
  refine ⟨Or.inl ⟨rfl, rfl⟩, ?_⟩
  intro id hid
  have : id = 1 ∨ id = 2 ∨ id = 3 ∨ id = 4 ∨ id = 5 := by
    simpa [idsFrom, List.range'] using hid
  rcases this with rfl | rfl | rfl | rfl | rfl
  · exact Or.inr ⟨_, rfl, Or.inr Sample.one1⟩
  · exact Or.inr ⟨_, rfl, Or.inr Sample.one2⟩
  · exact Or.inr ⟨_, rfl, Or.inr Sample.one3⟩
  · refine Or.inr ⟨_, rfl, Or.inl ?_⟩
    rintro ⟨⟨a, b, h, _⟩, _⟩
    have := congrArg List.length h
    simp at this
    omega
  · exact Or.inl rfl

example : (migrateDb Sample.listEngine (some Sample.sqlDir) false false none).1
    = some ⟨[py! "A", py! "B ';'"], 2⟩ := by decide +kernel

/-- **C43.** A database of version 5 or later is left as it is, without reading any script. -/
theorem C43_up_to_date (E : Engine σ) (dir : SqlDir) (noop force : Bool) (d : SDb σ)
    (h : 5 ≤ d.version) : migrateDb E (some dir) noop force (some d) = (some d, .ok ()) := by
  have hs : Start (some d) force d.version.toNat :=
    Or.inr ⟨d, rfl, by omega, Or.inl (by omega)⟩
  rw [migrateDb_start hs]
  have : idsFrom d.version.toNat = [] := by
    unfold idsFrom
    rw [show 5 - d.version.toNat = 0 by omega]
    rfl
  rw [this]
  rfl

/-- **C43.** After a run without error a second run, with whatever flags, changes nothing. -/
theorem C43_second_run (E : Engine σ) (dir : SqlDir) (body : Nat → List Str) (force : Bool)
    (file file' : Option (SDb σ)) (v : Nat) (hs : Start file force v)
    (hok : ScriptsOk dir body (idsFrom v))
    (h : migrateDb E (some dir) false force file = (file', .ok ())) (noop force' : Bool) :
    migrateDb E (some dir) noop force' file' = (file', .ok ()) := by
  obtain ⟨done, d, _, hv, ⟨h3, h4⟩ | ⟨id, rest, e, _, h4, _⟩⟩ :=
    C43_in_order E dir body force file v hs hok
  · rw [h4] at h
    have : file' = some d := by injection h with h _; exact h.symm
    subst this
    apply C43_up_to_date
    rw [hv, h3]
    simp only [idsFrom, List.length_range']
    omega
  · rw [h4] at h
    injection h with _ h
    cases h

/-- non-vacuity: a directory with five scripts -/
example :
    let dir : SqlDir := fun _ => some (py! "BEGIN;A;COMMIT;")
    (migrateDb Sample.listEngine (some dir) false false none).1
      = some ⟨List.replicate 5 (py! "A"), 5⟩ ∧
    (migrateDb Sample.listEngine (some dir) false false (some ⟨[py! "z"], 3⟩)).1
      = some ⟨[py! "z", py! "A", py! "A"], 5⟩ := by decide +kernel

theorem migrateLoop_noop (E : Engine σ) (dir : SqlDir) (ids : List Nat) (c : Conn σ) :
    (migrateLoop E dir true ids c).1 = c := by
  induction ids with
  | nil => rfl
  | cons id ids ih =>
    simp only [migrateLoop]
    cases readMigration dir id with
    | error e => rfl
    | ok s => simpa using ih

/-- **C43.** `noop` executes nothing: an existing database is left as it is, whatever the outcome. -/
theorem C43_noop (E : Engine σ) (sqlDir : Option SqlDir) (force : Bool) (d : SDb σ) :
    (migrateDb E sqlDir true force (some d)).1 = some d := by
  unfold migrateDb
  cases sqlDir with
  | none => rfl
  | some dir =>
    simp only
    cases readSchemaVersion (some d) force with
    | error e => rfl
    | ok v =>
      simp only
      have h := migrateLoop_noop E dir (migrationIds v) (openConn E (some d))
      rcases hl : migrateLoop E dir true (migrationIds v) (openConn E (some d)) with ⟨c, o⟩
      rw [hl] at h
      simp only at h
      subst h
      cases o <;> rfl

/-- **C43.** But with `noop` a database that does not exist is created, with version 0, and the next
run without `force` refuses it (this is what the comment at migrate_db.py:23-27 warns about). -/
theorem C43_noop_creates (E : Engine σ) (dir : SqlDir) (force noop' : Bool) :
    (migrateDb E (some dir) true force none).1 = some ⟨E.empty, 0⟩ ∧
    migrateDb E (some dir) noop' false (some ⟨E.empty, 0⟩) = (some ⟨E.empty, 0⟩, .error .fileExists) := by
  refine ⟨?_, rfl⟩
  unfold migrateDb
  simp only [readSchemaVersion]
  have h := migrateLoop_noop E dir (migrationIds 0) (openConn E none)
  rcases hl : migrateLoop E dir true (migrationIds 0) (openConn E none) with ⟨c, o⟩
  rw [hl] at h
  simp only at h
  subst h
  cases o <;> rfl

/-- **C43.** An existing database of version 0 is refused unless `force` is given; negative versions
are always refused; so is a script path that is not a directory. Nothing is changed. -/
theorem C43_refused (E : Engine σ) (noop : Bool) (d : SDb σ)
    (dir : SqlDir) (force : Bool) (file : Option (SDb σ)) :
    (d.version = 0 → migrateDb E (some dir) noop false (some d) = (some d, .error .fileExists)) ∧
    (d.version < 0 → migrateDb E (some dir) noop force (some d) = (some d, .error .valueError)) ∧
    migrateDb E none noop force file = (file, .error .notADirectory) := by
  refine ⟨fun h => ?_, fun h => ?_, rfl⟩
  · simp [migrateDb, readSchemaVersion, h]
  · have h0 : d.version ≠ 0 := by omega
    simp [migrateDb, readSchemaVersion, h, h0]

/-- **C43**, the part that does not hold: the check for `COMMIT;` looks at the text only. A script that
ends in an unterminated comment is accepted and its effect is committed, but the comment swallows the
statement that records the version: the version stays as it was and the next run executes the script
again. -/
theorem C43_not_recorded :
    ∃ text, Framed text ∧
      migrateDb Sample.listEngine (some fun id => if id = 5 then some text else none) false false
          (some ⟨[], 4⟩) = (some ⟨[py! "A"], 4⟩, .ok ()) ∧
      migrateDb Sample.listEngine (some fun id => if id = 5 then some text else none) false false
          (some ⟨[py! "A"], 4⟩) = (some ⟨[py! "A", py! "A"], 4⟩, .ok ()) := by
  refine ⟨py! "BEGIN;A;/* COMMIT;", ⟨⟨[], _, rfl, by decide⟩, ⟨py! "BEGIN;A;/* ", [], rfl, by decide⟩⟩, ?_, ?_⟩ <;> rfl

/-- **C43**, the other part that does not hold: a second `COMMIT` or a `ROLLBACK` behind the first `COMMIT` is
an error, but the effect of the statements before it stays, without being recorded; a second `BEGIN` is an
error that leaves nothing behind. -/
theorem C43_stray_commit (E : Engine σ) (disk : SDb σ) {b k x : Str} (body rest : List Str)
    (hb : stmtKind b = .begin) (hk : stmtKind k = .commit)
    (ho : ∀ s ∈ body, stmtKind s = .other ∨ stmtKind s = .blank) {d : SDb σ} (hd : applyBody E body disk = .ok d) :
    (stmtKind x = .commit ∨ stmtKind x = .rollback →
      execAll E { disk := disk, tx := none } (b :: (body ++ k :: x :: rest))
        = ({ disk := d, tx := none }, some .operationalError)) ∧
    (stmtKind x = .begin →
      ∃ c', execAll E { disk := disk, tx := none } (b :: (body ++ x :: rest)) = (c', some .operationalError) ∧
        c'.disk = disk) := by
  have h0 : execOne E { disk := disk, tx := none } b = .ok { disk := disk, tx := some disk } := by
    unfold execOne; rw [hb]
  constructor
  · intro hx
    have h1 := execAll_body E disk (k :: x :: rest) body disk ho
    rw [hd] at h1
    simp only [execAll, h0]
    rw [h1]
    have h3 : execOne E { disk := disk, tx := some d } k = .ok { disk := d, tx := none } := by
      unfold execOne; rw [hk]
    have h4 : execOne E { disk := d, tx := none } x = .error .operationalError := by
      unfold execOne
      rcases hx with hx | hx <;> rw [hx]
    simp only [execAll, h3, h4]
  · intro hx
    have h1 := execAll_body E disk (x :: rest) body disk ho
    rw [hd] at h1
    simp only [execAll, h0]
    rw [h1]
    have h4 : execOne E { disk := disk, tx := some d } x = .error .operationalError := by
      unfold execOne; rw [hx]
    simp only [execAll, h4]
    exact ⟨_, rfl, rfl⟩

/-- such scripts pass the check of their first and last words -/
example : migrateDb Sample.listEngine (some fun id => if id = 5 then some (py! "BEGIN;A;COMMIT;COMMIT;") else none)
      false false (some ⟨[], 4⟩) = (some ⟨[py! "A"], 4⟩, .error .operationalError) ∧
    migrateDb Sample.listEngine (some fun id => if id = 5 then some (py! "BEGIN;A;BEGIN;COMMIT;") else none)
      false false (some ⟨[], 4⟩) = (some ⟨[], 4⟩, .error .operationalError) := ⟨rfl, rfl⟩

/-! ### C44 -/

/-- **C44**, what a crash leaves behind: the file as it was, a new empty file, some scripts applied and
recorded, or - the dangerous case - one more script committed without being recorded, because the
version is set after the `COMMIT`. -/
theorem C44_crash_states (E : Engine σ) (dir : SqlDir) (body : Nat → List Str) (force : Bool)
    (file : Option (SDb σ)) (v : Nat) (hs : Start file force v) (hok : ScriptsOk dir body (idsFrom v)) :
    ∀ x ∈ crashFiles E dir force file,
      x = file ∨ ∃ done rest d y, idsFrom v = done ++ rest ∧ (∀ id ∈ done, Present dir id) ∧
        applied E body done (contents E file) = .ok d ∧ x = some y ∧
        (y = d ∨ ∃ id rest', rest = id :: rest' ∧ Present dir id ∧ applyBody E (body id) d = .ok y) := by
  intro x hx
  unfold crashFiles at hx
  rw [start_version hs] at hx
  rcases List.mem_cons.mp hx with rfl | hx
  · exact Or.inl rfl
  · obtain ⟨y, hy, rfl⟩ := List.mem_map.mp hx
    obtain ⟨done, rest, d, h1, h0, h2, h3⟩ :=
      loopDisks_spec E dir body (idsFrom v) (contents E file) hok y hy
    exact Or.inr ⟨done, rest, d, y, h1, h0, h2, rfl, h3⟩

/-- the run from an intermediate state is the rest of the run -/
theorem migrateLoop_resume (E : Engine σ) (dir : SqlDir) (body : Nat → List Str)
    {done rest : List Nat} {d0 d : SDb σ} (hok : ScriptsOk dir body (done ++ rest))
    (hpres : ∀ id ∈ done, Present dir id)
    (h : applied E body done d0 = .ok d) :
    migrateLoop E dir false (done ++ rest) { disk := d0, tx := none }
      = migrateLoop E dir false rest { disk := d, tx := none } := by
  induction done generalizing d0 with
  | nil => cases h; rfl
  | cons id ids ih =>
    simp only [applied] at h
    obtain ⟨t, ht', hf⟩ := hpres id (by simp)
    rcases hok id (by simp) with hn | ⟨text, ht, hb | hone⟩
    · rw [hn] at ht'; cases ht'
    · rw [ht] at ht'; cases ht'; exact absurd hf hb
    · cases ha : applyBody E (body id) d0 with
      | error e => rw [ha] at h; cases h
      | ok d1 =>
        rw [ha] at h
        have hx := executescript_one E { disk := d0, tx := none } hone id rfl
        simp only [ha] at hx
        simp only [List.cons_append, migrateLoop, readMigration_ok ht hone.framed, hx,
          Bool.false_eq_true, if_false]
        exact ih (fun i hi => hok i (List.mem_cons_of_mem _ hi))
          (fun i hi => hpres i (List.mem_cons_of_mem _ hi)) h

/-- **C44**, the part that holds (partial; the other crash states are the two cases below): from a state in which some scripts have been applied and
recorded, and which is not of version 0 (or with `force`), running `migrate_db` again gives exactly the
result of the uninterrupted run. -/
theorem C44_resume_partial (E : Engine σ) (dir : SqlDir) (body : Nat → List Str) (force : Bool)
    (file : Option (SDb σ)) (v : Nat) (hs : Start file force v) (hok : ScriptsOk dir body (idsFrom v))
    (done rest : List Nat) (d : SDb σ) (hd : idsFrom v = done ++ rest)
    (hpres : ∀ id ∈ done, Present dir id)
    (ha : applied E body done (contents E file) = .ok d)
    (hrec : v + done.length ≠ 0 ∨ force = true) :
    migrateDb E (some dir) false force (some d) = migrateDb E (some dir) false force file := by
  obtain ⟨h1, h2⟩ := idsFrom_split hd
  have hv : d.version = (v + done.length : Nat) := by
    rw [applied_version ha, start_contents hs]
    exact h2
  have hs' : Start (some d) force (v + done.length) := Or.inr ⟨d, rfl, hv, hrec⟩
  rw [migrateDb_start hs', migrateDb_start hs, hd,
    migrateLoop_resume E dir body (hd ▸ hok) hpres ha, h1]
  rfl

/-- **C44**: what happens after a crash between the `COMMIT` of script `id` and the recording of its
version: the script is executed a second time, on its own result. If it fails there, no run ever gets
past it; if it leaves its result as it is, the final state is that of an uninterrupted run. -/
theorem C44_not_recorded (E : Engine σ) (hE : KeepsVersion E) (dir : SqlDir) (body : Nat → List Str)
    (id : Nat) (rest : List Nat) (d y : SDb σ) (w : Nat) (force : Bool)
    (hok : ScriptsOk dir body (id :: rest)) (hid : idsFrom w = id :: rest)
    (hpres : Present dir id)
    (hw : d.version = w) (hw0 : w ≠ 0 ∨ force = true)
    (hy : applyBody E (body id) d = .ok y) :
    (∀ e, applyBody E (body id) y = .error e →
      migrateDb E (some dir) false force (some y) = (some y, .error e)) ∧
    (applyBody E (body id) y = .ok y →
      migrateDb E (some dir) false force (some y) = migrateDb E (some dir) false force (some d)) := by
  have hkeep : ∀ (ss : List Str) (a b : SDb σ), applyBody E ss a = .ok b → b.version = a.version := by
    intro ss
    induction ss with
    | nil => intro a b h; cases h; rfl
    | cons s ss ih =>
      intro a b h
      simp only [applyBody] at h
      split at h
      · exact ih a b h
      · split at h
        · rename_i a' he
          exact (ih a' b h).trans (hE _ _ _ he)
        · cases h
  have hyv : y.version = w := by rw [hkeep _ _ _ hy, hw]
  have hone : ∃ text, dir id = some text ∧ OneTransaction text (body id) := by
    obtain ⟨t, ht, hf⟩ := hpres
    rcases hok id (by simp) with hn | ⟨text, ht', hb | hone⟩
    · rw [hn] at ht; cases ht
    · rw [ht] at ht'; cases ht'; exact absurd hf hb
    · exact ⟨text, ht', hone⟩
  obtain ⟨text, ht, hone⟩ := hone
  have hsy : Start (some y) force w := Or.inr ⟨y, rfl, hyv, hw0⟩
  have hsd : Start (some d) force w := Or.inr ⟨d, rfl, hw, hw0⟩
  refine ⟨fun e he => ?_, fun hfix => ?_⟩
  · have hx := executescript_one E { disk := y, tx := none } hone id rfl
    simp only [he] at hx
    obtain ⟨c', h1, h2⟩ := hx
    rw [migrateDb_start hsy, hid]
    show (let r := closeWith (migrateLoop E dir false (id :: rest) { disk := y, tx := none })
          (some r.1, r.2)) = _
    simp only [migrateLoop, readMigration_ok ht hone.framed, h1, Bool.false_eq_true, if_false, closeWith,
      Conn.rollback, h2]
  · have hx := executescript_one E { disk := y, tx := none } hone id rfl
    simp only [hfix] at hx
    have hx' := executescript_one E { disk := d, tx := none } hone id rfl
    simp only [hy] at hx'
    rw [migrateDb_start hsy, migrateDb_start hsd, hid]
    have hc : ∀ z : SDb σ, contents E (some z) = z := fun _ => rfl
    simp only [hc, migrateLoop, readMigration_ok ht hone.framed, hx, hx', Bool.false_eq_true, if_false]

/-- non-vacuity: a crash of the sample migration after the `COMMIT` of script 2; the second run executes
the script again -/
example :
    some ⟨[py! "A", py! "B ';'"], 1⟩ ∈ crashFiles Sample.listEngine Sample.sqlDir false none ∧
    (migrateDb Sample.listEngine (some Sample.sqlDir) false false (some ⟨[py! "A", py! "B ';'"], 1⟩)).1
      = some ⟨[py! "A", py! "B ';'", py! "B ';'"], 2⟩ := by decide +kernel

/-- **C44**: a crash during the first migration of a new database leaves a file of version 0, which
every later run refuses unless it is forced - for every directory and engine. -/
theorem C44_first_refused (E : Engine σ) (dir : SqlDir) (noop : Bool) :
    some ⟨E.empty, 0⟩ ∈ crashFiles E dir false none ∧
    migrateDb E (some dir) noop false (some ⟨E.empty, 0⟩) = (some ⟨E.empty, 0⟩, .error .fileExists) := by
  refine ⟨?_, rfl⟩
  refine List.mem_cons_of_mem _ ?_
  simp only [readSchemaVersion]
  refine List.mem_map.mpr ⟨⟨E.empty, 0⟩, ?_, rfl⟩
  show _ ∈ loopDisks E dir (1 :: [2, 3, 4, 5]) _
  simp only [loopDisks]
  cases readMigration dir 1 with
  | error e => simp [openConn]
  | ok s => simp [openConn]

end PyULog
