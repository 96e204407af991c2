import Verif.Lemmas.ArgsErr
/-
C92, C93: the command lines of the tools.
-/
namespace PyULog
open Spec

/-- the result of a parser from the state at the end -/
theorem parseArgs_run {d : CliDecl} {isDir : Str → Bool} {argv : List Str} {ts : List Tok} (h : classify d argv = .ok ts) :
    parseArgs d isDir argv = argRun d isDir ts { ns := d.defaults, left := d.pos } >>= fun st =>
      if st.left.any fun p => !p.opt then .error 2 else if st.extras ≠ [] then .error 2 else .ok st.ns := by
  unfold parseArgs
  rw [h, exit_bind]
  rfl

/-- The declarations of the eight tools have the shape that C92 and C93 are about. -/
theorem C92_tools : Orderly gpsCli ∧ Orderly infoCli ∧ Orderly messagesCli ∧ Orderly migrateCli ∧ Orderly paramsCli ∧
    Orderly csvCli ∧ Orderly kmlCli ∧ Orderly bagCli := by
  refine ⟨?_, ?_, ?_, ?_, ?_, ?_, ?_, ?_⟩ <;>
    exact ⟨by decide +kernel, by decide +kernel, by decide +kernel, by decide +kernel⟩

/-- the program has exactly the options with these names -/
def Spec.Offers (d : CliDecl) (names : List (List Str)) : Prop := d.opts.map (·.names) = names

/-- **C92**, the options of the programs under all of their names. The same letter stands for different options: `-i` is
`--ignore`, `--initial` or `--instance`, `-o` a file, a directory or a bag. -/
theorem C92_names :
    Offers gpsCli [[py! "-o", py! "--output"], [py! "-x", py! "--ignore"], [py! "-i", py! "--instance"]] ∧
    Offers infoCli [[py! "-v", py! "--verbose"], [py! "-m", py! "--message"], [py! "-n", py! "--newline"], [py! "-i", py! "--ignore"]] ∧
    Offers messagesCli [[py! "-i", py! "--ignore"]] ∧
    Offers migrateCli [[py! "-d", py! "--database"], [py! "-n", py! "--noop"], [py! "-s", py! "--sql"], [py! "-f", py! "--force"]] ∧
    Offers paramsCli [[py! "-l", py! "--delimiter"], [py! "-i", py! "--initial"], [py! "-t", py! "--timestamps"], [py! "-f", py! "--format"], [py! "--ignore"], [py! "-d", py! "--default"]] ∧
    Offers csvCli [[py! "-m", py! "--messages"], [py! "-d", py! "--delimiter"], [py! "-o", py! "--output"], [py! "-i", py! "--ignore"], [py! "-ts", py! "--time_s"], [py! "-te", py! "--time_e"]] ∧
    Offers kmlCli [[py! "-o", py! "--output"], [py! "--topic"], [py! "--camera-trigger"], [py! "-i", py! "--ignore"]] ∧
    Offers bagCli [[py! "-o", py! "--output"], [py! "--mcap"], [py! "-m", py! "--messages"], [py! "-i", py! "--ignore"], [py! "-v", py! "--verbose"]] := by
  exact ⟨rfl, rfl, rfl, rfl, rfl, rfl, rfl, rfl⟩

/-- whether options have a value, and which -/
def Spec.Kinds (d : CliDecl) (flags texts numbers directories : List Str) : Prop :=
  (d.opts.filter fun o => o.action = .storeTrue).filterMap (·.names.head?) = flags ∧
  (d.opts.filter fun o => o.action = .store .text).filterMap (·.names.head?) = texts ∧
  (d.opts.filter fun o => o.action = .store .int).filterMap (·.names.head?) = numbers ∧
  (d.opts.filter fun o => o.action = .store .dir).filterMap (·.names.head?) = directories

/-- **C92**, which options are flags, and which have a text, a number or the name of a directory as their value. The
output of `ulog_extract_gps_dump` is a directory that exists; the instance is a text (it is converted later). -/
theorem C92_kinds :
    Kinds gpsCli [py! "-x"] [py! "-i"] [] [py! "-o"] ∧
    Kinds infoCli [py! "-v", py! "-n", py! "-i"] [py! "-m"] [] [] ∧
    Kinds messagesCli [py! "-i"] [] [] [] ∧
    Kinds migrateCli [py! "-n", py! "-f"] [py! "-d", py! "-s"] [] [] ∧
    Kinds paramsCli [py! "-i", py! "-t", py! "--ignore"] [py! "-l", py! "-f", py! "-d"] [] [] ∧
    Kinds csvCli [py! "-i"] [py! "-m", py! "-d", py! "-o"] [py! "-ts", py! "-te"] [] ∧
    Kinds kmlCli [py! "-i"] [py! "-o", py! "--topic", py! "--camera-trigger"] [] [] ∧
    Kinds bagCli [py! "--mcap", py! "-i", py! "-v"] [py! "-o", py! "-m"] [] [] := by
  unfold Kinds
  decide +kernel

/-- C92: options, file names, options: every option of the line has the last value that is given for it or its
default, and the file names are the arguments in turn. There are as many file names as arguments, optional ones may
be missing at the end. -/
theorem C92_line {d : CliDecl} (hd : Orderly d) {isDir : Str → Bool} {pre fs post : List Str}
    {l1 l2 : List (OptDecl × ArgVal)} (h1 : Line d isDir pre l1) (h2 : Line d isDir post l2)
    (hf : ∀ f ∈ fs, PlainWord d f) (hl : fs.length ≤ d.pos.length) (hr : ∀ p ∈ d.pos.drop fs.length, p.opt = true)
    (hn : fs ≠ [] ∨ post = []) :
    ∃ ns, parseArgs d isDir (pre ++ fs ++ post) = .ok ns ∧ Means d fs (l1 ++ l2) ns := by
  obtain ⟨t1, c1, _, _, r1⟩ := line_tokens hd h1
  obtain ⟨t2, c2, s2, e2, r2⟩ := line_tokens hd h2
  have hstop : StopsHere t2 := by
    intro t ht
    by_cases hp : post = []
    · rw [e2 hp] at ht; cases ht
    · obtain ⟨u, us, rfl, hu⟩ := s2 hp
      injection ht with ht
      rw [← ht]; exact hu
  have hcls : classify d (pre ++ fs ++ post) = .ok (t1 ++ (fs.map Tok.arg ++ t2)) := by
    have := c2 []
    rw [List.append_nil] at this
    rw [List.append_assoc, c1, classify_plains hd hf, this]
    simp [classify, Except.map]
  obtain ⟨m1, m2⟩ := match_files hl hr (fun f hx => plain_dash (hf f hx)) hstop
  refine ⟨_, ?_, means_of hd h1 h2 fs⟩
  rw [parseArgs_run hcls, r1]
  dsimp only
  have hend : argRun d isDir (fs.map Tok.arg ++ t2) { ns := setAll l1 d.defaults, left := d.pos }
      = .ok { ns := setAll l2 (setPos d.pos fs (setAll l1 d.defaults)), left := [], extras := [] } := by
    have hc : consumePos { ns := setAll l1 d.defaults, left := d.pos } (fs.map Tok.arg ++ t2)
        = ({ ns := setPos d.pos fs (setAll l1 d.defaults), left := [], extras := [] }, t2) := by
      unfold consumePos
      dsimp only
      rw [m1, m2]
    by_cases hp : post = []
    · have ht := e2 hp
      subst ht
      have hl2 := line_nil h2 hp
      rw [argRun_end, hc]
      · subst hl2
        rfl
      · simp [Tok.isOpt]
    · obtain ⟨u, us, hu, hu'⟩ := s2 hp
      have hfs := hn.resolve_right hp
      obtain ⟨f, fs', rfl⟩ := List.exists_cons_of_ne_nil hfs
      have := argRun_pos (d := d) (isDir := isDir) (t := .arg f) (rest := fs'.map Tok.arg ++ t2)
        (st := { ns := setAll l1 d.defaults, left := d.pos }) rfl
        (by subst hu; simp [hu']) (by
          rw [show Tok.arg f :: (fs'.map Tok.arg ++ t2) = (f :: fs').map Tok.arg ++ t2 from rfl, hc]
          simp only [List.map_cons, List.cons_append, List.length_cons, List.length_append]
          omega)
      rw [show Tok.arg f :: (fs'.map Tok.arg ++ t2) = (f :: fs').map Tok.arg ++ t2 from rfl, hc] at this
      rw [this, ← List.append_nil t2, r2, argRun_end rfl]
      rfl
  rw [hend, exit_bind]
  rfl

/-- Behind a `--` everything is a file name. -/
theorem C92_dashes {d : CliDecl} (hd : Orderly d) {isDir : Str → Bool} {pre fs : List Str} {f : Str}
    {l : List (OptDecl × ArgVal)} (h : Line d isDir pre l) (hf : ∀ f ∈ fs, f ≠ py! "--")
    (hl : (f :: fs).length ≤ d.pos.length) (hr : ∀ p ∈ d.pos.drop (f :: fs).length, p.opt = true) :
    ∃ ns, parseArgs d isDir (pre ++ py! "--" :: f :: fs) = .ok ns ∧ Means d (f :: fs) l ns := by
  obtain ⟨t1, c1, _, _, r1⟩ := line_tokens hd h
  have hcls : classify d (pre ++ py! "--" :: f :: fs) = .ok (t1 ++ .dash :: (f :: fs).map Tok.arg) := by
    rw [c1, classify, if_pos rfl]
    rfl
  obtain ⟨m1, m2⟩ := match_dash hl hr hf
  have hm := means_of hd h (Line.nil : Line d isDir [] []) (f :: fs)
  rw [List.append_nil] at hm
  refine ⟨_, ?_, hm⟩
  rw [parseArgs_run hcls, r1]
  dsimp only
  rw [argRun_end (by simp [Tok.isOpt])]
  unfold consumePos
  dsimp only
  rw [m1, m2]
  rfl

/-- a command line -/
def sampleArgs : List Str := [py! "-i", py! "log.ulg", py! "--delim=;", py! "-ts", py! "-3"]

/-- non-vacuity of C92_line: `ulog2csv -i log.ulg --delim=; -ts -3` -/
example : ∃ ns, parseArgs csvCli (fun _ => false) sampleArgs = .ok ns ∧ ns.get? (py! "filename") = some (.str (py! "log.ulg")) ∧
    ns.get? (py! "ignore") = some (.bool true) ∧ ns.get? (py! "delimiter") = some (.str (py! ";")) ∧
    ns.get? (py! "time_s") = some (.int (-3)) ∧ ns.get? (py! "time_e") = some .none := by
  have hd := C92_tools.2.2.2.2.2.1
  have ho : ∀ (i : Nat) (o : OptDecl), csvCli.opts[i]? = some o → o ∈ csvCli.opts := fun i o h => List.mem_of_getElem? h
  have h1 : Line csvCli (fun _ => false) [py! "-i"] [(csvCli.opts[3], .bool true)] :=
    .cons (.flag (ho 3 _ rfl) (.inl (by decide)) rfl) .nil
  have h2 : Line csvCli (fun _ => false) [py! "--delim=;", py! "-ts", py! "-3"]
      [(csvCli.opts[1], .str (py! ";")), (csvCli.opts[4], .int (-3))] := by
    refine Line.cons (w := [py! "--delim=;"]) (l := [(csvCli.opts[1], .str (py! ";"))]) ?_
      (Line.cons (w := [py! "-ts", py! "-3"]) (l := [(csvCli.opts[4], .int (-3))]) (ws := []) (ls := []) ?_ .nil)
    · exact Says.equals (s := py! "--delim") (ho 1 _ rfl)
        (.inr ⟨py! "--delimiter", by decide, by decide, by decide, by decide, by decide, by decide⟩) rfl .text
    · refine Says.value (ho 4 _ rfl) (.inl (by decide)) rfl (.inr (.inr (.inl ⟨['3'], rfl, by decide, ?_⟩))) (.int ?_)
      · intro c hc
        rw [List.mem_singleton.mp hc]
        exact ⟨3, digit_iff.mp (by decide)⟩
      · exact (C61_int _ _).mp (by rfl)
  obtain ⟨ns, hns, hm⟩ := C92_line hd h1 h2 (fs := [py! "log.ulg"]) (by
    intro f hf
    rw [List.mem_singleton.mp hf]
    exact .inl (by decide)) (by decide) (by decide) (.inl (by decide))
  refine ⟨ns, hns, hm.files 0 _ rfl, ?_, ?_, ?_, ?_⟩
  · rw [hm.options _ (ho 3 _ rfl)]; rfl
  · rw [hm.options _ (ho 1 _ rfl)]; rfl
  · rw [hm.options _ (ho 4 _ rfl)]; rfl
  · rw [hm.options _ (ho 5 _ rfl)]; rfl

/-- a value with a space may begin with a dash: `ulog_info -m "-x y" a` -/
example : ∃ ns, parseArgs infoCli (fun _ => false) [py! "-m", py! "-x y", py! "a"] = .ok ns ∧
    ns.get? (py! "message") = some (.str (py! "-x y")) := by
  have h1 : Line infoCli (fun _ => false) [py! "-m", py! "-x y"] [(infoCli.opts[1], .str (py! "-x y"))] :=
    .cons (w := [py! "-m", py! "-x y"]) (ws := []) (ls := []) (.value (List.mem_of_getElem? (i := 1) rfl) (.inl (by decide)) rfl
      (.inr (.inr (.inr ⟨by decide, 'x', py! " y", rfl, by decide, by decide⟩))) .text) .nil
  obtain ⟨ns, hns, hm⟩ := C92_line C92_tools.2.1 h1 .nil (fs := [py! "a"]) (by
    intro f hf
    rw [List.mem_singleton.mp hf]
    exact .inl (by decide)) (by decide) (by decide) (.inl (by decide))
  exact ⟨ns, hns, by rw [hm.options _ (List.mem_of_getElem? (i := 1) rfl)]; rfl⟩

/-- bundles: `ulog_params -itl; file` -/
example : ∃ ns, parseArgs paramsCli (fun _ => false) [py! "-itl;", py! "a"] = .ok ns ∧
    ns.get? (py! "initial") = some (.bool true) ∧ ns.get? (py! "delimiter") = some (.str (py! ";")) ∧
    ns.get? (py! "output_filename") = some .none := by
  have hd := C92_tools.2.2.2.2.1
  have ho : ∀ (i : Nat) (o : OptDecl), paramsCli.opts[i]? = some o → o ∈ paramsCli.opts := fun i o h => List.mem_of_getElem? h
  have h1 : Line paramsCli (fun _ => false) [py! "-itl;"]
      [(paramsCli.opts[1], .bool true), (paramsCli.opts[2], .bool true), (paramsCli.opts[0], .str (py! ";"))] :=
    .cons (.bundle (w := none) (.more (ho 1 _ rfl) (by decide) rfl (.more (ho 2 _ rfl) (by decide) rfl
      (.attached (ho 0 _ rfl) (by decide) rfl (by decide) (by decide) .text)))) .nil
  obtain ⟨ns, hns, hm⟩ := C92_line hd h1 Line.nil (fs := [py! "a"]) (by
    intro f hf
    rw [List.mem_singleton.mp hf]
    exact .inl (by decide)) (by decide) (by decide) (.inr rfl)
  refine ⟨ns, hns, ?_, ?_, hm.files 1 _ rfl⟩
  · rw [hm.options _ (ho 1 _ rfl)]; rfl
  · rw [hm.options _ (ho 0 _ rfl)]; rfl

/-- non-vacuity of C92_dashes -/
example : ∃ ns, parseArgs infoCli (fun _ => false) [py! "--", py! "-n"] = .ok ns ∧
    ns.get? (py! "filename") = some (.str (py! "-n")) ∧ ns.get? (py! "newline") = some (.bool false) := by
  obtain ⟨ns, hns, hm⟩ := C92_dashes C92_tools.2.1 (isDir := fun _ => false) (pre := []) (f := py! "-n") (fs := []) .nil
    (by intro f hf; cases hf) (by decide) (by decide)
  refine ⟨ns, hns, hm.files 0 _ rfl, ?_⟩
  exact hm.options infoCli.opts[2] (List.mem_of_getElem? (i := 2) rfl)

/-! ### refused command lines -/

/-- C93: the exit code of a refused command line is 2; it is 0 only when a word may ask for the help. -/
theorem C93_code {d : CliDecl} (hh : ∀ o ∈ d.opts, o.action ≠ .help) {isDir : Str → Bool} {argv : List Str} {c : Nat}
    (h : parseArgs d isDir argv = .error c) : c = 2 ∨ (c = 0 ∧ ∃ w ∈ argv, MayHelp w) := by
  unfold parseArgs at h
  rcases exit_bind_error.mp h with h | ⟨ts, hts, h⟩
  · exact .inl (classify_error h)
  · rcases exit_bind_error.mp h with h | ⟨st, hst, h⟩
    · obtain ⟨st', s, f, rest, hm, he⟩ := argLoop_error h
      rcases consumeOpt_error he with he | ⟨h0, o, x, fuel, hfo, hx, hy⟩
      · exact .inl he
      · obtain ⟨h1, h2, h3⟩ := classify_opts hts hm
        obtain ⟨p1, p2, p3⟩ := parse_help hh h3 h2
        refine .inr ⟨h0, s, h1, ?_⟩
        rcases optActions_help hh hx hy with ha | ⟨e, he, hin⟩
        · exact p2 o hfo ha
        · exact ⟨p1, .inl (p3 e he _ hin)⟩
    · split at h
      · cases h; exact .inl rfl
      · split at h <;> cases h; exact .inl rfl

/-- the tools declare no other option for the help -/
theorem C93_help_option : ∀ d ∈ [gpsCli, infoCli, messagesCli, migrateCli, paramsCli, csvCli, kmlCli, bagCli],
    ∀ o ∈ d.opts, o.action ≠ .help := by
  decide +kernel

/-- Behind options `-h` and `--help` end the program with the code 0, whatever options and file names follow. -/
theorem C93_help {d : CliDecl} (hd : Orderly d) {isDir : Str → Bool} {pre fs post : List Str} {l1 l2 : List (OptDecl × ArgVal)}
    {w : Str} (h1 : Line d isDir pre l1) (hw : w = py! "-h" ∨ w = py! "--help") (hf : ∀ f ∈ fs, PlainWord d f)
    (h2 : Line d isDir post l2) : parseArgs d isDir (pre ++ w :: (fs ++ post)) = .error 0 := by
  obtain ⟨t1, c1, _, _, r1⟩ := line_tokens hd h1
  obtain ⟨t2, c2, _, _, _⟩ := line_tokens hd h2
  have hn : w ∈ helpOpt.names := by rcases hw with rfl | rfl <;> decide
  have hm : w ∈ optionNames d := by rcases hw with rfl | rfl <;> simp [optionNames]
  have hdash : w ≠ py! "--" := by rcases hw with rfl | rfl <;> decide
  have hcls : classify d (pre ++ w :: (fs ++ post))
      = .ok (t1 ++ .opt w ⟨some helpOpt, w, false, none⟩ :: (fs.map Tok.arg ++ t2)) := by
    have := c2 []
    rw [List.append_nil] at this
    rw [c1, classify_found (parse_exact hd (.inl rfl) hn hm) hdash, classify_plains hd hf, this]
    simp [classify, Except.map]
  rw [parseArgs_run hcls, r1, argRun_opt]
  rfl

/-- No file name: refused when one is needed. -/
theorem C93_missing {d : CliDecl} (hd : Orderly d) {isDir : Str → Bool} {pre : List Str} {l : List (OptDecl × ArgVal)}
    (h : Line d isDir pre l) (hp : ∃ p ∈ d.pos, p.opt = false) : parseArgs d isDir pre = .error 2 := by
  obtain ⟨t1, c1, _, _, r1⟩ := line_tokens hd h
  have hcls := c1 []
  rw [List.append_nil] at hcls
  obtain ⟨q, hq, hqo⟩ := matchPartial_required hp
  rw [parseArgs_run hcls, r1, argRun_end rfl, exit_bind]
  unfold consumePos
  dsimp only
  rw [if_pos]
  rw [List.any_eq_true]
  exact ⟨q, hq, by rw [hqo]; rfl⟩

/-- Another file name behind as many as there are arguments, or behind an option that follows file names: refused. So the
optional file name of `ulog_params` cannot follow an option that follows the first one. -/
theorem C93_files {d : CliDecl} (hd : Orderly d) {isDir : Str → Bool} {pre fs mid gs post : List Str}
    {l1 l2 l3 : List (OptDecl × ArgVal)} (h1 : Line d isDir pre l1) (h2 : Line d isDir mid l2) (h3 : Line d isDir post l3)
    (hf : ∀ f ∈ fs, PlainWord d f) (hl : fs.length ≤ d.pos.length) (hr : ∀ p ∈ d.pos.drop fs.length, p.opt = true)
    (hn : fs ≠ [] ∨ d.pos = []) (hmid : mid ≠ [] ∨ fs.length = d.pos.length) (hg : ∀ g ∈ gs, PlainWord d g) (hgs : gs ≠ []) :
    parseArgs d isDir (pre ++ fs ++ mid ++ gs ++ post) = .error 2 := by
  obtain ⟨t1, c1, _, _, r1⟩ := line_tokens hd h1
  obtain ⟨t2, c2, s2, e2, r2⟩ := line_tokens hd h2
  obtain ⟨t3, c3, s3, e3, r3⟩ := line_tokens hd h3
  have hstop : ∀ {w : List Str} {t : List Tok}, (w ≠ [] → ∃ u us, t = u :: us ∧ u.isOpt = true) → (w = [] → t = []) → StopsHere t := by
    intro w t hs he u hu
    by_cases hp : w = []
    · rw [he hp] at hu; cases hu
    · obtain ⟨v, vs, rfl, hv⟩ := hs hp
      injection hu with hu
      rw [← hu]; exact hv
  have hst3 := hstop s3 e3
  have hcls : classify d (pre ++ fs ++ mid ++ gs ++ post) = .ok (t1 ++ (fs.map Tok.arg ++ (t2 ++ (gs.map Tok.arg ++ t3)))) := by
    have := c3 []
    rw [List.append_nil] at this
    rw [List.append_assoc, List.append_assoc, List.append_assoc, c1, classify_plains hd hf, c2, classify_plains hd hg, this]
    simp [classify, Except.map]
  -- behind the last argument
  have hrest : ∀ st : ArgSt, st.left = [] → ∃ st', argRun d isDir (t2 ++ (gs.map Tok.arg ++ t3)) st = .ok st' ∧
      st'.left = [] ∧ st'.extras ≠ [] := by
    intro st hst
    rw [r2]
    by_cases hp : post = []
    · rw [e3 hp, List.append_nil, argRun_end (by simp [Tok.isOpt]),
        consumePos_none (st := { st with ns := setAll l2 st.ns }) hst]
      refine ⟨_, rfl, hst, ?_⟩
      simp [hgs]
    · obtain ⟨u, us, hu, _⟩ := s3 hp
      rw [files_left (st := { st with ns := setAll l2 st.ns }) hst hst3 (by rw [hu]; simp), ← List.append_nil t3, r3,
        argRun_end rfl]
      dsimp only
      rw [consumePos_none (st := { ns := setAll l3 (setAll l2 st.ns), left := st.left, extras := st.extras ++ gs }) hst]
      refine ⟨_, rfl, hst, ?_⟩
      simp [hgs]
  have hend : ∃ st', argRun d isDir (fs.map Tok.arg ++ (t2 ++ (gs.map Tok.arg ++ t3)))
      { ns := setAll l1 d.defaults, left := d.pos } = .ok st' ∧ st'.left = [] ∧ st'.extras ≠ [] := by
    by_cases hfs : fs = []
    · subst hfs
      exact hrest _ (hn.resolve_left fun h => h rfl)
    obtain ⟨f, fs', rfl⟩ := List.exists_cons_of_ne_nil hfs
    have hm : (matchPartial d.pos ((f :: fs').map Tok.arg ++ (t2 ++ (gs.map Tok.arg ++ t3)))).2
        = ([], t2 ++ (gs.map Tok.arg ++ t3)) := by
      by_cases hme : mid = []
      · rw [e2 hme, List.nil_append]
        exact (match_full (hmid.resolve_left fun h => h hme) (fun f hx => plain_dash (hf f hx)) hst3).1
      · refine (match_files hl hr (fun f hx => plain_dash (hf f hx)) ?_).1
        obtain ⟨u, us, rfl, hu⟩ := s2 hme
        intro t ht
        injection ht with ht
        rw [← ht]; exact hu
    cases hany : ((f :: fs').map Tok.arg ++ (t2 ++ (gs.map Tok.arg ++ t3))).any Tok.isOpt with
    | true =>
      have hlen : (consumePos { ns := setAll l1 d.defaults, left := d.pos }
          (Tok.arg f :: (fs'.map Tok.arg ++ (t2 ++ (gs.map Tok.arg ++ t3))))).2.length
          < (Tok.arg f :: (fs'.map Tok.arg ++ (t2 ++ (gs.map Tok.arg ++ t3)))).length := by
        show (matchPartial d.pos ((f :: fs').map Tok.arg ++ (t2 ++ (gs.map Tok.arg ++ t3)))).2.2.length < _
        rw [hm]
        simp only [List.length_cons, List.length_append]
        omega
      have := argRun_pos (d := d) (isDir := isDir) (t := .arg f) (rest := fs'.map Tok.arg ++ (t2 ++ (gs.map Tok.arg ++ t3)))
        (st := { ns := setAll l1 d.defaults, left := d.pos }) rfl hany hlen
      rw [show (f :: fs').map Tok.arg ++ (t2 ++ (gs.map Tok.arg ++ t3))
        = .arg f :: (fs'.map Tok.arg ++ (t2 ++ (gs.map Tok.arg ++ t3))) from rfl, this]
      have h2 : (consumePos { ns := setAll l1 d.defaults, left := d.pos }
          (Tok.arg f :: (fs'.map Tok.arg ++ (t2 ++ (gs.map Tok.arg ++ t3))))).2 = t2 ++ (gs.map Tok.arg ++ t3) :=
        congrArg Prod.snd hm
      rw [h2]
      exact hrest _ (congrArg Prod.fst hm)
    | false =>
      rw [argRun_end hany]
      refine ⟨_, rfl, congrArg Prod.fst hm, ?_⟩
      show _ ++ List.map Tok.text (matchPartial d.pos ((f :: fs').map Tok.arg ++ (t2 ++ (gs.map Tok.arg ++ t3)))).2.2 ≠ []
      rw [hm]
      simp [hgs]
  obtain ⟨st', h1', h2', h3'⟩ := hend
  rw [parseArgs_run hcls, r1, h1', exit_bind, h2']
  exact if_pos h3'

/-- An option that wants a value, at the end of the line or before another option: refused. -/
theorem C93_no_value {d : CliDecl} (hd : Orderly d) {isDir : Str → Bool} {pre post : List Str} {l1 l2 : List (OptDecl × ArgVal)}
    {s : Str} {o : OptDecl} {t : ArgType} (h1 : Line d isDir pre l1) (ho : o ∈ d.opts) (hs : Spelled d s o)
    (ha : o.action = .store t) (h2 : Line d isDir post l2) : parseArgs d isDir (pre ++ s :: post) = .error 2 := by
  obtain ⟨t1, c1, _, _, r1⟩ := line_tokens hd h1
  obtain ⟨t2, c2, s2, e2, _⟩ := line_tokens hd h2
  obtain ⟨n, hp⟩ := parse_spelled hd ho hs
  have hcls : classify d (pre ++ s :: post) = .ok (t1 ++ .opt s ⟨some o, n, false, none⟩ :: t2) := by
    have := c2 []
    rw [List.append_nil] at this
    rw [c1, classify_found hp (spelled_dash hd ho hs).1, this]
    simp [classify, Except.map]
  rw [parseArgs_run hcls, r1, argRun_opt]
  unfold consumeOpt
  dsimp only
  rw [optActions_none, if_pos (takes_store ha)]
  by_cases hpost : post = []
  · rw [e2 hpost]
    rfl
  · obtain ⟨u, us, rfl, hu⟩ := s2 hpost
    cases u with
    | opt s f => rfl
    | arg s => cases hu
    | dash => cases hu

/-- A value that is no number, or no directory: refused. -/
theorem C93_bad_value {d : CliDecl} (hd : Orderly d) {isDir : Str → Bool} {pre fs post : List Str}
    {l1 l2 : List (OptDecl × ArgVal)} {s v : Str} {o : OptDecl} {t : ArgType} (h1 : Line d isDir pre l1) (ho : o ∈ d.opts)
    (hs : Spelled d s o) (ha : o.action = .store t) (hv : PlainWord d v) (hb : ∀ x, ¬ ValueOf isDir t v x)
    (hf : ∀ f ∈ fs, PlainWord d f) (h2 : Line d isDir post l2) :
    parseArgs d isDir (pre ++ s :: v :: (fs ++ post)) = .error 2 := by
  obtain ⟨t1, c1, _, _, r1⟩ := line_tokens hd h1
  obtain ⟨t2, c2, _, _, _⟩ := line_tokens hd h2
  obtain ⟨n, hp⟩ := parse_spelled hd ho hs
  have hcls : classify d (pre ++ s :: v :: (fs ++ post))
      = .ok (t1 ++ .opt s ⟨some o, n, false, none⟩ :: .arg v :: (fs.map Tok.arg ++ t2)) := by
    have := c2 []
    rw [List.append_nil] at this
    rw [c1, classify_found hp (spelled_dash hd ho hs).1, classify_plain hd hv, classify_plains hd hf, this]
    simp [classify, Except.map]
  have hconv : convertArg isDir t v = .error 2 := by
    unfold convertArg
    cases t with
    | text => exact absurd .text (hb _)
    | int =>
      dsimp only
      cases hi : pyInt v with
      | ok n => exact absurd (.int ((C61_int _ _).mp hi)) (hb _)
      | error e => rfl
    | dir =>
      dsimp only
      rw [if_neg fun h => hb _ (.dir h)]
  rw [parseArgs_run hcls, r1, argRun_opt]
  unfold consumeOpt
  dsimp only
  rw [optActions_none, if_pos (takes_store ha)]
  dsimp only
  rw [exit_bind, List.foldlM_cons]
  unfold takeOpt
  dsimp only
  rw [ha]
  dsimp only
  rw [hconv]
  rfl

/-- A word with a dash that names no option, not behind a `--`: refused. -/
theorem C93_unknown {d : CliDecl} {isDir : Str → Bool} {before after : List Str} {w : Str} (h : Unknown d w)
    (hb : py! "--" ∉ before) (ns : Dict Str ArgVal) : parseArgs d isDir (before ++ w :: after) ≠ .ok ns := by
  intro hok
  unfold parseArgs at hok
  obtain ⟨ts, hts, hok⟩ := exit_bind_ok.mp hok
  obtain ⟨st, hst, hok⟩ := exit_bind_ok.mp hok
  have := argLoop_extras (Nat.lt_succ_self _) hst
    (.inr ⟨_, _, classify_mem (parse_unknown h) (unknown_dash h) after before hb hts, leaves_unknown rfl⟩)
  rw [if_pos this] at hok
  split at hok <;> cases hok

/-- Flags behind a single dash, and then a letter that names no option, not behind a `--`: refused. -/
theorem C93_letters {d : CliDecl} (hd : Orderly d) {isDir : Str → Bool} {before after : List Str} {z c : Char} {fl e : Str}
    (hz : ∀ x ∈ z :: fl, ∃ o ∈ d.opts, ['-', x] ∈ o.names ∧ o.action = .storeTrue) (hc : ['-', c] ∉ optionNames d)
    (hb : py! "--" ∉ before) (ns : Dict Str ArgVal) :
    parseArgs d isDir (before ++ ('-' :: z :: (fl ++ c :: e)) :: after) ≠ .ok ns := by
  intro hok
  unfold parseArgs at hok
  obtain ⟨ts, hts, hok⟩ := exit_bind_ok.mp hok
  obtain ⟨st, hst, hok⟩ := exit_bind_ok.mp hok
  obtain ⟨o, ho, hn, ha⟩ := hz z (List.mem_cons_self ..)
  have hw : '-' :: z :: (fl ++ c :: e) ≠ py! "--" := by
    intro he
    injection he with _ he
    injection he with _ he
    exact absurd he (by simp)
  have hzd : z ≠ '-' := by
    rintro rfl
    obtain ⟨c', r, h1, h2⟩ := shape_cases hd (names_mem ho hn)
    injection h1 with _ h1
    injection h1 with h1 h3
    subst h1
    rcases h2 with h2 | ⟨_, h2⟩
    · revert h2; decide
    · exact h2 h3.symm
  have hleave : Leaves d isDir ('-' :: z :: (fl ++ c :: e))
      ⟨some o, ['-', z], (explOf (fl ++ c :: e)).1, (explOf (fl ++ c :: e)).2⟩ := by
    intro st rest x hx
    unfold consumeOpt at hx
    dsimp only at hx
    obtain ⟨y, hy, hx⟩ := exit_bind_ok.mp hx
    obtain ⟨ns', _, hx⟩ := exit_bind_ok.mp hx
    cases hx
    have := letters_leave hd hc e fl (fun x hx => hz x (List.mem_cons_of_mem _ hx)) (takes_flag ha) hzd hy
    intro hh
    exact this (List.append_eq_nil_iff.mp hh).2
  have := argLoop_extras (Nat.lt_succ_self _) hst
    (.inr ⟨_, _, classify_mem (parse_short hd ho hn _) hw after before hb hts, hleave⟩)
  rw [if_pos this] at hok
  split at hok <;> cases hok

/-- `ulog_info -vz log.ulg` -/
example (ns : Dict Str ArgVal) : parseArgs infoCli (fun _ => false) [py! "-vz", py! "log.ulg"] ≠ .ok ns :=
  C93_letters (before := []) (fl := []) (e := []) C92_tools.2.1 (by
    intro x hx
    rw [List.mem_singleton.mp hx]
    exact ⟨infoCli.opts[0], List.mem_of_getElem? (i := 0) rfl, by decide, rfl⟩) (by decide) (by simp) ns

/-- A flag with a value behind `=`, or a flag and then a dash: refused at once, even if the help is asked for later. -/
theorem C93_flag_value {d : CliDecl} (hd : Orderly d) {isDir : Str → Bool} {pre after : List Str} {l : List (OptDecl × ArgVal)}
    {z c : Char} {e : Str} (h : Line d isDir pre l) (hz : ∃ o ∈ d.opts, ['-', z] ∈ o.names ∧ o.action = .storeTrue)
    (hc : c = '-' ∨ c = '=') : parseArgs d isDir (pre ++ ('-' :: z :: c :: e) :: after) = .error 2 := by
  obtain ⟨t1, c1, _, _, r1⟩ := line_tokens hd h
  obtain ⟨o, ho, hn, ha⟩ := hz
  have hw : '-' :: z :: c :: e ≠ py! "--" := by simp
  have hzd : z ≠ '-' := by
    rintro rfl
    obtain ⟨c', r, h1, h2⟩ := shape_cases hd (names_mem ho hn)
    injection h1 with _ h1
    injection h1 with h1 h3
    subst h1
    rcases h2 with h2 | ⟨_, h2⟩
    · revert h2; decide
    · exact h2 h3.symm
  have hcls := c1 (('-' :: z :: c :: e) :: after)
  rw [classify_found (parse_short hd ho hn _) hw] at hcls
  cases hcl : classify d after with
  | error x =>
    rw [hcl] at hcls
    unfold parseArgs
    rw [hcls, classify_error hcl]
    rfl
  | ok ts =>
    rw [hcl] at hcls
    rw [parseArgs_run hcls, r1, argRun_opt]
    have hst : startsWith (py! "--") ['-', z] = false := by
      simp only [startsWith, List.isPrefixOf]
      simp [hzd.symm]
    have : ∀ n, optActions d ts n o ['-', z] (explOf (c :: e)).1 (explOf (c :: e)).2 = .error 2 := by
      intro n
      rcases hc with rfl | rfl
      · show optActions d ts n o ['-', z] false (some ('-' :: e)) = _
        unfold optActions
        rw [takes_flag ha, hst]
        cases n <;> rfl
      · show optActions d ts n o ['-', z] true (some e) = _
        unfold optActions
        rw [takes_flag ha, hst]
        cases e <;> cases n <;> rfl
    unfold consumeOpt
    dsimp only
    rw [this]
    rfl

/-- `ulog_info -v- -h` -/
example : parseArgs infoCli (fun _ => false) [py! "-v-", py! "-h"] = .error 2 ∧
    parseArgs infoCli (fun _ => false) [py! "-v", py! "-h"] = .error 0 :=
  ⟨C93_flag_value (pre := []) C92_tools.2.1 .nil
    ⟨infoCli.opts[0], List.mem_of_getElem? (i := 0) rfl, by decide, rfl⟩ (.inl rfl), by rfl⟩

/-! ### examples -/

/-- the words of the examples are file names -/
theorem plain_ab {d : CliDecl} : PlainWord d (py! "a") ∧ PlainWord d (py! "b") := ⟨.inl (by decide), .inl (by decide)⟩

/-- `ulog_params a -i b` is refused, `ulog_params a b -i` is not -/
example : parseArgs paramsCli (fun _ => false) [py! "a", py! "-i", py! "b"] = .error 2 ∧
    (parseArgs paramsCli (fun _ => false) [py! "a", py! "b", py! "-i"]).toOption.isSome = true := by
  refine ⟨?_, by decide +kernel⟩
  have h2 : Line paramsCli (fun _ => false) [py! "-i"] [(paramsCli.opts[1], .bool true)] :=
    .cons (.flag (List.mem_of_getElem? (i := 1) rfl) (.inl (by decide)) rfl) .nil
  exact C93_files C92_tools.2.2.2.2.1 (pre := []) (fs := [py! "a"]) (gs := [py! "b"]) (post := []) .nil h2 .nil
    (by intro f hf; rw [List.mem_singleton.mp hf]; exact plain_ab.1) (by decide) (by decide) (.inl (by decide)) (.inl (by decide))
    (by intro f hf; rw [List.mem_singleton.mp hf]; exact plain_ab.2) (by decide)

/-- two file names for `ulog_info`, none for `ulog_info -n` -/
example : parseArgs infoCli (fun _ => false) [py! "a", py! "b"] = .error 2 ∧
    parseArgs infoCli (fun _ => false) [py! "-n"] = .error 2 := by
  constructor
  · exact C93_files C92_tools.2.1 (pre := []) (fs := [py! "a"]) (mid := []) (gs := [py! "b"]) (post := []) .nil .nil .nil
      (by intro f hf; rw [List.mem_singleton.mp hf]; exact plain_ab.1) (by decide) (by decide) (.inl (by decide)) (.inr (by decide))
      (by intro f hf; rw [List.mem_singleton.mp hf]; exact plain_ab.2) (by decide)
  · exact C93_missing C92_tools.2.1 (.cons (w := [py! "-n"]) (ws := []) (ls := [])
      (.flag (List.mem_of_getElem? (l := infoCli.opts) (i := 2) rfl) (.inl (by decide)) rfl) .nil) ⟨_, List.mem_cons_self, rfl⟩

/-- `ulog2csv -ts5 a` is refused: the number has to be a word of its own or follow a `=` -/
example (ns : Dict Str ArgVal) : parseArgs csvCli (fun _ => false) [py! "-ts5", py! "a"] ≠ .ok ns :=
  C93_unknown (before := []) ⟨'t', py! "s5", rfl, by decide,
    fun k hk => absurd (digit_iff.mpr hk) (by rw [show digitVal 't' = none by decide]; exact nofun), by decide, by decide, by decide,
    by decide⟩ (by decide) ns

/-- `ulog2csv a -ts` and `ulog2csv -ts x a` -/
example : parseArgs csvCli (fun _ => false) [py! "-i", py! "-ts"] = .error 2 ∧
    parseArgs csvCli (fun _ => false) [py! "-ts", py! "x", py! "a"] = .error 2 := by
  have hd := C92_tools.2.2.2.2.2.1
  have ho : ∀ (i : Nat) (o : OptDecl), csvCli.opts[i]? = some o → o ∈ csvCli.opts := fun i o h => List.mem_of_getElem? h
  constructor
  · exact C93_no_value hd (pre := [py! "-i"]) (post := []) (.cons (w := [py! "-i"]) (ws := []) (ls := [])
      (.flag (ho 3 _ rfl) (.inl (by decide)) rfl) .nil) (ho 4 _ rfl) (.inl (by decide)) rfl .nil
  · refine C93_bad_value hd (pre := []) (fs := [py! "a"]) (post := []) .nil (ho 4 _ rfl) (.inl (by decide)) rfl (.inl (by decide)) ?_
      (by intro f hf; rw [List.mem_singleton.mp hf]; exact plain_ab.1) .nil
    intro x hx
    cases hx with
    | int h =>
      have := (C61_int _ _).mpr h
      have h2 : (pyInt (py! "x")).toOption = none := by decide +kernel
      rw [this] at h2
      cases h2

/-- the help -/
example : parseArgs bagCli (fun _ => false) [py! "--help", py! "a"] = .error 0 :=
  C93_help C92_tools.2.2.2.2.2.2.2 (pre := []) (fs := [py! "a"]) (post := []) .nil (.inr rfl)
    (by intro f hf; rw [List.mem_singleton.mp hf]; exact plain_ab.1) .nil

/-- both codes occur -/
example : (∃ c, parseArgs bagCli (fun _ => false) [py! "-ih"] = .error c ∧ c = 0) ∧
    ∃ c, parseArgs bagCli (fun _ => false) [py! "-ix"] = .error c ∧ c = 2 :=
  ⟨⟨0, by rfl, rfl⟩, ⟨2, by rfl, rfl⟩⟩

end PyULog
