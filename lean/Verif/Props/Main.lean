import Verif.Lemmas.Main
import Verif.Lemmas.MainLeft
import Verif.Props.CsvLeft
import Verif.Props.FormatText
/-
Property theorems: C94 (the tools do what their command lines say), C95 (what a tool has done when it ends).
-/
namespace PyULog
open Spec

/-! ### C94 -/

/-- with the arguments of the line, `main` goes on -/
theorem withArgs_ok {α β : Type} {d : CliDecl} {isDir : Str → Bool} {argv : List Str} {read : Dict Str ArgVal → Except PyErr α}
    {nothing : β} {run : α → Option (β × Ended)} {ns : Dict Str ArgVal} {a : α} (h : parseArgs d isDir argv = .ok ns)
    (hr : read ns = .ok a) : withArgs d isDir argv read nothing run = run a := by
  unfold withArgs
  rw [h]
  dsimp only
  rw [hr]

section logs
variable {β : Type} {w : World} {fuel depth : Nat} {file : Str} {filter : NameFilter} {ignore : Bool} {sofar : β}
  {run : ULog → β × Ended} {bs : Bytes}

theorem withLog_ok {u : ULog} (hb : w.read file = .ok bs)
    (h : load fuel { filter := filter, ign := ignore, depth := depth } bs = .ok u) :
    withLog w fuel depth file filter ignore sofar run = some (run u) := by
  unfold withLog
  rw [hb]
  dsimp only
  rw [h]

theorem withLog_raised {e : PyErr} (hb : w.read file = .ok bs)
    (h : load fuel { filter := filter, ign := ignore, depth := depth } bs = .raised e) :
    withLog w fuel depth file filter ignore sofar run = some (sofar, .raised e) := by
  unfold withLog
  rw [hb]
  dsimp only
  rw [h]

theorem withLog_fuel (hb : w.read file = .ok bs)
    (h : load fuel { filter := filter, ign := ignore, depth := depth } bs = .outOfFuel) :
    withLog w fuel depth file filter ignore sofar run = none := by
  unfold withLog
  rw [hb]
  dsimp only
  rw [h]

theorem withLog_unread {e : PyErr} (hb : w.read file = .error e) :
    withLog w fuel depth file filter ignore sofar run = some (sofar, .raised e) := by
  unfold withLog
  rw [hb]

/-- a program that writes only when the function of the log has returned -/
theorem withLog_whole {α : Type} {f : ULog → Except PyErr α} {g : α → β} (hb : w.read file = .ok bs)
    (hok : ∀ u x, f u = .ok x → run u = (g x, .finished)) (herr : ∀ u e, f u = .error e → run u = (sofar, .raised e))
    {r : Option (Except PyErr α)}
    (hr : afterLoad f (load fuel { filter := filter, ign := ignore, depth := depth } bs) = r) :
    (∀ x, r = some (.ok x) → withLog w fuel depth file filter ignore sofar run = some (g x, .finished)) ∧
    (∀ e, r = some (.error e) → withLog w fuel depth file filter ignore sofar run = some (sofar, .raised e)) ∧
    (r = none → withLog w fuel depth file filter ignore sofar run = none) := by
  subst hr
  cases hl : load fuel { filter := filter, ign := ignore, depth := depth } bs with
  | outOfFuel =>
    rw [withLog_fuel hb hl]
    exact ⟨fun _ he => (by cases he), fun _ he => (by cases he), fun _ => rfl⟩
  | raised e =>
    rw [withLog_raised hb hl]
    exact ⟨fun _ he => (by cases he), fun _ he => (by cases he; rfl), fun he => (by cases he)⟩
  | ok u =>
    rw [withLog_ok hb hl]
    refine ⟨fun x he => ?_, fun e he => ?_, fun he => (by cases he)⟩
    · rw [hok u x (Option.some.inj he)]
    · rw [herr u e (Option.some.inj he)]

/-- a program whose output may be begun when the function of the log raises -/
theorem withLog_part {α : Type} {f : ULog → Except PyErr α} {g : α → β} (hb : w.read file = .ok bs)
    (hok : ∀ u x, load fuel { filter := filter, ign := ignore, depth := depth } bs = .ok u → f u = .ok x → run u = (g x, .finished))
    (herr : ∀ u e, load fuel { filter := filter, ign := ignore, depth := depth } bs = .ok u → f u = .error e →
      ∃ y, run u = (y, .raised e))
    {r : Option (Except PyErr α)}
    (hr : afterLoad f (load fuel { filter := filter, ign := ignore, depth := depth } bs) = r) :
    (∀ x, r = some (.ok x) → withLog w fuel depth file filter ignore sofar run = some (g x, .finished)) ∧
    (∀ e, r = some (.error e) → ∃ y, withLog w fuel depth file filter ignore sofar run = some (y, .raised e)) ∧
    (r = none → withLog w fuel depth file filter ignore sofar run = none) := by
  subst hr
  cases hl : load fuel { filter := filter, ign := ignore, depth := depth } bs with
  | outOfFuel =>
    rw [withLog_fuel hb hl]
    exact ⟨fun _ he => (by cases he), fun _ he => (by cases he), fun _ => rfl⟩
  | raised e =>
    rw [withLog_raised hb hl]
    exact ⟨fun _ he => (by cases he), fun _ he => (by cases he; exact ⟨_, rfl⟩), fun he => (by cases he)⟩
  | ok u =>
    rw [withLog_ok hb hl]
    refine ⟨fun x he => ?_, fun e he => ?_, fun he => (by cases he)⟩
    · rw [hok u x hl (Option.some.inj he)]
    · obtain ⟨y, hy⟩ := herr u e hl (Option.some.inj he)
      exact ⟨y, congrArg some hy⟩

end logs

/-- the arguments of `ulog2csv` by the names of the options -/
def Spec.csvRequest (f : Str) (l : List (OptDecl × ArgVal)) : CsvArgs where
  file := f
  messages := givenText (py! "--messages") l
  output := givenText (py! "--output") l
  delim := (givenText (py! "--delimiter") l).getD (py! ",")
  timeS := givenInt (py! "--time_s") l
  timeE := givenInt (py! "--time_e") l
  ignore := isGiven (py! "--ignore") l

theorem csvMain_run (w : World) (fmt : NpVal → Str) (fuel depth : Nat) {argv : List Str} {f : Str}
    {l : List (OptDecl × ArgVal)} (h : CmdLine csvCli w.isDir argv [f] l) :
    csvMain w fmt fuel depth argv = csvRun w fmt fuel depth (csvRequest f l) := by
  obtain ⟨⟨ns, hp, hm⟩, hk⟩ := cmdLine_means C92_tools.2.2.2.2.2.1 h (Nat.le_refl 1) (by intro p hp; cases hp)
  refine withArgs_ok hp ?_
  have h1 := text_given (n := py! "--output") (o := csvCli.opts[2]) (by decide +kernel) (by decide) rfl hm hk
  have h2 := file_given (i := 0) (p := csvCli.pos[0]) (f := f) rfl rfl hm
  have h3 := text_given (n := py! "--messages") (o := csvCli.opts[0]) (by decide +kernel) (by decide) rfl hm hk
  have h4 := word_given (n := py! "--delimiter") (o := csvCli.opts[1]) (by decide +kernel) (by decide) rfl hm hk
  have h5 := int_given (n := py! "--time_s") (o := csvCli.opts[4]) (by decide +kernel) (by decide) rfl hm hk
  have h6 := int_given (n := py! "--time_e") (o := csvCli.opts[5]) (by decide +kernel) (by decide) rfl hm hk
  have h7 := flag_given (n := py! "--ignore") (o := csvCli.opts[3]) (by decide +kernel) (by decide) rfl hm hk
  show (argText ns csvCli.opts[2].dest).bind _ = _
  rw [h1]
  show (argWord ns csvCli.pos[0].dest).bind _ = _
  rw [h2]
  show (argText ns csvCli.opts[0].dest).bind _ = _
  rw [h3]
  show (argWord ns csvCli.opts[1].dest).bind _ = _
  rw [h4]
  show (argInt ns csvCli.opts[4].dest).bind _ = _
  rw [h5]
  show (argInt ns csvCli.opts[5].dest).bind _ = _
  rw [h6]
  show (argFlag ns csvCli.opts[3].dest).bind _ = _
  rw [h7]
  rfl

theorem csvDir_eq (w : World) (output : Option Str) :
    csvDir w output = output.toList.filter fun o => decide (o ≠ []) && !w.isDir o := by
  unfold csvDir
  cases output with
  | none => rfl
  | some o =>
    by_cases h0 : o = []
    · simp [h0]
    · by_cases h1 : w.isDir o = true
      · simp [h0, h1]
      · simp [h0, Bool.eq_false_iff.mpr h1]

theorem csvRun_eq {w : World} {fmt : NpVal → Str} {fuel depth : Nat} {a : CsvArgs}
    (h : (csvDir w a.output).findSome? w.mkdir = none) :
    csvRun w fmt fuel depth a = withLog w fuel depth a.file (messageFilter a.messages) a.ignore { made := csvDir w a.output }
      fun u => ({ made := csvDir w a.output,
                  files := (convertLeft fmt (csvPrefix a.file a.output) a.delim a.timeS a.timeE u).1 },
        .of (convertLeft fmt (csvPrefix a.file a.output) a.delim a.timeS a.timeE u).2) := by
  unfold csvRun
  rw [h]

theorem csvDir_made {w : World} {output : Option Str}
    (hd : ∀ o, output = some o → o ≠ [] → w.isDir o = false → w.mkdir o = none) :
    (csvDir w output).findSome? w.mkdir = none := by
  rw [List.findSome?_eq_none_iff]
  intro o ho
  rw [csvDir_eq] at ho
  obtain ⟨h1, h2⟩ := List.mem_filter.mp ho
  rw [Bool.and_eq_true, decide_eq_true_eq, Bool.not_eq_true'] at h2
  exact hd o (Option.mem_toList.mp h1) h2.1 h2.2

/-- the run with a file that cannot be read -/
theorem csvRun_unread (w : World) (fmt : NpVal → Str) (fuel depth : Nat) (a : CsvArgs) {e : PyErr} (hb : w.read a.file = .error e)
    (hd : ∀ o, a.output = some o → o ≠ [] → w.isDir o = false → w.mkdir o = none) :
    csvRun w fmt fuel depth a = some
      ({ made := a.output.toList.filter fun o => decide (o ≠ []) && !w.isDir o }, .raised e) := by
  rw [← csvDir_eq, csvRun_eq (csvDir_made hd), withLog_unread hb]

/-- the run with the arguments -/
theorem csvRun_tool (w : World) (fmt : NpVal → Str) (fuel depth : Nat) (a : CsvArgs) {bs : Bytes} (hb : w.read a.file = .ok bs)
    (hd : ∀ o, a.output = some o → o ≠ [] → w.isDir o = false → w.mkdir o = none) {r : Option (Except PyErr (Dict Str Str))}
    (hr : ulog2csv fmt fuel { ign := a.ignore, depth := depth } a.file bs a.messages a.output a.delim a.timeS a.timeE = r) :
    (∀ files, r = some (.ok files) → csvRun w fmt fuel depth a = some
      ({ made := a.output.toList.filter fun o => decide (o ≠ []) && !w.isDir o, files := files }, .finished)) ∧
    (∀ e, r = some (.error e) → ∃ files, csvRun w fmt fuel depth a = some
      ({ made := a.output.toList.filter fun o => decide (o ≠ []) && !w.isDir o, files := files }, .raised e)) ∧
    (r = none → csvRun w fmt fuel depth a = none) := by
  rw [← csvDir_eq, csvRun_eq (csvDir_made hd), ← hr]
  unfold ulog2csv
  cases hl : load fuel { filter := messageFilter a.messages, ign := a.ignore, depth := depth } bs with
  | outOfFuel =>
    rw [withLog_fuel hb hl]
    exact ⟨fun _ he => (by cases he), fun _ he => (by cases he), fun _ => rfl⟩
  | raised e =>
    rw [withLog_raised hb hl]
    refine ⟨fun _ he => (by cases he), fun _ he => ?_, fun he => (by cases he)⟩
    cases he
    exact ⟨[], rfl⟩
  | ok u =>
    rw [withLog_ok hb hl]
    refine ⟨fun files he => ?_, fun e he => ?_, fun he => (by cases he)⟩
    · rw [C85_all.mpr (Option.some.inj he)]
      rfl
    · obtain ⟨_, _, _, _, _, _, _, he⟩ := C85_files.mp (Option.some.inj he)
      refine ⟨(convertLeft fmt (csvPrefix a.file a.output) a.delim a.timeS a.timeE u).1, ?_⟩
      rw [he]
      rfl

/-- **C94**, `ulog2csv`: the output directory is created if it is missing, and the files are those of the conversion with
the values that the line gives last for `--messages`, `--output`, `--delimiter`, `--time_s`, `--time_e` and `--ignore`
(under these or their other names). -/
theorem C94_csv (w : World) (fmt : NpVal → Str) (fuel depth : Nat) {argv : List Str} {f : Str} {bs : Bytes}
    {l : List (OptDecl × ArgVal)} (h : CmdLine csvCli w.isDir argv [f] l) (hb : w.read f = .ok bs)
    (hd : ∀ o, givenText (py! "--output") l = some o → o ≠ [] → w.isDir o = false → w.mkdir o = none)
    {r : Option (Except PyErr (Dict Str Str))}
    (hr : ulog2csv fmt fuel { ign := isGiven (py! "--ignore") l, depth := depth } f bs (givenText (py! "--messages") l)
      (givenText (py! "--output") l) ((givenText (py! "--delimiter") l).getD (py! ",")) (givenInt (py! "--time_s") l)
      (givenInt (py! "--time_e") l) = r) :
    (∀ files, r = some (.ok files) → csvMain w fmt fuel depth argv = some
      ({ made := (givenText (py! "--output") l).toList.filter fun o => decide (o ≠ []) && !w.isDir o, files := files },
        .finished)) ∧
    (∀ e, r = some (.error e) → ∃ files, csvMain w fmt fuel depth argv = some
      ({ made := (givenText (py! "--output") l).toList.filter fun o => decide (o ≠ []) && !w.isDir o, files := files },
        .raised e)) ∧
    (r = none → csvMain w fmt fuel depth argv = none) := by
  rw [csvMain_run w fmt fuel depth h]
  exact csvRun_tool w fmt fuel depth (csvRequest f l) hb hd hr

/-- A directory that cannot be created ends the program before the log is read. -/
theorem C94_csv_mkdir (w : World) (fmt : NpVal → Str) (fuel depth : Nat) {argv : List Str} {f o : Str} {e : PyErr}
    {l : List (OptDecl × ArgVal)} (h : CmdLine csvCli w.isDir argv [f] l) (ho : givenText (py! "--output") l = some o)
    (h0 : o ≠ []) (hd : w.isDir o = false) (hm : w.mkdir o = some e) :
    csvMain w fmt fuel depth argv = some ({}, .raised e) := by
  rw [csvMain_run w fmt fuel depth h]
  have : csvDir w (csvRequest f l).output = [o] := by
    rw [csvDir_eq]
    show (givenText (py! "--output") l).toList.filter _ = _
    rw [ho]
    simp [h0, hd]
  unfold csvRun
  rw [this]
  simp [hm]

/-! ### `ulog_extract_gps_dump` -/

theorem gpsBytes_left (d : Dataset) (i : Nat) (ks : List Nat) :
    (ks.mapM (gpsElem d i)).map List.flatten = match gpsBytesLeft d i ks with
      | (bs, none) => .ok bs
      | (_, some e) => .error e := by
  induction ks with
  | nil => rfl
  | cons k ks ih =>
    rw [List.mapM_cons]
    rw [gpsBytesLeft]
    cases gpsElem d i k with
    | error e => rfl
    | ok b =>
      rw [ok_bind]
      dsimp only
      rcases hr : gpsBytesLeft d i ks with ⟨r, e⟩
      rw [hr] at ih
      cases hm : ks.mapM (gpsElem d i) with
      | error e' =>
        rw [hm] at ih
        cases e with
        | none => cases ih
        | some e => exact ih
      | ok l =>
        rw [hm] at ih
        cases e with
        | none =>
          injection ih with ih
          show Except.ok (List.flatten (b :: l)) = Except.ok (b ++ r)
          rw [List.flatten_cons, ih]
        | some e => cases ih

theorem gpsRow_left (d : Dataset) (lens instances : List NpVal) (required : Int) (files : Bytes × Bytes) (i : Nat) :
    gpsStep d lens instances required files i = match gpsRowLeft d lens instances required i with
      | (x, none) => .ok (files.1 ++ x.1, files.2 ++ x.2)
      | (_, some e) => .error e := by
  unfold gpsStep gpsRowLeft gpsBytes
  cases pyIndex instances i with
  | error e => rfl
  | ok inst =>
    cases pyIndex lens i with
    | error e => rfl
    | ok v =>
      simp only [ok_bind]
      by_cases hn : npEqInt inst required = true
      · simp only [hn, if_true]
        cases gpsLen (colType d (py! "len")) v with
        | error e => rfl
        | ok len =>
          simp only [ok_bind]
          by_cases hb : len / 128 % 2 = 1
          · simp only [if_pos hb, gpsBytes_left]
            rcases gpsBytesLeft d i (List.range (len % 128)) with ⟨r, e⟩
            cases e with
            | none => show Except.ok _ = Except.ok _; rw [List.append_nil]
            | some e => rfl
          · simp only [if_neg hb, gpsBytes_left]
            rcases gpsBytesLeft d i (List.range len) with ⟨r, e⟩
            cases e with
            | none => show Except.ok _ = Except.ok _; rw [List.append_nil]
            | some e => rfl
      · simp only [hn]
        show Except.ok _ = Except.ok _
        rw [List.append_nil, List.append_nil]

theorem gpsRows_left (d : Dataset) (lens instances : List NpVal) (required : Int) (is : List Nat) : ∀ files : Bytes × Bytes,
    is.foldlM (gpsStep d lens instances required) files = match gpsRowsLeft d lens instances required is with
      | (x, none) => .ok (files.1 ++ x.1, files.2 ++ x.2)
      | (_, some e) => .error e := by
  induction is with
  | nil => intro files; show Except.ok _ = Except.ok _; rw [List.append_nil, List.append_nil]
  | cons i is ih =>
    intro files
    rw [List.foldlM_cons, gpsRow_left]
    rw [gpsRowsLeft]
    rcases gpsRowLeft d lens instances required i with ⟨x, e⟩
    cases e with
    | some e => rfl
    | none =>
      show is.foldlM _ _ = _
      rw [ih]
      dsimp only
      rcases gpsRowsLeft d lens instances required is with ⟨y, e⟩
      cases e with
      | some e => rfl
      | none => simp

/-- What is left by the extraction, compared with its result. -/
theorem gpsDump_left (u : ULog) (required : Int) :
    (u.dataList = [] ∧ gpsDump u required = .ok .noMessages ∧ gpsLeft u required = (none, .exit 0)) ∨
    (gpsDump u required = .ok .wrongFormat ∧ gpsLeft u required = (none, .exit 255)) ∨
    (∃ a b, gpsDump u required = .ok (.files a b) ∧ gpsLeft u required = (some (a, b), .finished)) ∨
    (∃ a b e, gpsDump u required = .error e ∧ gpsLeft u required = (some (a, b), .raised e)) := by
  unfold gpsDump gpsLeft
  cases u.dataList with
  | nil => exact .inl ⟨rfl, rfl, rfl⟩
  | cons d rest =>
    refine .inr ?_
    dsimp only
    by_cases hw : py! "len" ∉ d.fields.map (·.name) ∨ py! "data[0]" ∉ d.fields.map (·.name)
    · rw [if_pos hw, if_pos hw]
      exact .inl ⟨rfl, rfl⟩
    · rw [if_neg hw, if_neg hw]
      refine .inr ?_
      cases dictGet d.data (py! "len") with
      | error e => exact .inr ⟨_, _, e, rfl, rfl⟩
      | ok lens =>
        cases dictGet d.data (py! "timestamp") with
        | error e => exact .inr ⟨_, _, e, rfl, rfl⟩
        | ok ts =>
          rw [ok_bind, ok_bind, gpsRows_left, ok_bind, ok_bind]
          dsimp only
          rcases gpsRowsLeft d lens _ required (List.range ts.length) with ⟨x, e⟩
          cases e with
          | none => exact .inl ⟨_, _, rfl, rfl⟩
          | some e => exact .inr ⟨_, _, e, rfl, rfl⟩

/-- the instance that a line asks for -/
def Spec.Instance (l : List (OptDecl × ArgVal)) (k : Int) : Prop :=
  match givenText (py! "--instance") l with
  | none => k = 0
  | some s => IntText s k

theorem instance_int {l : List (OptDecl × ArgVal)} {k : Int} (hi : Instance l k) :
    (match givenText (py! "--instance") l with | none => .ok 0 | some s => pyInt s) = (.ok k : Except PyErr Int) := by
  unfold Instance at hi
  split at hi
  · rename_i h0; rw [hi]
  · rename_i s h0; exact (C61_int s k).mpr hi

theorem gpsMain_run (w : World) (fuel depth : Nat) {argv : List Str} {f : Str} {l : List (OptDecl × ArgVal)}
    (h : CmdLine gpsCli w.isDir argv [f] l) {k : Except PyErr Int}
    (hk : (match givenText (py! "--instance") l with | none => .ok 0 | some s => pyInt s) = k) :
    gpsMain w fuel depth argv = match k with
      | .ok k => gpsRun w fuel depth ⟨f, givenText (py! "--output") l, isGiven (py! "--ignore") l, k⟩
      | .error e => some ([], .raised e) := by
  obtain ⟨⟨ns, hp, hm⟩, hkd⟩ := cmdLine_means C92_tools.1 h (Nat.le_refl 1) (by intro p hp; cases hp)
  have h1 := text_given (n := py! "--output") (o := gpsCli.opts[0]) (by decide +kernel) (by decide) rfl hm hkd
  have h2 := file_given (i := 0) (p := gpsCli.pos[0]) (f := f) rfl rfl hm
  have h3 := flag_given (n := py! "--ignore") (o := gpsCli.opts[1]) (by decide +kernel) (by decide) rfl hm hkd
  have h4 : gpsInstance ns = k := by
    rw [← hk]
    unfold gpsInstance givenText
    rcases given_value (n := py! "--instance") (o := gpsCli.opts[2]) (by decide +kernel) hm hkd with
      ⟨v, hg, hv, ⟨s, rfl⟩, _⟩ | ⟨hg, hv, _⟩
    · have hv : ns.get? (py! "required_instance") = some (.str s) := hv
      rw [hg, hv]
    · have hv : ns.get? (py! "required_instance") = some (.int 0) := hv
      rw [hg, hv]
  have ha : gpsArgs ns = k.map fun k => ⟨f, givenText (py! "--output") l, isGiven (py! "--ignore") l, k⟩ := by
    show (argWord ns gpsCli.pos[0].dest).bind _ = _
    rw [h2]
    show (argFlag ns gpsCli.opts[1].dest).bind _ = _
    rw [h3]
    show (gpsInstance ns).bind _ = _
    rw [h4]
    cases k with
    | error e => rfl
    | ok k =>
      show (argText ns gpsCli.opts[0].dest).bind _ = _
      rw [h1]
      rfl
  unfold gpsMain withArgs
  rw [hp]
  dsimp only
  rw [ha]
  cases k <;> rfl

/-- **C94**, `ulog_extract_gps_dump`: the two files are those of the extraction of the instance that the line gives; without
`--instance` it is 0. A log without gps messages ends the program with the status 0, a wrong format with 255. -/
theorem C94_gps (w : World) (fuel depth : Nat) {argv : List Str} {f : Str} {bs : Bytes} {l : List (OptDecl × ArgVal)} {k : Int}
    (h : CmdLine gpsCli w.isDir argv [f] l) (hb : w.read f = .ok bs) (hi : Instance l k)
    {r : Option (Except PyErr GpsResult)}
    (hr : gpsTool fuel { ign := isGiven (py! "--ignore") l, depth := depth } bs k = r) :
    (r = some (.ok .noMessages) → gpsMain w fuel depth argv = some ([], .exit 0)) ∧
    (r = some (.ok .wrongFormat) → gpsMain w fuel depth argv = some ([], .exit 255)) ∧
    (∀ a b, r = some (.ok (.files a b)) → gpsMain w fuel depth argv = some
      ([((gpsNames f (givenText (py! "--output") l) k).1, a), ((gpsNames f (givenText (py! "--output") l) k).2, b)],
        .finished)) ∧
    (∀ e, r = some (.error e) → ∃ files, gpsMain w fuel depth argv = some (files, .raised e)) ∧
    (r = none → gpsMain w fuel depth argv = none) := by
  rw [gpsMain_run w fuel depth h (instance_int hi), ← hr]
  dsimp only
  unfold gpsRun gpsTool
  dsimp only
  cases hl : load fuel { filter := .names [py! "gps_dump"], ign := isGiven (py! "--ignore") l, depth := depth } bs with
  | outOfFuel =>
    rw [withLog_fuel hb hl]
    exact ⟨fun he => (by cases he), fun he => (by cases he), fun _ _ he => (by cases he), fun _ he => (by cases he), fun _ => rfl⟩
  | raised e =>
    rw [withLog_raised hb hl]
    refine ⟨fun he => (by cases he), fun he => (by cases he), fun _ _ he => (by cases he), fun _ he => ?_, fun he => (by cases he)⟩
    cases he
    exact ⟨_, rfl⟩
  | ok u =>
    rw [withLog_ok hb hl]
    show (some (gpsDump u k) = _ → _) ∧ (some (gpsDump u k) = _ → _) ∧ (∀ a b, some (gpsDump u k) = _ → _) ∧
      (∀ e, some (gpsDump u k) = _ → _) ∧ (some (gpsDump u k) = _ → _)
    rcases gpsDump_left u k with ⟨_, h1, h2⟩ | ⟨h1, h2⟩ | ⟨a, b, h1, h2⟩ | ⟨a, b, e, h1, h2⟩ <;> rw [h1, h2] <;>
      refine ⟨fun he => ?_, fun he => ?_, fun _ _ he => ?_, fun _ he => ?_, fun he => ?_⟩ <;> cases he <;>
      first
        | rfl
        | exact ⟨_, rfl⟩

/-- An instance that is no number is not refused as a command line but raises ValueError, before the log is read. -/
theorem C94_gps_instance (w : World) (fuel depth : Nat) {argv : List Str} {f s : Str} {l : List (OptDecl × ArgVal)}
    (h : CmdLine gpsCli w.isDir argv [f] l) (hs : givenText (py! "--instance") l = some s) (hn : ∀ k, ¬ IntText s k) :
    ∃ e, pyInt s = .error e ∧ gpsMain w fuel depth argv = some ([], .raised e) := by
  cases he : pyInt s with
  | ok k => exact absurd ((C61_int s k).mp he) (hn k)
  | error e =>
    refine ⟨e, rfl, ?_⟩
    rw [gpsMain_run w fuel depth h (k := .error e) (by rw [hs]; exact he)]

/-! ### `ulog_params` -/

/-- the options of `ulog_params` by their names -/
def Spec.paramRequest (l : List (OptDecl × ArgVal)) : ParamOpts where
  format := (givenText (py! "--format") l).getD (py! "csv")
  delim := (givenText (py! "--delimiter") l).getD (py! ",")
  initial := isGiven (py! "--initial") l
  timestamps := isGiven (py! "--timestamps") l
  default := givenText (py! "--default") l

theorem paramsMain_run (w : World) (fmt : Value → Str) (fuel depth : Nat) {argv fs : List Str} {f : Str}
    {l : List (OptDecl × ArgVal)} (h : CmdLine paramsCli w.isDir argv (f :: fs) l) (hf : fs.length ≤ 1) :
    paramsMain w fmt fuel depth argv = paramsRun w fmt fuel depth ⟨f, fs[0]?, isGiven (py! "--ignore") l, paramRequest l⟩ := by
  obtain ⟨⟨ns, hp, hm⟩, hk⟩ := cmdLine_means C92_tools.2.2.2.2.1 h (Nat.succ_le_succ hf) (by
    intro p hp
    rcases fs with _ | ⟨g, _ | ⟨_, _⟩⟩
    · cases List.mem_singleton.mp hp; rfl
    · cases hp
    · simp at hf)
  refine withArgs_ok hp ?_
  have h1 := file_given (i := 0) (p := paramsCli.pos[0]) (f := f) rfl rfl hm
  have h2 := flag_given (n := py! "--ignore") (o := paramsCli.opts[4]) (by decide +kernel) (by decide) rfl hm hk
  have h3 := flag_given (n := py! "--initial") (o := paramsCli.opts[1]) (by decide +kernel) (by decide) rfl hm hk
  have h4 := text_given (n := py! "--default") (o := paramsCli.opts[5]) (by decide +kernel) (by decide) rfl hm hk
  have h5 := word_given (n := py! "--delimiter") (o := paramsCli.opts[0]) (by decide +kernel) (by decide) rfl hm hk
  have h6 := file_perhaps (i := 1) (p := paramsCli.pos[1]) rfl hm
  have h7 := word_given (n := py! "--format") (o := paramsCli.opts[3]) (by decide +kernel) (by decide) rfl hm hk
  have h8 := flag_given (n := py! "--timestamps") (o := paramsCli.opts[2]) (by decide +kernel) (by decide) rfl hm hk
  show (argWord ns paramsCli.pos[0].dest).bind _ = _
  rw [h1]
  show (argFlag ns paramsCli.opts[4].dest).bind _ = _
  rw [h2]
  show (argFlag ns paramsCli.opts[1].dest).bind _ = _
  rw [h3]
  show (argText ns paramsCli.opts[5].dest).bind _ = _
  rw [h4]
  show (argWord ns paramsCli.opts[0].dest).bind _ = _
  rw [h5]
  show (argText ns paramsCli.pos[1].dest).bind _ = _
  rw [h6]
  show (argWord ns paramsCli.opts[3].dest).bind _ = _
  rw [h7]
  show (argFlag ns paramsCli.opts[2].dest).bind _ = _
  rw [h8]
  rfl

/-- **C94**, `ulog_params`: the text for the options of the line goes to the second file of the line, or to the standard output. -/
theorem C94_params (w : World) (fmt : Value → Str) (fuel depth : Nat) {argv fs : List Str} {f : Str} {bs : Bytes}
    {l : List (OptDecl × ArgVal)} (h : CmdLine paramsCli w.isDir argv (f :: fs) l) (hf : fs.length ≤ 1)
    (hb : w.read f = .ok bs) {r : Option (Except PyErr Str)}
    (hr : paramsTool fmt fuel { ign := isGiven (py! "--ignore") l, depth := depth } bs
      { format := (givenText (py! "--format") l).getD (py! "csv"), delim := (givenText (py! "--delimiter") l).getD (py! ","),
        initial := isGiven (py! "--initial") l, timestamps := isGiven (py! "--timestamps") l,
        default := givenText (py! "--default") l } = r) :
    (∀ text, r = some (.ok text) → paramsMain w fmt fuel depth argv = some (some (fs[0]?, text), .finished)) ∧
    (∀ e, r = some (.error e) → paramsMain w fmt fuel depth argv = some (none, .raised e)) ∧
    (r = none → paramsMain w fmt fuel depth argv = none) := by
  rw [paramsMain_run w fmt fuel depth h hf]
  exact withLog_whole (g := fun text => some (fs[0]?, text)) hb (fun u x hx => by simp only [paramRequest, hx])
    (fun u e he => by simp only [paramRequest, he]) hr

/-! ### `ulog_messages` and `ulog_info` -/

theorem messagesMain_run (w : World) (env : EventEnv EventParser J) (fuel depth : Nat) {argv : List Str} {f : Str}
    {l : List (OptDecl × ArgVal)} (h : CmdLine messagesCli w.isDir argv [f] l) :
    messagesMain w env fuel depth argv = messagesRun w env fuel depth (f, isGiven (py! "--ignore") l) := by
  obtain ⟨⟨ns, hp, hm⟩, hk⟩ := cmdLine_means C92_tools.2.2.1 h (Nat.le_refl 1) (by intro p hp; cases hp)
  have h1 := file_given (i := 0) (p := messagesCli.pos[0]) (f := f) rfl rfl hm
  have h2 := flag_given (n := py! "--ignore") (o := messagesCli.opts[0]) (by decide +kernel) (by decide) rfl hm hk
  refine withArgs_ok hp ?_
  show (argWord ns messagesCli.pos[0].dest).bind _ = _
  rw [h1]
  show (argFlag ns messagesCli.opts[0].dest).bind _ = _
  rw [h2]
  rfl

/-- **C94**, `ulog_messages`: the lines are those of the messages and the events of the log. -/
theorem C94_messages (w : World) (env : EventEnv EventParser J) (fuel depth : Nat) {argv : List Str} {f : Str} {bs : Bytes}
    {l : List (OptDecl × ArgVal)} (h : CmdLine messagesCli w.isDir argv [f] l) (hb : w.read f = .ok bs)
    {r : Option (Except PyErr (List Str))}
    (hr : messagesTool env fuel { ign := isGiven (py! "--ignore") l, depth := depth } bs = r) :
    (∀ lines, r = some (.ok lines) → messagesMain w env fuel depth argv = some (lines, .finished)) ∧
    (∀ e, r = some (.error e) → messagesMain w env fuel depth argv = some ([], .raised e)) ∧
    (r = none → messagesMain w env fuel depth argv = none) := by
  rw [messagesMain_run w env fuel depth h]
  exact withLog_whole (g := fun x => x) hb (fun u x hx => by simp only [printed, hx]) (fun u e he => by simp only [printed, he]) hr

theorem infoMain_run (w : World) (pr : Char → Bool) (fuel depth : Nat) {argv : List Str} {f : Str}
    {l : List (OptDecl × ArgVal)} (h : CmdLine infoCli w.isDir argv [f] l) :
    infoMain w pr fuel depth argv = infoRun w pr fuel depth ⟨f, isGiven (py! "--verbose") l, givenText (py! "--message") l,
      isGiven (py! "--newline") l, isGiven (py! "--ignore") l⟩ := by
  obtain ⟨⟨ns, hp, hm⟩, hk⟩ := cmdLine_means C92_tools.2.1 h (Nat.le_refl 1) (by intro p hp; cases hp)
  have h1 := file_given (i := 0) (p := infoCli.pos[0]) (f := f) rfl rfl hm
  have h2 := flag_given (n := py! "--ignore") (o := infoCli.opts[3]) (by decide +kernel) (by decide) rfl hm hk
  have h3 := text_given (n := py! "--message") (o := infoCli.opts[1]) (by decide +kernel) (by decide) rfl hm hk
  have h4 := flag_given (n := py! "--newline") (o := infoCli.opts[2]) (by decide +kernel) (by decide) rfl hm hk
  have h5 := flag_given (n := py! "--verbose") (o := infoCli.opts[0]) (by decide +kernel) (by decide) rfl hm hk
  refine withArgs_ok hp ?_
  show (argWord ns infoCli.pos[0].dest).bind _ = _
  rw [h1]
  show (argFlag ns infoCli.opts[3].dest).bind _ = _
  rw [h2]
  show (argText ns infoCli.opts[1].dest).bind _ = _
  rw [h3]
  show (argFlag ns infoCli.opts[2].dest).bind _ = _
  rw [h4]
  show (argFlag ns infoCli.opts[0].dest).bind _ = _
  rw [h5]
  rfl

/-- **C94**, `ulog_info`: with the name of a message, its texts are printed, and otherwise (also for the empty name) the summary. -/
theorem C94_info (w : World) (pr : Char → Bool) (fuel depth : Nat) {argv : List Str} {f : Str} {bs : Bytes}
    {l : List (OptDecl × ArgVal)} (h : CmdLine infoCli w.isDir argv [f] l) (hb : w.read f = .ok bs)
    {r : Option (Except PyErr (List Str))}
    (hr : afterLoad (match givenText (py! "--message") l with
        | none | some [] => showInfoText pr (isGiven (py! "--verbose") l)
        | some (c :: m) => fun u => showMessage (isGiven (py! "--newline") l) u (c :: m))
      (load fuel { ign := isGiven (py! "--ignore") l, depth := depth } bs) = r) :
    (∀ lines, r = some (.ok lines) → infoMain w pr fuel depth argv = some (lines, .finished)) ∧
    (∀ e, r = some (.error e) → ∃ lines, infoMain w pr fuel depth argv = some (lines, .raised e)) ∧
    (r = none → infoMain w pr fuel depth argv = none) := by
  rw [infoMain_run w pr fuel depth h]
  generalize givenText (py! "--message") l = msg at hr
  have key : ∀ u, Agrees ((match msg with
      | none | some [] => showInfoText pr (isGiven (py! "--verbose") l)
      | some (c :: m) => fun u => showMessage (isGiven (py! "--newline") l) u (c :: m)) u)
      (match msg with
      | none => infoLeft pr (isGiven (py! "--verbose") l) u
      | some m => if m = [] then infoLeft pr (isGiven (py! "--verbose") l) u else messageLeft (isGiven (py! "--newline") l) u m) := by
    intro u
    rcases msg with _ | _ | ⟨c, m⟩
    · exact infoLeft_agrees _ _ _
    · exact infoLeft_agrees _ _ _
    · exact messageLeft_agrees _ _ _
  refine withLog_part (g := fun x => x) hb (fun u x _ hx => ?_) (fun u e _ he => ?_) hr
  · have := key u
    rw [hx] at this
    exact congrArg (fun p : List Str × Option PyErr => (p.1, Ended.of p.2)) this
  · have := key u
    rw [he] at this
    obtain ⟨y, hy⟩ := this
    exact ⟨y, congrArg (fun p : List Str × Option PyErr => (p.1, Ended.of p.2)) hy⟩

/-! ### `ulog2kml` -/

theorem kmlMain_run (w : World) (fuel depth : Nat) {argv : List Str} {f : Str}
    {l : List (OptDecl × ArgVal)} (h : CmdLine kmlCli w.isDir argv [f] l) :
    kmlMain w fuel depth argv = kmlRun w fuel depth ⟨f, (givenText (py! "--output") l).getD (py! "track.kml"),
      (givenText (py! "--topic") l).getD (py! "vehicle_gps_position"), givenText (py! "--camera-trigger") l,
      isGiven (py! "--ignore") l⟩ := by
  obtain ⟨⟨ns, hp, hm⟩, hk⟩ := cmdLine_means C92_tools.2.2.2.2.2.2.1 h (Nat.le_refl 1) (by intro p hp; cases hp)
  have h1 := file_given (i := 0) (p := kmlCli.pos[0]) (f := f) rfl rfl hm
  have h2 := word_given (n := py! "--output") (o := kmlCli.opts[0]) (by decide +kernel) (by decide) rfl hm hk
  have h3 := word_given (n := py! "--topic") (o := kmlCli.opts[1]) (by decide +kernel) (by decide) rfl hm hk
  have h4 := text_given (n := py! "--camera-trigger") (o := kmlCli.opts[2]) (by decide +kernel) (by decide) rfl hm hk
  have h5 := flag_given (n := py! "--ignore") (o := kmlCli.opts[3]) (by decide +kernel) (by decide) rfl hm hk
  refine withArgs_ok hp ?_
  show (argWord ns kmlCli.pos[0].dest).bind _ = _
  rw [h1]
  show (argWord ns kmlCli.opts[0].dest).bind _ = _
  rw [h2]
  show (argWord ns kmlCli.opts[1].dest).bind _ = _
  rw [h3]
  show (argText ns kmlCli.opts[2].dest).bind _ = _
  rw [h4]
  show (argFlag ns kmlCli.opts[3].dest).bind _ = _
  rw [h5]
  rfl

/-- **C94**, `ulog2kml`: the document of the topic of the line, `vehicle_gps_position` if it gives none, is saved under the
name of the line, `track.kml` if it gives none. -/
theorem C94_kml (w : World) (fuel depth : Nat) {argv : List Str} {f : Str} {bs : Bytes} {l : List (OptDecl × ArgVal)}
    {topic : Str} (h : CmdLine kmlCli w.isDir argv [f] l) (hb : w.read f = .ok bs)
    (ht : topic = (givenText (py! "--topic") l).getD (py! "vehicle_gps_position"))
    {r : Option (Except PyErr (KmlDoc Str (NpVal × NpVal × NpVal)))}
    (hr : afterLoad (kmlDocument (kmlCoord (.int 0)) (kmlFar tenth) npText (.one topic) (.one defaultColors)
        (givenText (py! "--camera-trigger") l))
      (load fuel
        { filter := .names ([topic, py! "vehicle_status"] ++ (givenText (py! "--camera-trigger") l).toList)
          ign := isGiven (py! "--ignore") l
          depth := depth } bs) = r) :
    (∀ doc, r = some (.ok doc) → kmlMain w fuel depth argv = some
      (some ((givenText (py! "--output") l).getD (py! "track.kml"), doc), .finished)) ∧
    (∀ e, r = some (.error e) → kmlMain w fuel depth argv = some (none, .raised e)) ∧
    (r = none → kmlMain w fuel depth argv = none) := by
  subst ht
  rw [kmlMain_run w fuel depth h]
  exact withLog_whole (g := fun doc => some ((givenText (py! "--output") l).getD (py! "track.kml"), doc)) hb
    (fun u x hx => by simp only [hx]) (fun u e he => by simp only [he]) hr

/-! ### `ulog2ros2bag` -/

theorem bagMain_run (w : World) (available : Bool) (env : RosEnv) (fuel depth : Nat) {argv : List Str} {f : Str}
    {l : List (OptDecl × ArgVal)} (h : CmdLine bagCli w.isDir argv [f] l) :
    bagMain w available env fuel depth argv = bagRun w available env fuel depth
      ⟨f, givenText (py! "--output") l, isGiven (py! "--mcap") l, givenText (py! "--messages") l, isGiven (py! "--ignore") l,
        isGiven (py! "--verbose") l⟩ := by
  obtain ⟨⟨ns, hp, hm⟩, hk⟩ := cmdLine_means C92_tools.2.2.2.2.2.2.2 h (Nat.le_refl 1) (by intro p hp; cases hp)
  have h1 := file_given (i := 0) (p := bagCli.pos[0]) (f := f) rfl rfl hm
  have h2 := text_given (n := py! "--output") (o := bagCli.opts[0]) (by decide +kernel) (by decide) rfl hm hk
  have h3 := flag_given (n := py! "--mcap") (o := bagCli.opts[1]) (by decide +kernel) (by decide) rfl hm hk
  have h4 := text_given (n := py! "--messages") (o := bagCli.opts[2]) (by decide +kernel) (by decide) rfl hm hk
  have h5 := flag_given (n := py! "--ignore") (o := bagCli.opts[3]) (by decide +kernel) (by decide) rfl hm hk
  have h6 := flag_given (n := py! "--verbose") (o := bagCli.opts[4]) (by decide +kernel) (by decide) rfl hm hk
  refine withArgs_ok hp ?_
  show (argWord ns bagCli.pos[0].dest).bind _ = _
  rw [h1]
  show (argText ns bagCli.opts[0].dest).bind _ = _
  rw [h2]
  show (argFlag ns bagCli.opts[1].dest).bind _ = _
  rw [h3]
  show (argText ns bagCli.opts[2].dest).bind _ = _
  rw [h4]
  show (argFlag ns bagCli.opts[3].dest).bind _ = _
  rw [h5]
  show (argFlag ns bagCli.opts[4].dest).bind _ = _
  rw [h6]
  rfl

/-- **C94**, `ulog2ros2bag`: the bag of the messages of the line has the name of the line, and the storage `mcap` or `sqlite3`.
A verbose run prints the version of the log, which must not raise. -/
theorem C94_bag (w : World) (env : RosEnv) (fuel depth : Nat) {argv : List Str} {f : Str} {bs : Bytes}
    {l : List (OptDecl × ArgVal)} (h : CmdLine bagCli w.isDir argv [f] l) (hb : w.read f = .ok bs)
    {cfg : Cfg} (hc : cfg = ⟨messageFilter (givenText (py! "--messages") l), isGiven (py! "--ignore") l, false, depth⟩)
    (hv : isGiven (py! "--verbose") l = true → ∀ u, load fuel cfg bs = .ok u → ∃ v, getVersionInfoStr u = .ok v)
    {r : Option (Except PyErr (Str × Bag))}
    (hr : ulog2bag env fuel { ign := isGiven (py! "--ignore") l, depth := depth } f bs (givenText (py! "--output") l)
      (givenText (py! "--messages") l) = r) :
    (∀ name bag, r = some (.ok (name, bag)) → bagMain w true env fuel depth argv = some
      (some ⟨name, if isGiven (py! "--mcap") l then py! "mcap" else py! "sqlite3", bag⟩, .finished)) ∧
    (∀ e, r = some (.error e) → ∃ left, bagMain w true env fuel depth argv = some (left, .raised e)) ∧
    (r = none → bagMain w true env fuel depth argv = none) := by
  rw [bagMain_run w true env fuel depth h]
  subst hc
  have hq : ∀ u, load fuel ⟨messageFilter (givenText (py! "--messages") l), isGiven (py! "--ignore") l, false, depth⟩ bs = .ok u →
      bagLeft env (isGiven (py! "--verbose") l) u = topicsLeft env u.dataList u.dataList {} := by
    intro u hu
    unfold bagLeft
    split
    · rename_i e he
      split at he
      · rename_i hg
        obtain ⟨v, hv⟩ := hv hg u hu
        rw [hv] at he
        cases he
      · cases he
    · rfl
  have := withLog_part (w := w) (fuel := fuel) (depth := depth) (file := f)
    (filter := messageFilter (givenText (py! "--messages") l)) (ignore := isGiven (py! "--ignore") l) (sofar := none)
    (run := fun u => (some (⟨bagName (givenText (py! "--output") l) f,
          if isGiven (py! "--mcap") l then py! "mcap" else py! "sqlite3", (bagLeft env (isGiven (py! "--verbose") l) u).1⟩ : BagLeft),
          .of (bagLeft env (isGiven (py! "--verbose") l) u).2))
    (f := fun u => (exportBag env u).map fun bag => (bagName (givenText (py! "--output") l) f, bag))
    (g := fun x : Str × Bag => some (⟨x.1, if isGiven (py! "--mcap") l then py! "mcap" else py! "sqlite3", x.2⟩ : BagLeft)) hb
    (fun u x hu hx => by
      cases he : exportBag env u with
      | error e => rw [he] at hx; cases hx
      | ok bag =>
        rw [he] at hx
        cases hx
        dsimp only
        rw [hq u hu, ((topicsLeft_agrees env u.dataList u.dataList {}).1 bag).mp he]
        rfl)
    (fun u e hu hx => by
      cases he : exportBag env u with
      | error e' =>
        rw [he] at hx
        cases hx
        obtain ⟨b, hb⟩ := ((topicsLeft_agrees env u.dataList u.dataList {}).2 e).mp he
        rw [hq u hu, hb]
        exact ⟨_, rfl⟩
      | ok bag => rw [he] at hx; cases hx) hr
  exact ⟨fun name bag => this.1 (name, bag), this.2⟩

/-- Without the ROS2 packages the program does nothing, not even read the log, and ends as if all was well. -/
theorem C94_bag_unavailable (w : World) (env : RosEnv) (fuel depth : Nat) {argv : List Str} {f : Str}
    {l : List (OptDecl × ArgVal)} (h : CmdLine bagCli w.isDir argv [f] l) :
    bagMain w false env fuel depth argv = some (none, .finished) :=
  bagMain_run w false env fuel depth h

/-! ### `ulog_migratedb` -/

/-- **C94**, `ulog_migratedb`: the database of the line, `pyulog.sqlite3` if it gives none, is migrated with the scripts of the
directory of the line, those of the package if it gives none. -/
theorem C94_migrate (isDir : Str → Bool) (E : Engine σ) (dirs : Str → Option SqlDir) (shipped : Option SqlDir)
    (dbs : Str → Option (SDb σ)) {argv : List Str} {l : List (OptDecl × ArgVal)} (h : CmdLine migrateCli isDir argv [] l)
    {db : Str} {dir : Option SqlDir} (hd : db = (givenText (py! "--database") l).getD (py! "pyulog.sqlite3"))
    (hs : dir = match givenText (py! "--sql") l with | none => shipped | some s => dirs s)
    {file : Option (SDb σ)} {r : Except PyErr Unit}
    (hr : migrateDb E dir (isGiven (py! "--noop") l) (isGiven (py! "--force") l) (dbs db) = (file, r)) :
    (r = .ok () → migrateMain isDir E dirs shipped dbs argv = some (some (db, file), .finished)) ∧
    (∀ e, r = .error e → migrateMain isDir E dirs shipped dbs argv = some (some (db, file), .raised e)) := by
  subst hd hs
  obtain ⟨⟨ns, hp, hm⟩, hk⟩ := cmdLine_means C92_tools.2.2.2.1 h (Nat.le_refl 0) (by intro p hp; cases hp)
  have h1 := word_given (n := py! "--database") (o := migrateCli.opts[0]) (by decide +kernel) (by decide) rfl hm hk
  have h2 := text_given (n := py! "--sql") (o := migrateCli.opts[2]) (by decide +kernel) (by decide) rfl hm hk
  have h3 := flag_given (n := py! "--noop") (o := migrateCli.opts[1]) (by decide +kernel) (by decide) rfl hm hk
  have h4 := flag_given (n := py! "--force") (o := migrateCli.opts[3]) (by decide +kernel) (by decide) rfl hm hk
  have ha : migrateArgs ns = .ok ⟨(givenText (py! "--database") l).getD (py! "pyulog.sqlite3"), givenText (py! "--sql") l,
      isGiven (py! "--noop") l, isGiven (py! "--force") l⟩ := by
    show (argWord ns migrateCli.opts[0].dest).bind _ = _
    rw [h1]
    show (argText ns migrateCli.opts[2].dest).bind _ = _
    rw [h2]
    show (argFlag ns migrateCli.opts[1].dest).bind _ = _
    rw [h3]
    show (argFlag ns migrateCli.opts[3].dest).bind _ = _
    rw [h4]
    rfl
  have hm : migrateMain isDir E dirs shipped dbs argv = _ := withArgs_ok hp ha
  rw [hm]
  generalize givenText (py! "--sql") l = sql at hr
  cases sql <;> dsimp only at hr ⊢ <;> rw [hr] <;>
    exact ⟨fun hr => by rw [hr], fun e he => by rw [he]⟩

end PyULog
