import Verif.Props.Main
import Verif.Props.Names
import Verif.Props.Migrate
/-
Property theorems: C95 (what a tool has done when it ends), with examples for C94 and C95.
-/
namespace PyULog
open Spec

/-! ### C95 -/

theorem withArgs_refused {α β : Type} {d : CliDecl} {isDir : Str → Bool} {argv : List Str}
    {read : Dict Str ArgVal → Except PyErr α} {nothing : β} {run : α → Option (β × Ended)} {n : Nat}
    (h : parseArgs d isDir argv = .error n) : withArgs d isDir argv read nothing run = some (nothing, .exit n) := by
  unfold withArgs
  rw [h]

/-- how a program with arguments comes to an end -/
theorem withArgs_end {α β : Type} {d : CliDecl} {isDir : Str → Bool} {argv : List Str}
    {read : Dict Str ArgVal → Except PyErr α} {nothing : β} {run : α → Option (β × Ended)} {x : β × Ended}
    (h : withArgs d isDir argv read nothing run = some x) :
    (∃ n, parseArgs d isDir argv = .error n ∧ x = (nothing, .exit n)) ∨
    (∃ ns e, parseArgs d isDir argv = .ok ns ∧ read ns = .error e ∧ x = (nothing, .raised e)) ∨
    ∃ ns a, parseArgs d isDir argv = .ok ns ∧ read ns = .ok a ∧ run a = some x := by
  unfold withArgs at h
  cases hp : parseArgs d isDir argv with
  | error n => rw [hp] at h; exact .inl ⟨n, rfl, (Option.some.inj h).symm⟩
  | ok ns =>
    rw [hp] at h
    dsimp only at h
    cases hr : read ns with
    | error e => rw [hr] at h; exact .inr (.inl ⟨ns, e, rfl, hr, (Option.some.inj h).symm⟩)
    | ok a => rw [hr] at h; exact .inr (.inr ⟨ns, a, rfl, hr, h⟩)

/-- how a program with a log comes to an end -/
theorem withLog_end {β : Type} {w : World} {fuel depth : Nat} {file : Str} {filter : NameFilter} {ignore : Bool} {sofar : β}
    {run : ULog → β × Ended} {x : β × Ended} (h : withLog w fuel depth file filter ignore sofar run = some x) :
    (∃ e, x = (sofar, .raised e)) ∨
    ∃ bs u, w.read file = .ok bs ∧ load fuel { filter := filter, ign := ignore, depth := depth } bs = .ok u ∧ run u = x := by
  unfold withLog at h
  cases hb : w.read file with
  | error e => rw [hb] at h; exact .inl ⟨e, (Option.some.inj h).symm⟩
  | ok bs =>
    rw [hb] at h
    dsimp only at h
    cases hl : load fuel { filter := filter, ign := ignore, depth := depth } bs with
    | outOfFuel => rw [hl] at h; cases h
    | raised e => rw [hl] at h; exact .inl ⟨e, (Option.some.inj h).symm⟩
    | ok u => rw [hl] at h; exact .inr ⟨bs, u, rfl, hl, Option.some.inj h⟩

/-- **C95**, refused command lines: nothing is read or written; the status is 2, or 0 when a word asks for the help. The
world `w` may be any: no file has to be readable. -/
theorem C95_refused (w : World) (csvFmt : NpVal → Str) (fmt : Value → Str) (pr : Char → Bool) (ev : EventEnv EventParser J)
    (available : Bool) (env : RosEnv) (E : Engine σ) (dirs : Str → Option SqlDir) (shipped : Option SqlDir)
    (dbs : Str → Option (SDb σ)) (fuel depth : Nat) {argv : List Str} {n : Nat} :
    (parseArgs csvCli w.isDir argv = .error n → csvMain w csvFmt fuel depth argv = some ({}, .exit n)) ∧
    (parseArgs gpsCli w.isDir argv = .error n → gpsMain w fuel depth argv = some ([], .exit n)) ∧
    (parseArgs paramsCli w.isDir argv = .error n → paramsMain w fmt fuel depth argv = some (none, .exit n)) ∧
    (parseArgs messagesCli w.isDir argv = .error n → messagesMain w ev fuel depth argv = some ([], .exit n)) ∧
    (parseArgs infoCli w.isDir argv = .error n → infoMain w pr fuel depth argv = some ([], .exit n)) ∧
    (parseArgs kmlCli w.isDir argv = .error n → kmlMain w fuel depth argv = some (none, .exit n)) ∧
    (parseArgs bagCli w.isDir argv = .error n → bagMain w available env fuel depth argv = some (none, .exit n)) ∧
    (parseArgs migrateCli w.isDir argv = .error n →
      migrateMain w.isDir E dirs shipped dbs argv = some (none, .exit n)) :=
  ⟨withArgs_refused, withArgs_refused, withArgs_refused, withArgs_refused, withArgs_refused, withArgs_refused,
    withArgs_refused, withArgs_refused⟩

theorem code_of {d : CliDecl} (hd : d ∈ [gpsCli, infoCli, messagesCli, migrateCli, paramsCli, csvCli, kmlCli, bagCli])
    {isDir : Str → Bool} {argv : List Str} {n : Nat} (h : parseArgs d isDir argv = .error n) :
    n = 2 ∨ (n = 0 ∧ ∃ w ∈ argv, MayHelp w) :=
  C93_code (C93_help_option d hd) h

/-- **C95**, `ulog2csv`: the status is 0, 1 or 2. It is 0 only if a word asks for the help and nothing is left, or if all
files of a log are complete; 2 leaves nothing. -/
theorem C95_csv_status {w : World} {fmt : NpVal → Str} {fuel depth : Nat} {argv : List Str} {left : CsvLeft} {e : Ended}
    (h : csvMain w fmt fuel depth argv = some (left, e)) :
    (e.status = 0 ∨ e.status = 1 ∨ e.status = 2) ∧
    (e.status = 2 → left = {}) ∧
    (e.status = 0 → (left = {} ∧ ∃ w ∈ argv, MayHelp w) ∨
      ∃ ns a bs u, parseArgs csvCli w.isDir argv = .ok ns ∧ csvArgs ns = .ok a ∧ w.read a.file = .ok bs ∧
        load fuel { filter := messageFilter a.messages, ign := a.ignore, depth := depth } bs = .ok u ∧
        convertCsv fmt (csvPrefix a.file a.output) a.delim a.timeS a.timeE u = .ok left.files) := by
  rcases withArgs_end h with ⟨n, hp, hx⟩ | ⟨ns, e', hp, ha, hx⟩ | ⟨ns, a, hp, ha, hx⟩
  · cases hx
    rcases code_of (by simp) hp with rfl | ⟨rfl, hw⟩
    · exact ⟨.inr (.inr rfl), fun _ => rfl, fun h0 => (nomatch h0)⟩
    · exact ⟨.inl rfl, fun _ => rfl, fun _ => .inl ⟨rfl, hw⟩⟩
  · cases hx
    exact ⟨.inr (.inl rfl), fun h2 => (nomatch h2), fun h0 => (nomatch h0)⟩
  · unfold csvRun at hx
    cases hd : (csvDir w a.output).findSome? w.mkdir with
    | some e' =>
      rw [hd] at hx
      cases hx
      exact ⟨.inr (.inl rfl), fun h2 => (nomatch h2), fun h0 => (nomatch h0)⟩
    | none =>
      rw [hd] at hx
      rcases withLog_end hx with ⟨e', hx⟩ | ⟨bs, u, hb, hl, hx⟩
      · cases hx
        exact ⟨.inr (.inl rfl), fun h2 => (nomatch h2), fun h0 => (nomatch h0)⟩
      · rcases hc : convertLeft fmt (csvPrefix a.file a.output) a.delim a.timeS a.timeE u with ⟨files, e'⟩
        rw [hc] at hx
        cases hx
        cases e' with
        | some e' => exact ⟨.inr (.inl rfl), fun h2 => (nomatch h2), fun h0 => (nomatch h0)⟩
        | none => exact ⟨.inl rfl, fun h2 => (nomatch h2), fun _ => .inr ⟨ns, a, bs, u, hp, ha, hb, hl, C85_all.mp hc⟩⟩

/-- **C95**, `ulog_extract_gps_dump`: the status is 0, 1, 2 or 255. The program ends without an exception only if nothing is
left (for the help, a refused line, no messages or a wrong format), or if both files are complete. -/
theorem C95_gps_status {w : World} {fuel depth : Nat} {argv : List Str} {left : Dict Str Bytes} {e : Ended}
    (h : gpsMain w fuel depth argv = some (left, e)) :
    (e.status = 0 ∨ e.status = 1 ∨ e.status = 2 ∨ e.status = 255) ∧
    (e.status ≠ 1 → left = [] ∨
      ∃ ns a bs u x y, parseArgs gpsCli w.isDir argv = .ok ns ∧ gpsArgs ns = .ok a ∧ w.read a.file = .ok bs ∧
        load fuel { filter := .names [py! "gps_dump"], ign := a.ignore, depth := depth } bs = .ok u ∧
        gpsDump u a.required = .ok (.files x y) ∧
        left = [((gpsNames a.file a.output a.required).1, x), ((gpsNames a.file a.output a.required).2, y)]) := by
  rcases withArgs_end h with ⟨n, hp, hx⟩ | ⟨ns, e', hp, ha, hx⟩ | ⟨ns, a, hp, ha, hx⟩
  · cases hx
    rcases code_of (by simp) hp with rfl | ⟨rfl, hw⟩
    · exact ⟨.inr (.inr (.inl rfl)), fun _ => .inl rfl⟩
    · exact ⟨.inl rfl, fun _ => .inl rfl⟩
  · cases hx
    exact ⟨.inr (.inl rfl), fun h1 => absurd rfl h1⟩
  · rcases withLog_end hx with ⟨e', hx⟩ | ⟨bs, u, hb, hl, hx⟩
    · cases hx
      exact ⟨.inr (.inl rfl), fun h1 => absurd rfl h1⟩
    · dsimp only at hx
      rcases gpsDump_left u a.required with ⟨_, h1, h2⟩ | ⟨h1, h2⟩ | ⟨x, y, h1, h2⟩ | ⟨x, y, e', h1, h2⟩ <;> rw [h2] at hx <;> cases hx
      · exact ⟨.inl rfl, fun _ => .inl rfl⟩
      · exact ⟨.inr (.inr (.inr rfl)), fun _ => .inl rfl⟩
      · exact ⟨.inl rfl, fun _ => .inr ⟨ns, a, bs, u, x, y, hp, ha, hb, hl, h1, rfl⟩⟩
      · exact ⟨.inr (.inl rfl), fun h1 => absurd rfl h1⟩

/-- **C95**, `ulog_params`, `ulog2kml` and `ulog_messages` write all or nothing: whatever raises, no file is begun and no line
printed. The output of the other programs can be partial, so this is not shown for them. -/
theorem C95_whole_partial {w : World} {fmt : Value → Str} {ev : EventEnv EventParser J} {fuel depth : Nat} {argv : List Str} :
    (∀ left e, paramsMain w fmt fuel depth argv = some (left, .raised e) → left = none) ∧
    (∀ left e, kmlMain w fuel depth argv = some (left, .raised e) → left = none) ∧
    (∀ lines e, messagesMain w ev fuel depth argv = some (lines, .raised e) → lines = []) := by
  refine ⟨?_, ?_, ?_⟩
  · intro left e h
    rcases withArgs_end h with ⟨n, hp, hx⟩ | ⟨ns, e', hp, ha, hx⟩ | ⟨ns, a, hp, ha, hx⟩
    · cases hx
    · cases hx; rfl
    · rcases withLog_end hx with ⟨e', hx⟩ | ⟨bs, u, hb, hl, hx⟩
      · cases hx; rfl
      · cases hf : paramsText fmt a.opts u <;> rw [hf] at hx <;> cases hx
        rfl
  · intro left e h
    rcases withArgs_end h with ⟨n, hp, hx⟩ | ⟨ns, e', hp, ha, hx⟩ | ⟨ns, a, hp, ha, hx⟩
    · cases hx
    · cases hx; rfl
    · rcases withLog_end hx with ⟨e', hx⟩ | ⟨bs, u, hb, hl, hx⟩
      · cases hx; rfl
      · split at hx <;> cases hx
        rfl
  · intro left e h
    rcases withArgs_end h with ⟨n, hp, hx⟩ | ⟨ns, e', hp, ha, hx⟩ | ⟨ns, a, hp, ha, hx⟩
    · cases hx
    · cases hx; rfl
    · rcases withLog_end hx with ⟨e', hx⟩ | ⟨bs, u, hb, hl, hx⟩
      · cases hx; rfl
      · unfold printed at hx
        split at hx <;> cases hx
        rfl

/-- **C95**, a log that cannot be read: every program ends with the exception of `open`, and nothing is written, except for the
directory that `ulog2csv` has made. -/
theorem C95_unreadable (w : World) (csvFmt : NpVal → Str) (fmt : Value → Str) (pr : Char → Bool) (ev : EventEnv EventParser J)
    (env : RosEnv) (fuel depth : Nat) {argv fs : List Str} {f : Str} {e : PyErr} {l : List (OptDecl × ArgVal)}
    (hb : w.read f = .error e) :
    (CmdLine csvCli w.isDir argv [f] l →
      (∀ o, givenText (py! "--output") l = some o → o ≠ [] → w.isDir o = false → w.mkdir o = none) →
      csvMain w csvFmt fuel depth argv = some
        ({ made := (givenText (py! "--output") l).toList.filter fun o => decide (o ≠ []) && !w.isDir o }, .raised e)) ∧
    (CmdLine gpsCli w.isDir argv [f] l → ∀ k, Instance l k → gpsMain w fuel depth argv = some ([], .raised e)) ∧
    (CmdLine paramsCli w.isDir argv (f :: fs) l → fs.length ≤ 1 → paramsMain w fmt fuel depth argv = some (none, .raised e)) ∧
    (CmdLine messagesCli w.isDir argv [f] l → messagesMain w ev fuel depth argv = some ([], .raised e)) ∧
    (CmdLine infoCli w.isDir argv [f] l → infoMain w pr fuel depth argv = some ([], .raised e)) ∧
    (CmdLine kmlCli w.isDir argv [f] l → kmlMain w fuel depth argv = some (none, .raised e)) ∧
    (CmdLine bagCli w.isDir argv [f] l → bagMain w true env fuel depth argv = some (none, .raised e)) := by
  refine ⟨fun h hd => ?_, fun h k hk => ?_, fun h hf => ?_, fun h => ?_, fun h => ?_, fun h => ?_, fun h => ?_⟩
  · rw [csvMain_run w csvFmt fuel depth h]
    exact csvRun_unread w csvFmt fuel depth (csvRequest f l) hb hd
  · rw [gpsMain_run w fuel depth h (instance_int hk)]
    exact withLog_unread hb
  · rw [paramsMain_run w fmt fuel depth h hf]
    exact withLog_unread hb
  · rw [messagesMain_run w ev fuel depth h]
    exact withLog_unread hb
  · rw [infoMain_run w pr fuel depth h]
    exact withLog_unread hb
  · rw [kmlMain_run w fuel depth h]
    exact withLog_unread hb
  · rw [bagMain_run w true env fuel depth h]
    exact withLog_unread hb

/-! ### a directory and half a file -/

/-- a world with one log -/
def Sample.world (bs : Bytes) : World where
  read := fun f => if f = py! "log.ulg" then .ok bs else .error .fileNotFound
  isDir := fun d => decide (d = py! "there")
  mkdir := fun _ => none

/-- The failing part of **C95**: `ulog2csv -o new nolog.ulg` fails, but the directory has been made. -/
theorem C95_directory_left : csvMain (Sample.world []) Sample.fmt 20 100 [py! "-o", py! "new", py! "nolog.ulg"] =
    some ({ made := [py! "new"], files := [] }, .raised .fileNotFound) := by
  decide +kernel

/-- a log with three gps_dump messages; the third one has the length `len` in an array of two bytes -/
def Sample.gpsLog (len : UInt8) : Bytes := Sample.header ++
  encMsgs [(tyF, Sample.asc (py! "gps_dump:uint64_t timestamp;uint8_t instance;uint8_t len;uint8_t[2] data;"))] ++
  encMsgs [(tyA, [0, 0, 0] ++ Sample.asc (py! "gps_dump")),
    (tyD, [0, 0, 5, 0, 0, 0, 0, 0, 0, 0, 0, 2, 104, 105]), (tyD, [0, 0, 6, 0, 0, 0, 0, 0, 0, 0, 0, 129, 111, 107]),
    (tyD, [0, 0, 7, 0, 0, 0, 0, 0, 0, 0, 0, len, 112, 113])]

/-- The failing part of **C95**: a length that exceeds the array leaves both files with the bytes before the exception. -/
theorem C95_gps_begun : gpsMain (Sample.world (Sample.gpsLog 3)) 20 100 [py! "log.ulg"] =
    some ([(py! "log_0_to_device.dat", [111]), (py! "log_0_from_device.dat", [104, 105, 112, 113])], .raised .keyError) := by
  decide +kernel

/-- the same log with a good length -/
example : gpsMain (Sample.world (Sample.gpsLog 1)) 20 100 [py! "log.ulg"] =
    some ([(py! "log_0_to_device.dat", [111]), (py! "log_0_from_device.dat", [104, 105, 112])], .finished) := by
  decide +kernel

/-! ### examples of C94 -/

/-- a file name alone is a command line of every program with one file -/
theorem Sample.lone {d : CliDecl} {isDir : Str → Bool} {f : Str} (hf : PlainWord d f) : CmdLine d isDir [f] [f] [] :=
  .line (pre := []) (post := []) (fs := [f]) .nil .nil (by intro g hg; rwa [List.mem_singleton.mp hg]) (.inl (by simp))

theorem Sample.plain_log {d : CliDecl} : PlainWord d (py! "log.ulg") := .inl (by decide)

/-- an option with a value in front of the file -/
theorem Sample.valued {d : CliDecl} {isDir : Str → Bool} {o : OptDecl} {s v f : Str} (i : Nat) (ho : d.opts[i]? = some o)
    (hs : s ∈ o.names) (ha : o.action = .store .text) (hv : PlainWord d v) (hf : PlainWord d f) :
    CmdLine d isDir [s, v, f] [f] [(o, .str v)] :=
  .line (pre := [s, v]) (post := []) (fs := [f])
    (Line.cons (w := [s, v]) (l := [(o, .str v)]) (ws := []) (ls := [])
      (.value (List.mem_of_getElem? ho) (.inl hs) ha hv .text) .nil)
    .nil (by intro g hg; rwa [List.mem_singleton.mp hg]) (.inl (by simp))

/-- `ulog2csv -o new log.ulg` -/
example : CmdLine csvCli (Sample.world Sample.file).isDir [py! "-o", py! "new", py! "log.ulg"] [py! "log.ulg"]
      [(csvCli.opts[2], .str (py! "new"))] ∧
    (csvMain (Sample.world Sample.file) Sample.fmt 20 100 [py! "-o", py! "new", py! "log.ulg"]).map
      (fun x => (x.1.made, x.1.files.map (·.1), x.2)) =
        some ([py! "new"], [py! "new/log_a_0.csv", py! "new/log_b_1.csv"], .finished) :=
  ⟨Sample.valued 2 rfl (by decide) rfl (.inl (by decide)) Sample.plain_log, by decide +kernel⟩

/-- `ulog_extract_gps_dump -i 1 log.ulg`: no message of this instance -/
example : CmdLine gpsCli (Sample.world (Sample.gpsLog 1)).isDir [py! "-i", py! "1", py! "log.ulg"] [py! "log.ulg"]
      [(gpsCli.opts[2], .str (py! "1"))] ∧
    Instance [(gpsCli.opts[2], .str (py! "1"))] 1 ∧
    gpsMain (Sample.world (Sample.gpsLog 1)) 20 100 [py! "-i", py! "1", py! "log.ulg"] =
      some ([(py! "log_1_to_device.dat", []), (py! "log_1_from_device.dat", [])], .finished) :=
  ⟨Sample.valued 2 rfl (by decide) rfl (.inl (by decide)) Sample.plain_log, (C61_int _ _).mp rfl, by decide +kernel⟩

/-- `ulog_extract_gps_dump -i x log.ulg` -/
example : CmdLine gpsCli (Sample.world (Sample.gpsLog 1)).isDir [py! "-i", py! "x", py! "log.ulg"] [py! "log.ulg"]
      [(gpsCli.opts[2], .str (py! "x"))] ∧
    gpsMain (Sample.world (Sample.gpsLog 1)) 20 100 [py! "-i", py! "x", py! "log.ulg"] = some ([], .raised .valueError) :=
  ⟨Sample.valued 2 rfl (by decide) rfl (.inl (by decide)) Sample.plain_log, by decide +kernel⟩

/-- `ulog_extract_gps_dump log.ulg` without such messages -/
example : CmdLine gpsCli (Sample.world Sample.file).isDir [py! "log.ulg"] [py! "log.ulg"] [] ∧
    gpsMain (Sample.world Sample.file) 20 100 [py! "log.ulg"] = some ([], .exit 0) :=
  ⟨Sample.lone Sample.plain_log, by decide +kernel⟩

/-- `ulog_params -l ; log.ulg` -/
example : CmdLine paramsCli (Sample.world Sample.file).isDir [py! "-l", py! ";", py! "log.ulg"] [py! "log.ulg"]
      [(paramsCli.opts[0], .str (py! ";"))] ∧
    paramsMain (Sample.world Sample.file) Sample.fmtValue 20 100 [py! "-l", py! ";", py! "log.ulg"] =
      some (some (none, py! "K;6;8;10\n"), .finished) ∧
    paramsMain (Sample.world Sample.file) Sample.fmtValue 20 100 [py! "-l", py! ";", py! "log.ulg", py! "p.txt"] =
      some (some (some (py! "p.txt"), py! "K;6;8;10\n"), .finished) :=
  ⟨Sample.valued 0 rfl (by decide) rfl (.inl (by decide)) Sample.plain_log, by decide +kernel, by decide +kernel⟩

/-- `ulog_params -d system log.ulg`: the log has no defaults -/
example : paramsMain (Sample.world Sample.file) Sample.fmtValue 20 100 [py! "-d", py! "system", py! "log.ulg", py! "p.txt"] =
    some (none, .raised .assertionError) := by decide +kernel

/-- `ulog_messages log.ulg` -/
example : CmdLine messagesCli (Sample.world Sample.file).isDir [py! "log.ulg"] [py! "log.ulg"] [] ∧
    messagesMain (Sample.world Sample.file) Sample.noEvents 20 100 [py! "log.ulg"] = some ([py! "0:00:00 INFO: hi"], .finished) :=
  ⟨Sample.lone Sample.plain_log, by decide +kernel⟩

/-- `ulog_info -m x log.ulg`: no such message -/
example : CmdLine infoCli (Sample.world Sample.file).isDir [py! "-m", py! "x", py! "log.ulg"] [py! "log.ulg"]
      [(infoCli.opts[1], .str (py! "x"))] ∧
    infoMain (Sample.world Sample.file) (fun _ => true) 20 100 [py! "-m", py! "x", py! "log.ulg"] =
      some ([py! "message x not found"], .finished) :=
  ⟨Sample.valued 1 rfl (by decide) rfl (.inl (by decide)) Sample.plain_log, by decide +kernel⟩

/-- `ulog2kml -o x log.ulg`: the topic is missing -/
example : CmdLine kmlCli (Sample.world Sample.file).isDir [py! "-o", py! "x", py! "log.ulg"] [py! "log.ulg"]
      [(kmlCli.opts[0], .str (py! "x"))] ∧
    (kmlMain (Sample.world Sample.file) 20 100 [py! "-o", py! "x", py! "log.ulg"]).map (fun x => (x.1.isSome, x.2)) =
      some (false, .raised .keyError) :=
  ⟨Sample.valued 0 rfl (by decide) rfl (.inl (by decide)) Sample.plain_log, by decide +kernel⟩

/-- `ulog2ros2bag -m b log.ulg` -/
example : CmdLine bagCli (Sample.world Sample.file).isDir [py! "-m", py! "b", py! "log.ulg"] [py! "log.ulg"]
      [(bagCli.opts[2], .str (py! "b"))] ∧
    (bagMain (Sample.world Sample.file) true Sample.bagEnv 20 100 [py! "-m", py! "b", py! "log.ulg"]).map
      (fun x => (x.1.map fun b => (b.name, b.storage), x.2)) = some (some (py! "rosbag_log", py! "sqlite3"), .finished) :=
  ⟨Sample.valued 2 rfl (by decide) rfl (.inl (by decide)) Sample.plain_log, by decide +kernel⟩

/-- refused lines -/
example : csvMain (Sample.world []) Sample.fmt 20 100 [] = some ({}, .exit 2) ∧
    gpsMain (Sample.world []) 20 100 [py! "-o", py! "no", py! "log.ulg"] = some ([], .exit 2) ∧
    infoMain (Sample.world []) (fun _ => true) 20 100 [py! "-h"] = some ([], .exit 0) := by
  decide +kernel

/-- `ulog_migratedb -d a -s there`, from a new file up to the script that fails, for a database of version 5, and with a word too many -/
example : CmdLine migrateCli (fun _ => false) [py! "-d", py! "a", py! "-s", py! "there"] []
      [(migrateCli.opts[0], .str (py! "a")), (migrateCli.opts[2], .str (py! "there"))] ∧
    (migrateMain (fun _ => false) Sample.listEngine (fun d => if d = py! "there" then some Sample.sqlDir else none) none
      (fun _ => none) [py! "-d", py! "a", py! "-s", py! "there"]).map (·.1) =
        some (some (py! "a", some ⟨[py! "A", py! "B ';'"], 2⟩)) ∧
    (migrateMain (fun _ => false) Sample.listEngine (fun d => if d = py! "there" then some Sample.sqlDir else none) none
      (fun _ => some ⟨[], 5⟩) [py! "-d", py! "a", py! "-s", py! "there"]).map (·.2) = some .finished ∧
    (migrateMain (fun _ => false) Sample.listEngine (fun _ => none) none (fun _ => none) [py! "x"]).map (·.2) = some (.exit 2) := by
  refine ⟨?_, by decide +kernel, by decide +kernel, by decide +kernel⟩
  refine CmdLine.line (pre := [py! "-d", py! "a", py! "-s", py! "there"]) (fs := []) (post := [])
    (l1 := [(migrateCli.opts[0], .str (py! "a")), (migrateCli.opts[2], .str (py! "there"))]) (l2 := []) ?_ .nil
    (by intro g hg; cases hg) (.inr rfl)
  refine Line.cons (w := [py! "-d", py! "a"]) (l := [(migrateCli.opts[0], .str (py! "a"))]) ?_
    (Line.cons (w := [py! "-s", py! "there"]) (l := [(migrateCli.opts[2], .str (py! "there"))]) (ws := []) (ls := []) ?_ .nil)
  · exact .value (List.mem_of_getElem? (i := 0) rfl) (.inl (by decide)) rfl (.inl (by decide)) .text
  · exact .value (List.mem_of_getElem? (i := 2) rfl) (.inl (by decide)) rfl (.inl (by decide)) .text

end PyULog
