# Formal model of PX4/pyulog in Lean 4

## Approach

A shallow, executable model: every modelled Python function becomes a total Lean
function over `List UInt8` (file bytes), `List Char` (Python `str`), `Nat`/`Int`,
insertion-ordered association lists (Python `dict`) and plain structures. Python
exceptions are values (`Except PyErr`, or an outcome carrying the state when the
code mutates before raising). Loops become structural recursion; the two file loops
take fuel, and sufficiency of the fuel is itself a theorem (C02) or refuted (C03).

Layout (`/verif/lean/Verif/`):

* `Model/*` – the model; each definition cites the file and lines in `/repo` it models.
* `Spec/*` – specifications used in theorem statements. They restate constants and
  behaviour independently of the model's helpers (relations, first-occurrence search,
  offsets counted from the column list, shape of the SQL schema, ...).
* `Lemmas/*` – helper lemmas.
* `Props/*` – the property theorems (names `Cnn_...`), each with an `example` that shows a
  concrete non-trivial case meeting its hypotheses.

Theorems quantify over all byte strings, files, logs, message sequences, databases and
histories; nothing is bounded except where the remark says so. Where the code violates a
property, the negation is proved on a concrete witness, usually together with an exact
characterisation of what the code does, and what remains true carries the suffix
`_partial` when the name would otherwise promise the full statement.

## Plan per property

| id | model | proof |
|----|-------|-------|
| C01 | `_read_file_header`, `_load_file` | case analysis over all byte strings |
| C02 | data loop as step function + fuel | progress measure: position strictly increases |
| C03 | definition loop | false of the code (seek back past a truncated message): divergence of a concrete file; `_partial` termination otherwise |
| C04,C05,C09,C11,C49,C51,C67 | message handlers | trace of processed messages, invariants over the loop |
| C06,C07 | subscriptions, buffer, `Data.__init__` | buffer invariant, induction |
| C08,C61 | `_parse_nested_type` with recursion budget, `MessageFormat` | refinement to an inductive relation |
| C10 | `_add_parameter_default` | all masks; false for bits >= 2 |
| C12 | `_MessageFlagBits` | case analysis |
| C13 | `_find_sync` chunk loop | chunked search = first-occurrence search |
| C14,C15,C18,C46-C48 | framing | loop on concatenated frames = fold; witnesses |
| C16 | `_load_file` | monotonicity of the data phase |
| C17 | filter | simulation between two runs |
| C19 | UTF-8 decoder of CPython, strict and ignore | induction |
| C81 | data loop | moving a message to the front of its stream |
| C20-C23,C82,C83 | writer | round trip theorem, sorting lemmas, exact conditions of the packers |
| C24 | appended sections | positions relative to offsets |
| C25-C28,C53 | API helpers, `__eq__` | direct |
| C29-C37,C54-C60,C70-C80 | tools | direct, with I/O as returned values, external libraries as parameters |
| C38-C42,C62-C66 | relational model of the SQLite tables used by db.py | refinement to a map from key to log; reachable databases |
| C43,C44,C68,C69 | migration driver with crash points; lexer, parser and executor for the SQL of the shipped scripts | induction over scripts and statements |
| C45 | block reader, hash abstract | induction |
| C84 | `str` of floats as search for the shortest digits | 17 (9) digits separate neighbours; reading back as nearest float; all decimals on a common scale for minimality; table of the 256 bytes for literals |
| C85 | csv writes up to the exception, as text and exception | the writes before the failing one, by induction over cells, rows, datasets |
| C86 | IEEE addition and division on bit patterns, for the coordinates of KML files | rounding of the model = nearest float, monotone and injective |
| C87 | products and differences of float32 bit patterns | error of one rounding, interval bounds over the reals; witness |
| C88 | `repr` of texts and of lists of lists of values | escape sequences decoded by an independent reader of literals, element by element |
| C89 | the exceptions of `write_ulog` | an inductive list of obstacles with their exceptions, over the sizes of C83; both directions, and the shorter list for loaded files |
| C90 | the exceptions of `DatabaseULog.save` | an inductive list of obstacles with their exceptions over the rows of a log; both directions, and the shorter list for logs of files |
| C91 | the exceptions of loading a file | an inductive list of reasons over the bytes of a message (TextOf, keyBytes, Columns, NestedIn) and the positions the reader reaches; both directions, for one message an equivalence |
| C92, C93 | `parse_args` for the declarations of the tools | an inductive description of command lines (Bundle, Says, Line), of words that are no options (PlainWord) and of words that name none (Unknown) |
| C96 | as C29, C30 (`csvFile`, `convertCsv`, `extractFrom`) | the reasons for each exception, on fields, columns and bounds (`CsvObstacle`, `ExtractObstacle`) |
| C94, C95 | the `main` functions from the words of the command line to the files that are left and the end of the program (`withArgs`, `withLog`, `csvMain`, `gpsMain`, `paramsMain`, `messagesMain`, `infoMain`, `kmlMain`, `bagMain`, `migrateMain`), the output up to an exception (`mapLeft`, `infoLeft`, `messageLeft`, `bagLeft`) | command lines as in C92 (`CmdLine`), the value given last for the option of a name (`given`), the functions of the properties about the tools |
| C97, C98 | as C74–C82 (`showInfo`, `showMessage`, `getDefaults`, `gpsDump`, the functions of `ulog2kml`) | the reasons for each exception over the fields and lists of a loaded log (`Spec/ToolError`, `Spec/KmlError`), in both directions |
| C99 | the lines printed by the reader (`Model/Notices`: functions parallel to the loops of `Model/Read`) | the lines as a function of the traces of messages (`said`, `saidDef`, `saidFlags`), with the obstacles of C91 |
| C100 | the lines printed by the converters (`Model/Prints`, beside the functions of `Model/Main`) | announcements as a function of the datasets that are opened (`announcement`), summaries from the bag that is left, script names from the directory; `C100_points_window` is the witness that the announced number ignores the window |
| C101 | `str.format` on the joined path (`Model/ScriptPath`, compared with CPython 3.11 on 3000 random format strings), `migrate_db` with the name of the directory | `scriptName`: directory, slash, `pyulog.<id>.sql`; the path is this one exactly if the directory has no curly brackets |
| C102 | the lines of a verbose run and of missing packages (`Model/Verbose`); the order of a set of texts is a parameter | the lines of the quiet run (`quietLine` filters the others), names of fields as a set, the reasons of C97 for the exception of the version |
| C103 | nothing new: the exceptions of `exportTopic`, `rosMessage` and `bagLeft` | `BagObstacle`: the first dataset, and in it the first column with a reason, from names of fields, attributes of the type and lengths of its arrays |
| C104 | nothing new: `writeUlog`, `load` and the functions of the tools | `Rewritten` (loaded, written, loaded again); outputs of the tools for both logs are compared. Conditions, each with a witness that it is needed: `NoBoolParams`, `RowsInOrder`, the end of the log is its last sample, `FromPx4` or messages in order |
| C105 | nothing new: `writeUlog`, `load` | `LogUpTo` (definitions, first rows and first messages with a time between what is there and what is missing), `itemCount`; `completeIn` of C15 counts the messages that are complete in the bytes |
| C106 | nothing new: `convertCsv`, `extractFrom`, `paramsText`, `showMessage`, `messageLines`, `rosTopic` | `LogUpTo` of C105; `FirstLines` (a text cut after whole lines) |
| C107 | nothing new: `load`, `addData`, `finalize` | `DamagedIn` (one log is another but for one row of a topic and the times), `OneRowDiffers` |
| C108 | nothing new: `load`, `parseLogging`, `parseLoggingTagged`, `parseDropout`, `parseInfo` | `OneDiffers`, `OneTagDiffers` (one element is replaced), `PlainFile` (the hypotheses of C18) |
| C109 | nothing new: `load`, `addData`, `finalize` | `LostIn`, `withoutSample` (the datasets without one row), `OneLess`, `OneTagLess`, `AcceptedAfter`, `NotNewest` |
| C110 | nothing new: `convertCsv`, `extractFrom` on the logs of C107 and C109 | `OneLineDiffers`, `OneLineLess`, `OneLineOnly`, `NoCharacters` |
| C111 | nothing new: `showInfo`, `paramsText`, `showMessage`, `messageLines` on the logs of C107 and C109 | nothing new: `DamagedIn`, `LostIn` |
| C112 | nothing new: `handleDef`, `handleData`, `addInfo`, `addInfoMulti`, `addParamDefault` on files that differ in one message | `keyOf`, `SameBut`, `OnlyKey`, `SameLoad`: equality of the entries with other keys, in their order |
| C113 | nothing new: `paramsText`, `showInfo`, `showMessage`, `messageLines`, `convertCsv`, `extractFrom` on the logs of C112 | `printedParams`, `partOf`, `DifferAt`, `SameResult`; the text of one parameter is `paramText` of the model, specified in C32 |
| C114 | nothing new: `addSub`, `addData`, `finalize` in the reader of C18 | `LostTopic`, `SubscribesAfter`; files as in C108; the times of dropouts and parameter changes are excluded, `C114_times` shows why |
| C115 | nothing new: `convertCsv`, `extractFrom`, `showInfo`, `paramsText`, `showMessage`, `messageLines` on the logs of C114 | `SameReport`, `warningLine` (restates the warning); file names by `csvName` of the model, specified in C30 |
| C116 | nothing new: `handleDef`, `handleData`, `addDefaultLoop`, `addSub`, `applyFlagBits` on files with repeated messages | `fileRep`, `fileDefRep`, `addsEntry`; the result is the same object |
| C117 | nothing new: `handleDef`, `parseAddLogged`, `nest` in the reader of C18 | `Contains` (an inductive relation between formats), `WithoutFormat`, `NoFormat`, `NotSubscribed`; texts of messages by `parseFormat` and `parseString` of the model, specified in C61 and C19 |
| C50 | binary32/binary64 bit-level conversion | arithmetic |

## Trusted base

* Lean's kernel (Lean 4.33.0). Mathlib is imported only by the files about angles (C75, C87).
* The axioms `propext`, `Classical.choice` and `Quot.sound`, as listed per theorem at the end.
  No axiom is added; there is no `sorry`, `native_decide`, `bv_decide`, `implemented_by`,
  `extern` or `unsafe`.
* The reading of the Python source, and of CPython, numpy and SQLite semantics, recorded in
  the comments of `Model/*`. The reader model was run on the sample logs of `/repo/test`
  (`sample_log_small`, `sample_appended_multiple`) and gave the outputs recorded there; the
  lexer of the SQL model gave the tokens of the shipped scripts.

### Modelled

* `core.py`: the reader (`_load_file` and everything below it: file header, flag bits, format,
  info, multi info, parameter, default parameter, subscription, data, logging, tagged logging,
  sync, dropout, removal messages; resynchronisation; appended data; name filter; header only;
  string exceptions), `Data` and its columns, `write_ulog` with all its parts, `__eq__` of logs
  and datasets, `get_dataset`, `list_value_changes`, `get_version_info(_str)`,
  `get_default_parameters`, `log_level_str`.
* `db.py`: constructor, `load`, `get_dataset` with cache, `save` with a possible fault at every
  statement, `delete`, `exists_in_db`, `primary_key_from_sha256sum`, `calc_sha256sum`,
  `write_ulog`, equality, JSON column (dictionary and text).
* `migrate_db.py` and `sql/pyulog.1..5.sql`: the driver, the transaction behaviour of
  `executescript`, and the statements of the shipped scripts on schemas with rows, foreign keys,
  cascades, unique constraints and indexes.
* `extract_message.py`, `ulog2csv.py`, `extract_gps_dump.py`, `params.py`, `messages.py`, `info.py`, `px4.py`
  (attitude angles with the arithmetic as a parameter, and over the real numbers), `px4_events.py`, `ulog2kml.py` (position tracks, camera triggers, several topics; not the rendering settings), `ulog2ros2bag.py`
  (with the part of `re` that the patterns of `calc_msgtype` use; ASCII names).

### Not modelled

* The texts that `argparse` prints (C92, C93 have the namespace and the exit code, of the argparse of CPython 3.11; the
  model was compared with it on 60000 random command lines), the options `description` and `metavar`, the text of an exception that `ulog_messages` prints (a parameter of C100),
  exceptions of opening files for writing and of file objects (a full disk; C105 says what the reader makes of the part of the log that was written). What a program has already written or printed when it
  raises is modelled: C82 for `write_ulog`, C85 for ulog2csv, C95 for the others.
* `arctan2` and `arcsin` (C74 and C87 have them as parameters, C75 is over the real numbers of Mathlib), and attitudes
  that are not float32. The float operations of ulog2kml and of the attitude are modelled bit by bit (C86, C87; compared
  with CPython on 15000 random cases), but for the overflow of the sum of an integer altitude and an integer offset.
* Debug output of the reader (`_debug`, always False) and performance properties.
* `repr` of coordinates in KML text: a parameter. `str` of numbers and bytes (C84) and of lists of texts (C88; the set of
  printable characters above ASCII is a parameter) is modelled; elsewhere the theorems hold for every choice of it.
* `libevents_parse` (a git submodule that is not in `/repo`), `lzma`, `json` and the download of
  event definitions: parameters of the model.
* `simplekml`, `rclpy`, `rosbag2_py`, `px4_msgs`: represented by the calls the code makes. The
  type checks of ROS2 message setters and the CDR serialisation are not modelled.
* SQLite beyond the statements in use: other connections, triggers, savepoints, column affinity
  other than TEXT for info-multiple elements, size limits. The text that SQLite gives to a float in a TEXT column is
  an uninterpreted function (`realText`).

### Assumptions worth knowing

* Files have at most 2^50 bytes where `seek` positions and `read_until` (2^53) matter
  (C18, C20, C21, C24).
* `pyInt` is `int(str)` with the decimal digits and the white space of Unicode 14 (Python 3.11), sign and underscores; the
  limit of 4300 digits is not modelled. The table was compared with CPython for every code point. `\d` and `strip` use the same tables.
* `str` of a float prints the shortest digits that read back, the closest ones among them (CPython's `repr`, numpy's
  Dragon4 in unique mode; `C84_shortest64/32` prove it of the model); the model was compared with CPython on 1500 numbers.
  numpy chooses the notation by the value (1e-4 and 1e16; the bound 1e8 that numpy 2.3 has for `float32` is not modelled).
* numpy 2 semantics for `uint64 * int` (C58) and `uint64 >> int` (events); `np.frombuffer` of an empty buffer is an empty array. `np.dtype` calls a field without a name by its position (`f0`, `f1`, …) before it looks for repeated names.
* Sort keys of the writer are compared exactly. Floating-point timestamp columns are `unmodelled` there
  (an error value of its own that no theorem treats as success). The windows of ulog2csv and extract_message compare
  columns of every type, as doubles or, for a `float32` column, after rounding the bound to `float32` (numpy 2; numpy 1 only
  differs for bounds below the range of `float32`).
* SQLite: rows without `ORDER BY` come in rowid order; a join without order follows the outer
  table; a rolled back transaction also rolls back AUTOINCREMENT counters; −0.0 keeps its bits;
  the hash function is a parameter; commits are atomic; `PRAGMA foreign_keys` has no effect inside
  a transaction; `DROP TABLE` deletes the rows first, with cascades.
  These, and the binding of values (OverflowError from 2^63 on, NaN to NULL, UnicodeEncodeError for surrogates, the TEXT
  affinity, -0.0 and infinities kept in the value columns, `-null` refused by `json()`), were tried out with statements
  of our own on SQLite 3.46.0.
* Observers: theorems about "the messages processed" use a trace of the reader's own loop. C18
  ties this trace to the bytes of the file, so the trace theorems do not hang in the air.

### The model on real logs

`conformance/run.sh` compiles the model and runs it on the sample logs of the project (0.5 to 4 MB). `ulog_info -v` and
`ulog_messages` of the model print, character for character, all expected outputs that the tests of the project
compare with (two info listings, five message listings; the texts of the events come from a table, since the event
parser is not in `/repo`), and load, write, load again gives the same object for all five samples, as `test_write_ulog`
expects. This tests the model; it is no part of any proof.

## Findings

Behaviour of the code that violates a listed property, each proved on a concrete witness:

* C03: a 19-byte file makes the definition loop run for ever.
* C10: the bits of a default-parameter mask are used as keys wrongly from bit 2 on.
* C15, C46, C48: a log cut inside the first message of the data section raises, or loads with definitions read again
  as data (a parameter change that was never logged, no corruption mark); a short message
  ends the whole data section; a file cut inside a definition loads silently.
* C17: the times of dropouts and parameter changes depend on the name filter; an id that is
  subscribed twice mixes topics.
* C20, C21: a `char` value of 128 or more cannot be written back; times of dropouts and parameter
  changes are recomputed on reading; equal-time messages of different tags swap on the first
  rewrite.
* C24: after a resynchronisation, data behind the offset is read twice or not at all, and complete messages
  before the offset can be lost.
* C29: a window bound after the last timestamp raises IndexError.
* C30, C54: cells are not quoted; non-ASCII characters raise; `a/b` and `a_b` share a file.
* C33: an empty log message makes `ulog_messages` raise.
* C37, C57-C59: topic name collision `a`/1 and `a_1`; flight modes from 18 on have no colour; nanosecond
  times wrap; versions are compared as strings.
* C38, C41, C62-C66: the corruption mark, filtered ids, field-less formats, NaN and info-multiple
  numbers do not survive the database; a failed `save` leaves a primary key behind that can
  delete another log; file objects are refused; `load()` twice doubles lists; delete+save of a lazy
  log loses its data; `-inf` breaks `append_json`; `write_ulog` of a default object raises. A stored log with a NaN in an
  info message or parameter (TypeError) or with a numeric multi info message (struct.error) cannot be written any more,
  and a multi info message `False` is written as True.
* C43, C44, C68: the version is recorded after COMMIT, so a crash in between leaves a database that
  scripts 3 and 4 cannot continue; a crash in the first migration leaves a refused file; a populated
  version 1 database cannot be migrated; an unterminated comment swallows the recording.
* C47: a data message that carries the trailing padding of its format is rejected.
* C56: a parser whose definitions failed to load is kept and used.
* C70-C72: `ulog_info` raises KeyError for a log with a topic without `timestamp` and TypeError for
  numeric multi info messages; instance 10 is listed before instance 2.
* C73: `to_camel_case` capitalises letters after a digit, so `px5io_status` would not find `Px5ioStatus`.
* C74: a logged field named `roll`, `pitch` or `yaw` of an attitude topic is overwritten by `add_roll_pitch_yaw`.
* C75: at a pitch of exactly 90 degrees roll and yaw are 0 for every quaternion, so that the angles do not give the
  rotation.
* C76: integer coordinates of a camera topic are exported without scaling to degrees.
* C77: `convert_ulog2kml` with fewer colours than topics leaves out topics, and a list of topics with the
  default `colors` raises TypeError.
* C80: `ulog_params --initial --timestamps` prints the changed values although only initial ones are asked for, with
  wrong times, because no messages are loaded.
* C82: `write_ulog` opens the target before it knows that the log can be written. When a sample or message cannot be
  encoded (C20: a `char` above 127), the target holds a valid log with all definitions and no samples.
* C83: files that load without any complaint and that `write_ulog` refuses: an info message of type `float[2]`
  (KeyError), messages of one multi info key with different types, a parameter of a text type (TypeError) or above 32
  bits, a default parameter whose mask has a bit above 2, a topic without `timestamp` (KeyError).
* C83: files that load, are written without an exception and are different afterwards: a default parameter for bit 2
  (key 3 becomes key 7, because the writer uses `1 << key` and the reader `bit value - 1`), a parameter of type
  `double` (rounded), a negative array size (lost), two datasets with one id in a log with appended data (merged).
* C87: the pitch of some float32 quaternions of length 1 is NaN: near 90 degrees the argument of `arcsin` is rounded to a
  number above 1 (the quaternion (119, -41, 119, 41)/178). It is not clipped.
* C94: `ulog_extract_gps_dump -i x` is not refused but raises ValueError; a wrong format ends with the status 255 and no
  messages at all with 0; `ulog2ros2bag` without the ROS2 packages ends with the status 0 although nothing was converted.
* C95: `ulog2csv -o DIR` leaves the new directory when the log cannot be opened or read, and
  `ulog_extract_gps_dump` leaves two begun files when a message has a length beyond its array (KeyError).
  `ulog_info` stops in the middle of its table at a topic without timestamps, `ulog_info -m` behind the heading of a message with
  numbers, and `ulog2ros2bag` leaves a bag with the topics before the one that raises; a version given as a text lets
  `ulog2ros2bag` fail only with `--verbose`.
* C06, C89, C90: a format with a field without a name (`uint8_t ;`) loads without any complaint; numpy calls the column `f` and
  its position (and refuses the log when another column has this name), but the field list keeps the empty name, so
  `write_ulog`, `DatabaseULog.save` and `ulog2csv` raise KeyError.
* C100: with `-ts` or `-te` `ulog2csv` announces the number of samples of the whole dataset, not that of the rows it writes.
* C101: `ulog_migratedb -s DIR` applies `str.format` to the path including `DIR`. A directory with curly brackets in its
  name is refused with an unrelated exception (KeyError, IndexError, ValueError), or scripts of another directory are
  executed (`a{{b}}` reads `a{b}`).
* C102: `ulog2ros2bag --verbose` on a log whose `ver_sw_release` is no number raises TypeError and leaves an empty bag, although
  the same run without `--verbose` exports everything.
* C103: a dataset without a field `timestamp` ends `ulog2ros2bag` with KeyError even if px4_msgs has no type for it, so that
  it would be skipped (`C103_skipped`).
* C104: a log that is written again looks different in the tools (`C104_different`): `ulog_info` no longer warns about
  corruption, and shows a shorter duration if a topic was subscribed twice; `ulog2csv` shows 1 for a `bool` byte 2; the
  messages of a log that is not from PX4 change their order.
* C106: the names that `ulog2ros2bag` gives to topics depend on the data that is left: the only instance left of a topic with
  several loses its index (`/px4/imu` instead of `/px4/imu_0`). For two topics with the same csv file name or two
  subscriptions of one topic, `ulog2csv` and `extract_message` show the other one (`C106_different`).
* C107: a damaged timestamp in one sample that is too large becomes the last timestamp of the log and the time of
  every later dropout and parameter change, as these are dated by the largest timestamp so far (`C107_different`).
* C109: without a sample that was the newest one, later dropouts and parameter changes get an earlier time, for the same
  reason (`C109_different`).
* C110: one damaged character above 127 in a sample makes `ulog2csv` raise ValueError, so that the topics after it, which
  have no damage, get no file (`C110_raises`).
* C116: a subscription that is written again with the same id starts an empty buffer, so that all samples of this id before it
  are dropped without a warning (`C116_later`).

## Tests against wrong programs

`seeded/LOG.jsonl` has one line per deliberately wrong edit of the model (made in a scratch copy),
with the claim it breaks, the theorems that stopped proving, and the theorems that were tightened
when nothing failed. Helper lemmas that merely restate the edited line were adapted to the edit so
that the verdict comes from the claims; failures that the claim does not depend on were set aside.

## Result per property

| id | property | status | remarks |
|---|---|---|---|
| C01 | File header gate | proved | header gate for every byte string; version and start time of the loaded object |
| C02 | Parsing the data section terminates | proved | per-iteration progress, bound on the number of iterations, and consequence for the whole load |
| C03 | Parsing the definition section terminates | partial | false as stated: C03_definitions_can_diverge proves that the 19-byte hangFile loops forever. Exact: C03_diverges_iff (the reader runs for ever iff it comes to a position where it has been before), C03_bounded (a load that ends does so within length+1 iterations), C03_next (where the reader goes from each header) and C03_back_iff (it goes back only at an invalid unknown message that runs past the end of the file); the partial theorem proves termination when no reached header is of that kind |
| C04 | last_timestamp is the maximum data timestamp | proved | For every file that loads: last_timestamp is the maximum of start_timestamp and the timestamps of the accepted data messages, at the end and before each message. |
| C05 | Corruption is sticky and malformed data adds no sample | proved | For every file that loads: a malformed data message (unknown id or wrong size) only marks the file corrupt and the mark is never cleared. |
| C06 | Datasets contain exactly the accepted samples | proved | For every loaded file: datasets = those described by Spec.DatasetOfSection on the processed messages; entries are typed little-endian values at the offsets of the columns; a column without a name is called by its position, as numpy does. |
| C07 | data_list is sorted and complete | proved | Order by code points of the name then instance; one dataset per subscription with samples per section; finalize never fails from a state reached by the loop. |
| C08 | Nested formats are flattened faithfully | proved | Columns characterised by an inductive relation independent of the reader (sound, complete, unique); cyclic and unknown types never load. Format text parsing itself is separate. |
| C09 | Parameters: initial versus changed | proved | For every file that loads: initial_parameters from the last parameter message of the definition section; changed_parameters and dropouts in file order, stamped with the latest accepted data timestamp. |
| C10 | Default parameters follow the bit mask | partial | False as stated for bits >= 2 (C10_mask_bit_2_lost: mask 5 stores bit 2 under key 3). C10_default_parameters_actual gives the exact behaviour for every mask; the _partial theorem is the stated claim for default types 0 and 1, the only ones the format defines. |
| C11 | Multi-part info messages are grouped losslessly | proved | For every file that loads, over both sections. |
| C12 | Incompatible flags are refused | proved | all flag payloads in any state, and at file level for a leading flag message |
| C13 | Sync recovery finds the first sync sequence | proved | all files and positions, both for the search over the rest of the file and for the search inside a payload; after a failed search the reader never searches again |
| C14 | Unknown message types are skipped (forward compatibility) | proved | Whole files made of complete messages (other messages arbitrary); C14_step covers one unknown message in arbitrary surroundings. |
| C15 | A cut log loads as its prefix | partial | Proved for every cut after the first message of the data section (C15_cut_partial) and at its beginning (C15_no_data). False for a cut inside that message, for every log: one or two bytes raise struct.error (C15_first_header); otherwise reading continues before the data section, as many bytes back as are missing from the message, or raises OSError (C15_first_cut). When the last definitions have this size they are read again as data (C15_read_again), so that a parameter change is reported that was never logged, without corruption mark (C15_phantom_change). |
| C16 | parse_header_only agrees with a full load | proved | Full statement; the info dictionary of the full load is the header's one updated by data section info messages. |
| C17 | The name filter selects datasets and nothing else | partial | Full load equivalence for files that do not reuse a subscription id across accepted and rejected topics; the timestamps of changed parameters and dropouts depend on the filter (C17_param_time_depends_on_filter), and reused ids mix topics (C17_reused_id_mixes_topics): both are behaviours of the code. |
| C18 | Framing: the reader sees exactly the messages written | proved | Section and whole file. Files up to 2^50 bytes (read_until), first data message of type A, L or C. |
| C19 | String decoding | proved | Against Lean's own UTF-8 encoder; ignore mode characterised by an independent relation (Drops). |
| C20 | write_ulog / read round trip | proved | C20_round_trip: for every log meeting Writable and Encodable, writing succeeds and the file reads back as ReadBack u; C20_exact: a settled log is read back exactly. Files up to 2^50 bytes (the seek bound of the model). Dropout and parameter-change times are recomputed on reading. Negative results: C20_char_not_writable (readable log, write raises ValueError), C20_change_without_samples. |
| C21 | Writing is idempotent | partial | C21_fixed_point: after one write and read the log is a fixed point (read back equal, so later writes are identical). C21_same_bytes_partial: the first rewrite is identical when messages of different tags never share a timestamp and dropouts/changes carry the time of the latest sample. The unrestricted statement is false: C21_tags_swap, C21_dropout_moves. |
| C22 | write_ulog clears the appended marker | proved | Header bytes, and the flags message with the appended-data bit cleared and zero offsets; all other flag bytes kept. |
| C23 | The written data section is a time-sorted permutation | proved | Whole file layout; data section is the time-sorted stable permutation of rows, logged, tagged, dropout and parameter-change messages, and each message decodes to what the log holds. Columns must hold values of their declared type and parameter keys have no space. |
| C24 | Appended data is read from its offset, once | partial | False as stated: after a search for a sync sequence the position compared with the offset is wrong: C24_resync_reads_past_offset (messages of the appended section are read as part of the first), C24_resync_stops_early (complete messages before the offset are lost). Proved: sections of complete messages, each followed by the beginning of a message that the offset cuts (C24_appended_partial); sections of any bytes, also corrupt ones, if no sync sequence follows or the search was given up: the file is read as if it ended at each offset (C24_section_partial, C24_pieces_partial). |
| C25 | get_dataset | proved | get_dataset returns the unique first dataset with the given name and multi id, IndexError exactly when there is none. |
| C26 | list_value_changes | proved | list_value_changes lists the first sample and exactly the samples that differ from their predecessor (with the code's NaN handling), and the column can be rebuilt from them. |
| C27 | Version information | proved | version tuple and release suffix text for every 32-bit version; absent info gives None. |
| C28 | Equality of datasets | proved | Data.__eq__ is reflexive on loaded data, symmetric, and holds iff names, fields and numbers agree (NaN equal to NaN). The order of dict keys is not compared: C28_order_not_checked. |
| C29 | extract_message time window | partial | C29_exact: rows for timestamps in any order below 2^53 us; C29_column: the same for timestamp columns of any type, also floats with NaN and infinities; C29_rounded: integers of 2^53 us and more, found within 8.2 ms; C29_raises_iff: IndexError exactly when a bound is not reached by any timestamp, so the full statement is false (C29_bound_not_reached); C29_window_partial: for ascending timestamps and bounds that are reached the rows are those of the window. |
| C30 | ulog2csv output shape | partial | file contents proved for every dataset with ASCII texts; shape proved for every dataset. Finding: a char value of 128 or more raises ValueError (C30_non_ascii); texts are not quoted, so a delimiter in a text adds a cell (C30_unescaped). |
| C31 | GPS dump extraction splits the stream losslessly | proved | C31_elements: for elements of every type the streams are the bytes of the elements as they are in the log file, for a len of type uint8_t; C31_streams: the same for bytes; C31_no_output: logs without gps_dump, or with another format, end with an exit code and no file. |
| C32 | Parameter export lists every parameter once | proved | for every log; distinct keys are the invariant of Python dictionaries. Also octave, qgc, --timestamps and --initial/--default output. Order is that of the log, which is time order when timestamps do not decrease. |
| C33 | Log message listing | partial | levels, parts of the time and the order of lines are proved; the whole seconds are exact below 2^53 us; for all 64 bit timestamps they can differ only within 3 ms of a full second (C33_seconds_close, C33_seconds_away), where they can be one too large or one too small (C33_seconds_large, C33_seconds_small). Finding: an empty message in a PX4 log raises IndexError (C33_empty_message). |
| C34 | Event extraction | proved | getLoggedEvents is the list of the event rows in order with external level below 8 whose group is default, with the time, level name and decoded text (or the unknown event text); with no definitions every row gives the unknown text; a missing dataset or id column gives []. libevents_parse (a git submodule absent from /repo) is an abstract parser. Exceptions are TypeErrors of float levels or arguments or come from the definitions (C34_exception); float ids are shown as Python floats (C34_float_id). |
| C35 | RC channel mapping names | proved | values are compared as numbers: 4.0 and True match too. |
| C36 | KML track thinning and mode segments | proved | the KML lines of a topic are exactly the segments given by the thinned samples with a fix and the flight mode changes; samples nearer than the interval to the previously kept one are exactly those dropped; positions are those of the rows. float comparison (cur_t-last_t)/1e6 > s is an abstract predicate of the time difference. |
| C37 | ROS2 topic names are unambiguous | partial | false as stated: C37_collision shows data sets a/1 and a_1 share /px4/a_1. C37_topics_partial gives the exact condition under which two data sets share a topic, for every data_list. |
| C38 | Database round trip | partial | Proved: every saved regular log (all logs read from files are, when their columns have names; C90_unnamed: others cannot be saved) loads from every later database as fromDb of it; equality with the file is characterised exactly (iff); saving succeeds for every log whose numbers fit and whose columns have names. Violated in general: corruption mark, filtered/missing ids, formats without fields, info-multiple numbers and NaN do not come back; start time >= 2^63 or duplicate (name, multi_id) cannot be saved (witnesses). |
| C39 | A log is stored at most once | proved | For all databases reachable by saves (with any fault) and deletes. |
| C40 | delete removes exactly one log | proved | Rows, orphans, existence and loading of all other logs. |
| C41 | save is all-or-nothing | partial | Database unchanged for every fault: proved. The second half is violated: after a fault behind the first statement _pk stays set, save raises KeyError for ever, and delete() of that object removes the next log that is saved (proved in general and by example). |
| C42 | Lazy loading returns the same dataset | proved | For any sequence of get_dataset calls and any change of the database that keeps the log. |
| C43 | Migrations run once and in order | partial | Proved for every SQL engine and every directory whose scripts are each missing, unframed or one transaction: order, completeness, recording, second run, noop and refusals. C43_not_recorded: the check for COMMIT; looks at the text only, a script that ends in an open comment is committed but never recorded. |
| C44 | An interrupted migration can be resumed | partial | C44_crash_states gives every state a crash can leave; C44_resume_partial: a recorded state continues to the result of the uninterrupted run. Not true in general: the version is set after COMMIT, so a crash in between runs the script again (C44_not_recorded), and a crash in the first migration leaves a version 0 file that is refused (C44_first_refused). For the shipped scripts: 1 and 5 can be repeated (C44_rerun_partial), 2 can on a new database (C44_rerun_second), 3 and 4 never (C44_stuck). |
| C45 | The digest covers the whole file | proved | The hash function is a parameter; an open file object is hashed from its position. |
| C46 | A malformed data-section message does not lose later messages | partial | The property is false: witness and general theorem (struct.error ends the section). Proved part: wrong-size and unknown-id data messages lose only themselves. |
| C47 | Trailing padding bytes are accepted | partial | The property is false for every format: C47_padding_rejected; witness on the sample file. |
| C48 | Truncated definitions are reported | partial | The property is false: witness. Proved part: a cut inside a message header raises. |
| C49 | Logged text messages are kept in order | proved | For every file that loads. |
| C50 | Float parameters survive the double representation | proved | Every 32-bit pattern; signalling NaNs are shown to come back quiet; the widening is shown exact in value; writing a double as a float is shown to round to the nearest 32-bit value with ties to even (C50_rounding) and to raise OverflowError exactly from the half way point to 2^128 on (C50_overflow). |
| C51 | Info messages: the last value wins, with its type | proved | For every file that loads, over both sections. |
| C52 | Only listed exceptions leave the constructor | proved | All byte strings and configurations; the model of the constructor has no unmodelled outcome. |
| C53 | Two reads of a log compare equal | proved | C53_same_content characterises ULog.__eq__ of two loaded logs attribute by attribute; C53_two_reads gives reflexivity up to NaN; symmetric and transitive. _debug (always False) is not compared; _subscriptions of a loaded log is empty (load_subs). |
| C54 | ulog2csv writes every dataset to its own file | partial | Exact for every log: two datasets share a file if and only if they have the same instance and names that differ in / against _ only (C54_shared_iff), and then the last one is what is left (C54_last_wins); so the property holds for names without / (C54_one_file_each_partial) and is false in general (C54_slash). |
| C55 | Vehicle type and estimator names | proved | every parameter dictionary; float values that are equal to a listed number are found too. |
| C56 | Which event definitions are used | partial | embedded, default, bad-hash and wrong-kind cases are proved, for hashes logged as text or as bytes; the clause about failures is false: C56_failed_load shows that the parser is stored before load_definitions succeeded, so a failed load is kept and used for the next log. |
| C57 | Every flight mode has a colour | partial | false for modes >= 18: C57_no_color (IndexError). Every mode below 18 has a colour, and different modes below 18 different ones. |
| C58 | Bag messages carry the time of their row | partial | times are the row times in nanoseconds modulo 2^64 (C58_times); exact for t*1000 < 2^64 (C58_exact_partial), wraps beyond (C58_wraps). numpy 2 integer arithmetic is assumed. |
| C59 | The rosbag2 interface is chosen by version | partial | strings are compared. C59_exact says for every version 0.m.p what is chosen, C59_wrong_iff which versions are decided wrongly (one-digit minor from 3 (4) on; three digits or more with the first two below 25 (32)), C59_major that 1.0 and later are decided right; C59_versions_partial: right for 0.10.x to 0.99.x. |
| C60 | Bag messages carry the values of their row | proved | for columns that are different places (attribute or attribute[k]) not mixing both forms for one attribute; which exception a place that does not fit the message raises (C60_exception, C60_exact); type checks of the rosidl setters are not modelled. |
| C61 | Format definitions are read as written | proved | C61_split, C61_int and C61_format_text characterise the accepted texts and the resulting format exactly (white space and digits ASCII only); C61_formats: last definition wins, formats of the data section do not count. |
| C62 | The constructor accepts file names and file objects | partial | Holds for file names; open file objects always raise TypeError and closed ones ValueError (proved). |
| C63 | load() can be called again | partial | Violated: lists are doubled (proved for every stored log); the datasets and the digest are right. |
| C64 | delete() and save() keep the log | partial | Holds for eagerly loaded logs; a lazily loaded log loses all data series (proved for every stored log). Deleting an object that is not stored is a KeyError (C64_delete_unsaved). |
| C65 | The JSON column mirrors the data | partial | False as stated: save with JSON fails for -inf and for topics without timestamp (C65_json_fails). Proved: which rows are stored (C65_json_partial, C65_same_rows_partial), the text of the column reads as one member per timestamp with a number, or null for NaN and infinity (C65_text, C65_column_partial), it is JSON exactly when no value is -inf (C65_valid), and save raises exactly then (C65_refused). Limit: that SQLite's json() accepts exactly JSON is assumed; timestamps that are floats are outside the model. |
| C66 | A stored log can be written to a file | partial | Violated: for the default lazy=True ValueError also when made from a file (C66_lazy_raises); a stored log with NaN or with multi info messages of number types cannot be written, and a multi info message False is written as True (C66_violated). Proved: same bytes for logs without NaN whose formats have fields and whose info-multiple values are text (C66_write_same_partial); exactly which stored logs of files can be written (C66_writable_partial). |
| C67 | Sync messages are counted | proved | load-level theorem over the processed-message trace (tied to the bytes by C18) |
| C68 | Migration keeps the stored logs | partial | C68_kept: versions 2, 3 and 4. Version 1: C68_version1_logs (only the table of the logs has rows: kept) and C68_version1_refused (a log with any row belonging to it: script 2 fails at DROP TABLE ULog and is rolled back, nothing is lost, nothing is migrated); C68_version1_iff: for databases whose rows refer to existing rows these are the only cases. Partial since the property is false for version 1 databases in use. |
| C69 | The migrated schema serves the database code | proved | Schema of the five shipped scripts on the model of SQLite's statements; independent of the stored rows. AUTOINCREMENT and column affinity are not modelled. |
| C70 | The summary of a log is exact and complete | partial | Lines in exact arithmetic for times and dropout sums below 2^53 (C70_listing_partial); a log with a topic without timestamp loads but cannot be listed (C70_untimed, KeyError), so the full statement is false. Also assumes that get_version_info_str succeeds (C27). |
| C71 | The table of datasets counts what was logged | partial | Row contents proved for every loaded log (C71_row), order by the text of name and instance (C71_order). The stated order by instance holds below ten (C71_instances_partial) and is false in general: instance 10 comes before instance 2 (C71_ten_before_two). |
| C72 | A multi info message is shown without loss | partial | Bytes and texts proved (C72_bytes, C72_text, C72_message); parts that are numbers are stored by the reader and raise TypeError when shown (C72_numbers), so the full statement is false. |
| C73 | ROS2 message type of a topic | partial | Direct names and the table of exceptions are proved exactly, for every ASCII name, with each pattern characterised as a set of texts (C73_camel, C73_direct, C73_exceptions, C73_export). That the camel-case form is the name of the message holds for words of letters followed by digits (C73_words_partial) and is false when letters follow a digit (C73_digit_letter). |
| C74 | Attitude angles are added to the right datasets and change nothing else | partial | Columns, rows, unchanged rest and KeyError proved for every log and every list of entries for different topics. That the log is written as before holds when no field of the topics is named roll, pitch or yaw (C74_write_partial); C74_overwrites shows a log with a field named roll whose written form changes. Element arithmetic is a parameter. |
| C75 | The attitude angles describe the rotation of the quaternion | partial | Proved over the real numbers (Mathlib's Complex.arg for arctan2) for pitches other than 90 and -90 degrees; at 90 degrees the claim is false: roll and yaw are always 0 (C75_gimbal_zero) and C75_gimbal_lock shows a quaternion whose rotation is another one. Rounding of numpy is not modelled. |
| C76 | Camera triggers become points | partial | Proved: one point per row of the camera topic, with its number and the logged coordinates; no points without the topic; KeyError without the columns. Missing: coordinates logged as integers are not converted to degrees (C76_not_scaled). |
| C77 | Every listed topic is exported | partial | Proved when there is one colour function per topic. Topics beyond the list of colours are silently left out (C77_missing_colors, C77_topic_lost), and a list of topics with the default colours is a TypeError (C77_single_color). C77_filter needs the hypothesis of C17. |
| C78 | Output files have the expected names | proved | The bag name drops .ulg in lower case only. POSIX paths; creation of folders is not modelled. |
| C79 | Chosen messages are converted as in the whole log | proved | Under the hypothesis of C17 (no id reused for a topic of the other kind); the CSV half also needs the distinct file names of C54. |
| C80 | Tools that load only some messages print what the whole log contains | partial | GPS dump and messages proved under the hypothesis of C17; parameters proved unless times are printed. With --initial --timestamps the times are those of a log without messages (C80_initial_times). |
| C81 | The interleaving of the topics does not matter | proved | C81_run for the processing of messages, C81_file for files; C81_barriers shows that the order within a stream and the place of parameter changes and dropouts do matter. Ids that are neither subscribed nor filtered are excluded: the model keeps the set of missing ids as a list. |
| C82 | A failing write leaves a loadable log | proved | All log objects and all exceptions of the writer itself; exceptions of the file object (full disk) are not modelled. The loading part assumes a log of the round trip (Writable), because other logs do not load the same way even when they are written completely (C20). |
| C83 | Exactly which logs can be written | partial | exact condition for every log object (C83_exact), reduced to what remains for loaded logs (C83_loaded), with logs that can be loaded but not written (C83_not_writable); loaded logs come back under conditions on the file content only (C83_comes_back, C83_same_object), and these conditions are the ones of the round trip (C83_conditions). That every loaded log comes back is false (C83_changed). Missing: timestamps that are not integers |
| C84 | Printed numbers stand for the logged values | proved | All bit patterns: the decimal that the text denotes is nearest to the printed float (nearest is stated with magnitudes in units of the smallest subnormal, without the search for digits). No decimal number with fewer digits is rounded to the float, none with as many digits is closer (quantified over all decimals), the notation is decided by the value, and there are no superfluous zeros. Text determines the value; csv tables of loaded logs and the lines of ulog_params are read back; printed bytes are read back as the literal they are. The search for the shortest digits models CPython's repr and numpy's Dragon4. |
| C85 | What a failing csv conversion leaves | partial | C85_all and C85_files: exactly the complete files of the datasets before the failing one, plus at most the file of the failing dataset. C85_left (iff): not opened without a timestamp column; empty when the fields are unusual; the header when the window is not reached; otherwise header, whole rows and the begun row. False as stated for the begun row: C85_begun is a loaded log with a byte of 200 in a text, whose file ends after a separator. C85_whole_partial: with ASCII texts only whole lines are left, and rows only if there was no exception. |
| C86 | Coordinates and distances in KML files | proved | Rounding is specified as the nearest float with ties to even (Spec/Floats). The sum of an integer altitude and an integer offset is modelled without overflow; the text that simplekml writes is not modelled. |
| C87 | Attitude angles of float32 quaternions | partial | Arguments of arctan2 and arcsin proved within 2^-20 (C87_roll, C87_yaw, C87_pitch). That the pitch is a number is false (C87_no_pitch: a quaternion of length exactly 1, rounded to float32); it holds when the exact argument is at most 1 - 2^-22 (C87_domain_partial). arctan2 and arcsin are parameters. |
| C88 | The verbose listing of multi info messages can be read back | proved | C88_lists: any list of lists of values, any set of printable characters. C88_loaded: the lines that show_info prints for a loaded log. |
| C89 | The exception of a failing write names the obstacle | proved | The exception always belongs to an obstacle of the list (C89_exception), every obstacle makes the write fail (C89_obstacle), and for loaded files the list is shorter (C89_loaded); a column without a name always makes it fail (C89_unnamed). The timestamp columns are integers, as in every file whose timestamp fields are integers. |
| C90 | The exception of a failing save names the obstacle | proved | C90_exception: the exception has a reason of the list; C90_exact: save succeeds exactly without one; C90_file: the shorter list for logs of files; C90_unnamed: a column without a name. Not modelled (an error value of its own): columns whose values are not of the kind of the column type, float timestamps with JSON columns. |
| C91 | The exception of a failing load names the reason | proved | One message: an equivalence for definitions, both directions for data messages up to the choice between KeyError and RecursionError. Whole load: every exception has its reason, and a file with a reason is not loaded. |
| C92 | What a command line says | proved | For every parser whose option strings have the shape of C92_tools, in particular the eight tools: options, file names and options give the last values and the defaults, the file names go to the arguments in turn, and behind -- everything is a file name. |
| C93 | Which command lines are refused | proved | Exit codes for every command line; the refusals for every parser of the shape of C92_tools, an unknown option for every parser. Finding: ulog_params FILE -i OUT is refused although ulog_params FILE OUT -i is not, and ulog2csv -ts5 is refused. |
| C94 | The tools do what their command lines say | proved | All eight main functions, from the words of the command line to the files that are left. The command lines are those of C92. Files that cannot be opened for writing are not modelled. |
| C95 | What a program has done when it ends | partial | Proved: refused lines change nothing, the status and what it stands for (ulog2csv, ulog_extract_gps_dump), all or nothing for ulog_params, ulog2kml and ulog_messages, logs that cannot be read, and exactly what an exception leaves for ulog_info (C95_info_left, C95_message_left, C95_dump_left) and ulog2ros2bag (C95_bag_left). The code violates the rest: ulog2csv leaves the directory it has made (C95_directory_left), the gps dump leaves begun files (C95_gps_begun), ulog_info half a listing (C95_listing_begun), ulog2ros2bag a bag with some topics (C95_bag_begun). |
| C96 | When ulog2csv and extract_message raise | proved | Every reason is a constructor with its exception; both directions for files (C96_file), all files (C96_convert), topics (C96_extract). C96_huge: OverflowError for the bounds no double can hold. C96_loaded: the reasons that remain for loaded logs. Elements above 127 in columns that are not char (names that look like the characters of a text) have no modelled result. |
| C97 | When the listing tools raise | proved | Exact conditions and exceptions of showInfo, showMessage, paramsText, messageLines and gpsDump. gpsDump: len of type uint8_t (C97_gps) or a float (C97_gps_float), instance not a float; the elements of data have any type. Other types of len depend on the version of numpy and are not modelled. |
| C98 | When ulog2kml raises | proved | Assumes that all fields are named, timestamps are uint64_t, and nav_state and fix_type are no floats (KmlTypes); C98_track has no such assumption. |
| C99 | What the reader prints | proved | The list of lines is determined exactly (C99_lines for loads that succeed, C99_lines_any with lines before an exception, if the appended sections start at file positions); C99_silent is the witness that a corrupt log can be loaded without a line. Lines printed in debug mode (an attribute that is always false) are not modelled. |
| C100 | What the converters print | partial | C100_csv (announced files = files that exist, also after an exception), C100_csv_all (order of the lines), C100_gps, C100_events, C100_skip, C100_skip_reason, C100_bag, C100_migrate, C100_done are full. The announced number of data points is the number of rows only without a window (C100_points_partial, for cells without line breaks); C100_points_window is the counterexample. |
| C101 | The scripts come from the directory that is given | partial | The code violates the property for names with curly brackets: C101_path_partial shows that the path is right exactly for names without them, C101_never that otherwise no script of the directory is read, C101_other_directory gives the exceptions and the other directories. C101_migrate lifts the result to migrate_db, so that the properties about migrate_db apply. |
| C102 | What --verbose changes | partial | The code violates the property for a log whose version is no number: C102_version shows that every such log raises only with --verbose and leaves an empty bag, C102_violated is a file. For all other logs C102_bag_partial (same bag), C102_lines_partial (same lines), C102_run (the whole output, also after an exception), C102_topic, C102_missing. C102_unavailable and C102_available cover the import blocks. |
| C103 | When ulog2ros2bag raises | proved | for logs whose timestamps are uint64_t and whose field names are plain names or names with one index (Places); reading and loading errors are those of C94 |
| C104 | A rewritten log looks the same in the tools | partial | false as stated: C104_different has four rewritten logs for which a tool prints something else (lost warning about corruption, bool byte 2 shown as 1, messages of a log not from PX4 in another order, shorter duration after a second subscription). Proved for all logs that come back: ulog_info --message without condition; ulog_params if no parameter is a bool (with --timestamps: if changes carry the time of the latest sample); ulog_info but for the warning if the end of the log is its last sample; ulog_messages of PX4 logs, and of others in order; datasets and thus ulog2csv, ulog2ros2bag, gps dump, extract_message and ulog2kml if samples are in order and stored unchanged. |
| C105 | A written file that is cut is the log up to a time | proved | LogUpTo gives the shape of what is loaded, the count of complete messages that nothing complete is lost. Cuts within the definitions are the subject of C15. |
| C106 | The tools on a file that is cut | partial | Violated (C106_different): the ROS 2 topic of the only instance left loses its index; with colliding csv file names or two subscriptions of a topic another dataset is shown. Proved: csv files have the head and the first lines (distinct file names), extract_message returns the first rows or raises AttributeError exactly if none is left (distinct name and multi id), same parameters with the first changes (same text for initial values), same text of ulog_info --message, first lines of ulog_messages (messages in the order of time, no events). |
| C107 | A damaged sample stays in its sample | partial | Violated (C107_different): a damaged timestamp that is too large changes the duration of the log and the times of all later dropouts and parameter changes. Proved for any bytes of the sample (C107_file_partial): same exception or same contents but for one row of the topic and these times; with an intact timestamp the times are equal too. |
| C108 | A damaged message stays in its message | proved | C108_text, C108_tagged, C108_dropout and C108_parameter for every replacement of the payload bytes of the same length (tag, and type and key of the parameter, intact); C108_strict for strict decoding. The parameter theorem is for disable_str_exceptions=True (the default). |
| C109 | A lost message is missing, and nothing else | partial | Violated for the times (C109_different): a lost sample that was the newest dates later dropouts and parameter changes earlier and can shorten the log. Proved: the log without a logged message (C109_text), tagged message (C109_tagged), dropout (C109_dropout), parameter change (C109_parameter) or sample (C109_sample_partial; a topic without samples has no dataset; all times equal if the sample was not newer than those before). |
| C110 | A damaged or lost sample is one line of one csv file | partial | Violated (C110_raises): a damaged character above 127 makes ulog2csv raise ValueError. Proved: if ulog2csv works on the damaged log, one line of one file differs (C110_csv_partial); it works if the topic has no characters (C110_works_partial); extract_message returns the same rows but one (C110_extract); for a lost sample, ulog2csv works and one line or the file is missing (C110_lost_csv_partial), and extract_message lacks one row or raises AttributeError (C110_lost_extract_partial). The csv theorems and the last one need distinct names (C106_different shows what happens otherwise). |
| C111 | A damaged sample does not show in reports without samples | proved | For ulog_info: C111_info (damaged sample); for ulog_params C111_params, ulog_info --message C111_message and ulog_messages C111_messages (damaged or lost sample). The logs are those related by C107 and C109. |
| C112 | A lost info message or parameter changes its key only | proved | C112_definition: a file without one info, multi info, parameter or default parameter message of its definitions raises the same exception or differs only in entries with its key. C112_data: the same for such a message in the data section (parameter changes: C109). C112_value, C112_damaged: the value, or also the key, is damaged. |
| C113 | What the tools show of a lost info message or parameter | proved | For any two loaded logs related by OnlyKey (C112). C113_params: only the part of the key differs, and nothing if parameters of another kind are printed. C113_info, C113_info_multi, C113_multi_lines, C113_info_same: ulog_info. C113_message, C113_messages, C113_samples: the other tools. |
| C114 | A lost subscription loses its topic, and no other data | proved | C114_subscription: for any plain file and any readable, wanted subscription whose id no other subscription has; LostTopic lists what is the same, what is missing, and that lost samples are reported. C114_dataset: the datasets of other ids. C114_sample: the sample file without its second subscription. C114_times: why the times of dropouts and parameter changes are excluded from the property (as in C109). |
| C115 | What the tools show of a lost subscription | proved | For any two loaded logs related by LostTopic (C114). C115_csv, C115_extract (other messages and the lost one), C115_info, C115_params, C115_message, C115_messages; C115_sample: the sample log without its second subscription. |
| C116 | A definition that is written several times in a row counts once | proved | C116_definition and C116_data: for any plain file with a message written n + 1 times in a row, equality of the results of load. C116_entries: the excluded types do add entries. C116_later: a subscription that is repeated after samples drops these samples, so the repetition has to follow at once. |
| C117 | A lost format makes no difference, or raises | proved | C117_format: for any plain file of which the only definition of a format is missing. C117_unused: when no subscribed topic contains the format (Contains), no KeyError is added. C117_tools, C117_messages: the tools on the log without the format. C117_sample: the sample file without each of its formats. C117_twice: with two definitions of one name, the loss of the later one can change the values, so the definition has to be the only one. |

## Theorems and their axioms

Printed by `#print axioms`: p = `propext`, c = `Classical.choice`, q = `Quot.sound`, – = none. No other axiom occurs.

* C01: `C01_header_gate` (pcq)
* C02: `C02_data_section_terminates` (pcq), `C02_iteration_consumes` (pcq), `C02_load_ends` (pcq)
* C03: `C03_diverges_iff` (pcq), `C03_bounded` (pcq), `C03_next` (pcq), `C03_back_iff` (pcq), `C03_one_byte_short` (pcq), `C03_definitions_can_diverge` (pq), `C03_definitions_terminate_partial` (pcq)
* C04: `C04_last_timestamp` (pcq), `C04_monotone` (pcq)
* C05: `C05_malformed_data_adds_nothing` (pcq), `C05_corruption_sticky` (pcq)
* C06: `C06_datasets` (pcq), `C06_entry` (pcq)
* C07: `C07_data_list` (pcq), `C07_arrays_never_fail` (pcq), `C07_section_fails_only_in_loop` (pcq)
* C08: `C08_columns_sound` (pcq), `C08_columns_complete` (pcq), `C08_columns_unique` (p), `C08_cyclic_never_loads` (pcq), `C08_unknown_never_loads` (pcq), `C08_unknown_raises_keyError` (pcq), `C08_timestamp_index` (pcq)
* C09: `C09_changed_parameters` (pcq), `C09_initial_parameters` (pcq)
* C10: `C10_default_parameters_actual` (pcq), `C10_default_parameters_partial` (pcq), `C10_mask_bit_2_lost` (pq)
* C11: `C11_info_multiple` (pcq), `C11_groups_lossless` (p)
* C12: `C12_incompatible_flags` (pcq), `C12_load_refuses` (pcq)
* C13: `C13_resync` (pcq), `C13_resync_in_payload` (pcq), `C13_stays_off` (pcq), `C13_stays_off_section` (pcq)
* C14: `C14_unknown_skipped` (pcq), `C14_step` (pq)
* C15: `C15_first_cut` (pq), `C15_read_again` (pcq), `C15_no_data` (pcq), `C15_first_header` (pq), `C15_phantom_change` (pq), `C15_cut_partial` (pcq), `C15_cut_loads_partial` (pcq), `C15_cut_in_first_message_fails` (pq)
* C16: `C16_header_only` (pcq)
* C17: `C17_filter_partial` (pcq), `C17_listed_names` (p), `C17_param_time_depends_on_filter` (pq), `C17_reused_id_mixes_topics` (pq)
* C18: `C18_data_section` (pcq), `C18_file` (pcq)
* C19: `C19_ignore` (pcq), `C19_ignore_total` (–), `C19_strict` (pcq), `C19_strict_raises` (pcq), `C19_roundtrip` (pcq), `C19_encode` (pq)
* C20: `C20_round_trip` (pcq), `C20_exact` (pcq), `C20_char_not_writable` (pq), `C20_change_without_samples` (pq)
* C21: `C21_fixed_point` (pcq), `C21_same_bytes_partial` (pcq), `C21_tags_swap` (pq), `C21_dropout_moves` (pcq)
* C22: `C22_header_and_flags` (pcq)
* C23: `C23_data_section` (pcq)
* C24: `C24_appended_partial` (pcq), `C24_resync_reads_past_offset` (pq), `C24_resync_stops_early` (pq), `C24_section_partial` (pcq), `C24_pieces_partial` (pcq)
* C25: `C25_get_dataset` (pq), `C25_not_found` (pcq)
* C26: `C26_value_changes` (pcq), `C26_reconstruct` (pcq), `C26_missing` (p)
* C27: `C27_version_bytes` (pcq), `C27_missing` (p), `C27_no_integer` (p), `C27_version_text` (pcq)
* C28: `C28_refl` (pcq), `C28_symm` (pcq), `C28_iff_same` (pcq), `C28_loaded` (pcq), `C28_order_not_checked` (p)
* C29: `C29_window_partial` (pcq), `C29_bound_not_reached` (pcq), `C29_column` (pcq), `C29_rounded` (pcq), `C29_exact` (pcq), `C29_raises_iff` (pcq), `C29_unknown_message` (pcq), `C29_no_timestamp` (pq)
* C30: `C30_columns` (pcq), `C30_file_partial` (pcq), `C30_shape` (pq), `C30_cells` (p), `C30_non_ascii` (pcq), `C30_unescaped` (p)
* C31: `C31_elements` (pcq), `C31_streams` (pcq), `C31_no_output` (p)
* C32: `C32_csv` (pq), `C32_no_defaults` (p), `C32_csv_initial` (pq), `C32_csv_timestamps` (pq), `C32_qgc` (pq), `C32_octave` (pcq)
* C33: `C33_line_partial` (pcq), `C33_levels` (pcq), `C33_parts` (pcq), `C33_seconds_partial` (pcq), `C33_seconds_close` (pcq), `C33_seconds_away` (pcq), `C33_seconds_large` (–), `C33_seconds_small` (–), `C33_lines` (p), `C33_lines_px4` (pcq), `C33_empty_message` (pq)
* C34: `C34_events` (pcq), `C34_no_definitions` (pcq), `C34_stops` (pcq), `C34_float_level` (pcq), `C34_exception` (pq), `C34_float_id` (pq), `C34_none` (pcq)
* C35: `C35_rc_names` (pq)
* C36: `C36_track` (pcq), `C36_thinning` (pq), `C36_dropped` (p), `C36_complete` (pcq), `C36_positions` (pcq), `C36_modes` (pcq)
* C37: `C37_topics_partial` (pcq), `C37_collision` (p)
* C38: `C38_loads_stored` (pcq), `C38_equal_partial` (pcq), `C38_not_equal` (pq), `C38_corruption_lost` (pq), `C38_save_succeeds` (pcq), `C38_cannot_save` (pq)
* C39: `C39_distinct` (pcq), `C39_second_save` (pcq), `C39_lookup` (pcq)
* C40: `C40_content` (pcq), `C40_others` (pcq)
* C41: `C41_unchanged_partial` (p), `C41_first_partial` (pq), `C41_cannot_retry` (pq), `C41_wrong_delete` (pcq)
* C42: `C42_same` (pcq), `C42_cache_hit` (p), `C42_second_call` (pq)
* C43: `C43_in_order` (pcq), `C43_up_to_date` (pcq), `C43_second_run` (pcq), `C43_noop` (pq), `C43_noop_creates` (pq), `C43_refused` (pq), `C43_not_recorded` (pq), `C43_stray_commit` (pq), `C43_statements` (pcq)
* C44: `C44_crash_states` (pcq), `C44_resume_partial` (pcq), `C44_not_recorded` (pcq), `C44_first_refused` (pq), `C44_stuck` (pcq), `C44_rerun_partial` (pcq), `C44_rerun_second` (pcq)
* C45: `C45_whole_file` (pq), `C45_open_file` (pq)
* C46: `C46_short_message_loses_rest` (pq), `C46_struct_error_ends_section` (pq), `C46_too_short` (pq), `C46_bad_data_message_partial` (pcq)
* C47: `C47_padding_rejected` (pcq), `C47_padding_example` (pq)
* C48: `C48_truncated_format_accepted` (pq), `C48_cut_in_header_partial` (pq)
* C49: `C49_logged_messages` (pcq)
* C50: `C50_float_roundtrip` (pcq), `C50_signalling_nan` (pq), `C50_widen_exact` (pcq), `C50_rounding` (pcq), `C50_overflow` (pcq), `C50_int_rounding` (pcq), `C50_int_overflow` (pcq)
* C51: `C51_info` (pcq)
* C52: `C52_load_exceptions` (pq), `C52_no_unicode_error` (pq)
* C53: `C53_same_content` (pcq), `C53_two_reads` (pcq), `C53_symmetric` (pcq), `C53_transitive` (pcq)
* C54: `C54_one_file_each_partial` (pcq), `C54_shared_iff` (pcq), `C54_last_wins` (pq), `C54_slash` (p)
* C55: `C55_vehicle_type` (pq), `C55_estimator` (pq)
* C56: `C56_embedded` (pq), `C56_default` (p), `C56_bad_hash` (pq), `C56_wrong_kind` (pq), `C56_failed_load` (p)
* C57: `C57_colors_partial` (pq), `C57_table` (pcq), `C57_distinct` (pq), `C57_no_color` (pq)
* C58: `C58_times` (pcq), `C58_exact_partial` (pcq), `C58_wraps` (pcq)
* C59: `C59_versions_partial` (pcq), `C59_exact` (pcq), `C59_major` (pcq), `C59_wrong_iff` (pcq), `C59_string_order` (–)
* C60: `C60_values` (pcq), `C60_frame` (pcq), `C60_exported` (pcq), `C60_rows` (pq), `C60_exception` (pcq), `C60_exact` (pcq)
* C61: `C61_split` (pq), `C61_int` (pcq), `C61_format_text` (pcq), `C61_formats` (pcq)
* C62: `C62_file_name_partial` (pq), `C62_open_file_fails` (pq), `C62_closed_file_fails` (pq), `C62_arguments` (pq)
* C63: `C63_load_again_doubles` (pcq), `C63_datasets_partial` (pcq), `C63_not_stored` (pcq)
* C64: `C64_eager` (pcq), `C64_lazy_loses_data` (pcq), `C64_can_save` (pcq), `C64_deleted` (pcq), `C64_delete_unsaved` (p)
* C65: `C65_json_partial` (pcq), `C65_same_rows_partial` (pcq), `C65_json_fails` (pq), `C65_text` (pcq), `C65_valid` (pcq), `C65_refused` (pcq), `C65_column_partial` (pcq)
* C66: `C66_lazy_raises` (pq), `C66_write_same_partial` (pcq), `C66_writable_partial` (pcq), `C66_violated` (pq)
* C67: `C67_sync_count` (pcq)
* C68: `C68_version1_logs` (pcq), `C68_version1_iff` (pcq), `C68_text_reference` (p), `C68_kept` (pcq), `C68_version1_refused` (pcq)
* C69: `C69_new_database` (pcq), `C69_serves` (pcq), `C69_no_index` (pq), `C69_indexed` (pcq)
* C70: `C70_listing_partial` (pcq), `C70_untimed` (pq)
* C71: `C71_row` (pcq), `C71_order` (pcq), `C71_instances_partial` (pcq), `C71_ten_before_two` (–)
* C72: `C72_bytes` (pcq), `C72_text` (pcq), `C72_message` (pq), `C72_numbers` (pq), `C72_mixed` (pq)
* C73: `C73_camel` (pcq), `C73_direct` (pcq), `C73_exceptions` (pcq), `C73_export` (pcq), `C73_words_partial` (pcq), `C73_digit_letter` (p)
* C74: `C74_columns` (pcq), `C74_default` (pcq), `C74_missing` (pcq), `C74_write_partial` (pcq), `C74_overwrites` (p)
* C75: `C75_angles` (pcq), `C75_rotation` (pcq), `C75_gimbal_lock` (pcq), `C75_gimbal_zero` (pcq), `C75_negated` (pcq)
* C76: `C76_triggers` (pcq), `C76_missing` (pq), `C76_not_scaled` (p)
* C77: `C77_document_partial` (pcq), `C77_one` (p), `C77_no_topic` (pcq), `C77_missing_colors` (p), `C77_single_color` (pcq), `C77_color_list` (pcq), `C77_filter` (pcq), `C77_topic_lost` (p)
* C78: `C78_csv` (pcq), `C78_gps` (pq), `C78_gps_distinct` (pcq), `C78_bag` (pq)
* C79: `C79_all` (–), `C79_names` (p), `C79_csv` (pcq), `C79_bag` (pcq), `C79_raises` (pq)
* C80: `C80_gps` (pcq), `C80_messages` (pcq), `C80_params_partial` (pcq), `C80_initial_times` (pq)
* C81: `C81_run` (pcq), `C81_file` (pcq), `C81_barriers` (pq)
* C82: `C82_success` (pq), `C82_error` (pq), `C82_cut` (pcq), `C82_whole_messages` (pcq), `C82_loads` (pcq), `C82_data_section` (pq), `C82_data_section_loads` (pcq)
* C83: `C83_exact` (pcq), `C83_loaded` (pcq), `C83_comes_back` (pcq), `C83_same_object` (pcq), `C83_not_writable` (pq), `C83_conditions` (pcq), `C83_changed` (pq), `C83_truth` (pcq), `C83_truth_element` (pq)
* C84: `C84_bytes` (p), `C84_bytes_quotes` (pq), `C84_bytes_printable` (pq), `C84_float64` (pcq), `C84_float32` (pcq), `C84_int` (pcq), `C84_element` (pcq), `C84_unique64` (pcq), `C84_unique32` (pcq), `C84_csv` (pcq), `C84_params` (pcq), `C84_nan` (pcq), `C84_shortest64` (pcq), `C84_shortest32` (pcq)
* C85: `C85_complete` (pcq), `C85_left` (pcq), `C85_all` (pcq), `C85_files` (pcq), `C85_whole_partial` (pcq), `C85_begun` (pq)
* C86: `C86_special64` (pcq), `C86_special32` (pcq), `C86_quotient_special` (pcq), `C86_narrow_special` (pcq), `C86_float_columns` (pcq), `C86_round64` (pcq), `C86_round32` (pcq), `C86_scaled` (pcq), `C86_recover` (pcq), `C86_injective` (pcq), `C86_sum64` (pcq), `C86_sum32` (pcq), `C86_altitude` (pcq), `C86_quotient64` (pcq), `C86_quotient32` (pcq), `C86_narrow` (pcq), `C86_far` (pcq), `C86_interval` (pcq), `C86_apart` (pcq), `C86_point` (pcq), `C86_unscaled` (pcq)
* C87: `C87_roll` (pcq), `C87_yaw` (pcq), `C87_pitch` (pcq), `C87_domain_partial` (pcq), `C87_elements` (–), `C87_no_pitch` (pcq), `C87_product_special` (pcq), `C87_difference_special` (pcq)
* C88: `C88_lists` (pcq), `C88_loaded` (pcq)
* C89: `C89_exception` (pcq), `C89_obstacle` (pcq), `C89_loaded` (pcq), `C89_examples` (pq), `C89_unnamed` (pcq)
* C90: `C90_exception` (pcq), `C90_exact` (pcq), `C90_file` (pcq), `C90_unnamed` (pcq)
* C91: `C91_definition` (pcq), `C91_message` (pcq), `C91_message_exact` (pcq), `C91_load` (pcq), `C91_load_exact` (pcq), `C91_default` (pcq)
* C92: `C92_tools` (pq), `C92_names` (–), `C92_kinds` (–), `C92_line` (pcq), `C92_dashes` (pcq)
* C93: `C93_code` (pq), `C93_help_option` (–), `C93_help` (pcq), `C93_missing` (pcq), `C93_files` (pcq), `C93_no_value` (pcq), `C93_bad_value` (pcq), `C93_unknown` (pcq), `C93_letters` (pcq), `C93_flag_value` (pcq)
* C94: `C94_csv` (pcq), `C94_csv_mkdir` (pcq), `C94_gps` (pcq), `C94_gps_instance` (pcq), `C94_params` (pcq), `C94_messages` (pcq), `C94_info` (pcq), `C94_kml` (pcq), `C94_bag` (pcq), `C94_bag_unavailable` (pcq), `C94_migrate` (pcq)
* C95: `C95_refused` (pq), `C95_csv_status` (pcq), `C95_gps_status` (pq), `C95_whole_partial` (pq), `C95_unreadable` (pcq), `C95_directory_left` (pq), `C95_gps_begun` (pq), `C95_info_left` (pq), `C95_message_left` (pq), `C95_dump_left` (p), `C95_bag_left` (pq), `C95_begun` (pq), `C95_listing_begun` (pq), `C95_bag_begun` (pq)
* C96: `C96_file` (pcq), `C96_convert` (pcq), `C96_extract` (pcq), `C96_loaded` (pcq), `C96_huge` (pcq)
* C97: `C97_params` (pq), `C97_messages` (pq), `C97_info` (pcq), `C97_message` (pcq), `C97_gps` (pcq), `C97_gps_float` (pcq)
* C98: `C98_track` (pcq), `C98_triggers` (pcq), `C98_document` (pcq)
* C99: `C99_lines_any` (pcq), `C99_lines` (pcq), `C99_version` (pcq), `C99_flags` (pcq), `C99_corruption` (pcq), `C99_missing` (pcq), `C99_quiet` (pcq), `C99_text` (pcq), `C99_silent` (pq)
* C100: `C100_csv` (pq), `C100_points_partial` (pcq), `C100_points_exact` (pcq), `C100_points_window` (pq), `C100_csv_all` (pq), `C100_gps` (p), `C100_events` (p), `C100_skip` (p), `C100_skip_reason` (pq), `C100_bag` (pq), `C100_migrate` (pq), `C100_migrate_refused` (p), `C100_done` (pq)
* C101: `C101_path_partial` (pq), `C101_migrate` (pq), `C101_other_directory` (p), `C101_never` (pq)
* C102: `C102_lines_partial` (pcq), `C102_bag_partial` (pq), `C102_version` (pq), `C102_violated` (pq), `C102_topic` (pq), `C102_missing` (pcq), `C102_run` (pq), `C102_unavailable` (pq), `C102_available` (pq)
* C103: `C103_bag` (pcq), `C103_program` (pcq), `C103_fits` (pcq), `C103_skipped` (pq)
* C104: `C104_params_partial` (pcq), `C104_info_partial` (pcq), `C104_message` (pcq), `C104_datasets_partial` (pcq), `C104_files_partial` (pcq), `C104_messages_partial` (pcq), `C104_different` (pq)
* C105: `C105_cut` (pcq), `C105_not_marked` (pcq), `C105_more` (pcq)
* C106: `C106_csv_partial` (pq), `C106_extract_partial` (pcq), `C106_params` (pq), `C106_message` (p), `C106_messages_partial` (pcq), `C106_different` (pq)
* C107: `C107_messages` (pcq), `C107_file_partial` (pcq), `C107_not_noticed` (pq), `C107_different` (pq)
* C108: `C108_text` (pcq), `C108_tagged` (pcq), `C108_dropout` (pcq), `C108_parameter` (pcq), `C108_strict` (pcq)
* C109: `C109_text` (pcq), `C109_dropout` (pcq), `C109_parameter` (pcq), `C109_tagged` (pcq), `C109_sample_partial` (pcq), `C109_different` (pq)
* C110: `C110_csv_partial` (pq), `C110_works_partial` (pq), `C110_extract` (pq), `C110_lost_csv_partial` (pcq), `C110_lost_extract_partial` (pcq), `C110_raises` (pq)
* C111: `C111_info` (pq), `C111_params` (pq), `C111_message` (p), `C111_messages` (pcq)
* C112: `C112_definition` (pcq), `C112_data` (pcq), `C112_damaged` (pcq), `C112_value` (pcq)
* C113: `C113_params` (pcq), `C113_info` (pcq), `C113_info_multi` (pcq), `C113_multi_lines` (pcq), `C113_info_same` (p), `C113_message` (p), `C113_messages` (p), `C113_samples` (p)
* C114: `C114_subscription` (pcq), `C114_dataset` (p), `C114_sample` (pq), `C114_times` (pq)
* C115: `C115_csv` (pq), `C115_extract` (pcq), `C115_info` (pq), `C115_params` (pq), `C115_message` (p), `C115_messages` (p), `C115_sample` (pq)
* C116: `C116_definition` (pcq), `C116_data` (pcq), `C116_entries` (pq), `C116_later` (pq)
* C117: `C117_format` (pcq), `C117_unused` (pcq), `C117_sample` (pq), `C117_twice` (pq), `C117_tools` (p), `C117_messages` (p)
