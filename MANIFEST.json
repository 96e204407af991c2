{
 "claims": [
  {
   "property": "C01",
   "status": "proved",
   "theorems": [
    "PyULog.C01_header_gate"
   ],
   "note": "header gate for every byte string; version and start time of the loaded object"
  },
  {
   "property": "C02",
   "status": "proved",
   "theorems": [
    "PyULog.C02_data_section_terminates",
    "PyULog.C02_iteration_consumes",
    "PyULog.C02_load_ends"
   ],
   "note": "per-iteration progress, bound on the number of iterations, and consequence for the whole load"
  },
  {
   "property": "C03",
   "status": "partial",
   "theorems": [
    "PyULog.C03_diverges_iff",
    "PyULog.C03_bounded",
    "PyULog.C03_next",
    "PyULog.C03_back_iff",
    "PyULog.C03_one_byte_short",
    "PyULog.C03_definitions_can_diverge",
    "PyULog.C03_definitions_terminate_partial"
   ],
   "note": "false as stated: C03_definitions_can_diverge proves that the 19-byte hangFile loops forever. Exact: C03_diverges_iff (the reader runs for ever iff it comes to a position where it has been before), C03_bounded (a load that ends does so within length+1 iterations), C03_next (where the reader goes from each header) and C03_back_iff (it goes back only at an invalid unknown message that runs past the end of the file); the partial theorem proves termination when no reached header is of that kind"
  },
  {
   "property": "C04",
   "status": "proved",
   "theorems": [
    "PyULog.C04_last_timestamp",
    "PyULog.C04_monotone"
   ],
   "note": "For every file that loads: last_timestamp is the maximum of start_timestamp and the timestamps of the accepted data messages, at the end and before each message."
  },
  {
   "property": "C05",
   "status": "proved",
   "theorems": [
    "PyULog.C05_malformed_data_adds_nothing",
    "PyULog.C05_corruption_sticky"
   ],
   "note": "For every file that loads: a malformed data message (unknown id or wrong size) only marks the file corrupt and the mark is never cleared."
  },
  {
   "property": "C06",
   "status": "proved",
   "theorems": [
    "PyULog.C06_datasets",
    "PyULog.C06_entry"
   ],
   "note": "For every loaded file: datasets = those described by Spec.DatasetOfSection on the processed messages; entries are typed little-endian values at the offsets of the columns; a column without a name is called by its position, as numpy does."
  },
  {
   "property": "C07",
   "status": "proved",
   "theorems": [
    "PyULog.C07_data_list",
    "PyULog.C07_arrays_never_fail",
    "PyULog.C07_section_fails_only_in_loop"
   ],
   "note": "Order by code points of the name then instance; one dataset per subscription with samples per section; finalize never fails from a state reached by the loop."
  },
  {
   "property": "C08",
   "status": "proved",
   "theorems": [
    "PyULog.C08_columns_sound",
    "PyULog.C08_columns_complete",
    "PyULog.C08_columns_unique",
    "PyULog.C08_cyclic_never_loads",
    "PyULog.C08_unknown_never_loads",
    "PyULog.C08_unknown_raises_keyError",
    "PyULog.C08_timestamp_index"
   ],
   "note": "Columns characterised by an inductive relation independent of the reader (sound, complete, unique); cyclic and unknown types never load. Format text parsing itself is separate."
  },
  {
   "property": "C09",
   "status": "proved",
   "theorems": [
    "PyULog.C09_changed_parameters",
    "PyULog.C09_initial_parameters"
   ],
   "note": "For every file that loads: initial_parameters from the last parameter message of the definition section; changed_parameters and dropouts in file order, stamped with the latest accepted data timestamp."
  },
  {
   "property": "C10",
   "status": "partial",
   "theorems": [
    "PyULog.C10_default_parameters_actual",
    "PyULog.C10_default_parameters_partial",
    "PyULog.C10_mask_bit_2_lost"
   ],
   "note": "False as stated for bits >= 2 (C10_mask_bit_2_lost: mask 5 stores bit 2 under key 3). C10_default_parameters_actual gives the exact behaviour for every mask; the _partial theorem is the stated claim for default types 0 and 1, the only ones the format defines."
  },
  {
   "property": "C11",
   "status": "proved",
   "theorems": [
    "PyULog.C11_info_multiple",
    "PyULog.C11_groups_lossless"
   ],
   "note": "For every file that loads, over both sections."
  },
  {
   "property": "C12",
   "status": "proved",
   "theorems": [
    "PyULog.C12_incompatible_flags",
    "PyULog.C12_load_refuses"
   ],
   "note": "all flag payloads in any state, and at file level for a leading flag message"
  },
  {
   "property": "C13",
   "status": "proved",
   "theorems": [
    "PyULog.C13_resync",
    "PyULog.C13_resync_in_payload",
    "PyULog.C13_stays_off",
    "PyULog.C13_stays_off_section"
   ],
   "note": "all files and positions, both for the search over the rest of the file and for the search inside a payload; after a failed search the reader never searches again"
  },
  {
   "property": "C14",
   "status": "proved",
   "theorems": [
    "PyULog.C14_unknown_skipped",
    "PyULog.C14_step"
   ],
   "note": "Whole files made of complete messages (other messages arbitrary); C14_step covers one unknown message in arbitrary surroundings."
  },
  {
   "property": "C15",
   "status": "partial",
   "theorems": [
    "PyULog.C15_first_cut",
    "PyULog.C15_read_again",
    "PyULog.C15_no_data",
    "PyULog.C15_first_header",
    "PyULog.C15_phantom_change",
    "PyULog.C15_cut_partial",
    "PyULog.C15_cut_loads_partial",
    "PyULog.C15_cut_in_first_message_fails"
   ],
   "note": "Proved for every cut after the first message of the data section (C15_cut_partial) and at its beginning (C15_no_data). False for a cut inside that message, for every log: one or two bytes raise struct.error (C15_first_header); otherwise reading continues before the data section, as many bytes back as are missing from the message, or raises OSError (C15_first_cut). When the last definitions have this size they are read again as data (C15_read_again), so that a parameter change is reported that was never logged, without corruption mark (C15_phantom_change)."
  },
  {
   "property": "C16",
   "status": "proved",
   "theorems": [
    "PyULog.C16_header_only"
   ],
   "note": "Full statement; the info dictionary of the full load is the header's one updated by data section info messages."
  },
  {
   "property": "C17",
   "status": "partial",
   "theorems": [
    "PyULog.C17_filter_partial",
    "PyULog.C17_listed_names",
    "PyULog.C17_param_time_depends_on_filter",
    "PyULog.C17_reused_id_mixes_topics"
   ],
   "note": "Full load equivalence for files that do not reuse a subscription id across accepted and rejected topics; the timestamps of changed parameters and dropouts depend on the filter (C17_param_time_depends_on_filter), and reused ids mix topics (C17_reused_id_mixes_topics): both are behaviours of the code."
  },
  {
   "property": "C18",
   "status": "proved",
   "theorems": [
    "PyULog.C18_data_section",
    "PyULog.C18_file"
   ],
   "note": "Section and whole file. Files up to 2^50 bytes (read_until), first data message of type A, L or C."
  },
  {
   "property": "C19",
   "status": "proved",
   "theorems": [
    "PyULog.C19_ignore",
    "PyULog.C19_ignore_total",
    "PyULog.C19_strict",
    "PyULog.C19_strict_raises",
    "PyULog.C19_roundtrip",
    "PyULog.C19_encode"
   ],
   "note": "Against Lean's own UTF-8 encoder; ignore mode characterised by an independent relation (Drops)."
  },
  {
   "property": "C20",
   "status": "proved",
   "theorems": [
    "PyULog.C20_round_trip",
    "PyULog.C20_exact",
    "PyULog.C20_char_not_writable",
    "PyULog.C20_change_without_samples"
   ],
   "note": "C20_round_trip: for every log meeting Writable and Encodable, writing succeeds and the file reads back as ReadBack u; C20_exact: a settled log is read back exactly. Files up to 2^50 bytes (the seek bound of the model). Dropout and parameter-change times are recomputed on reading. Negative results: C20_char_not_writable (readable log, write raises ValueError), C20_change_without_samples."
  },
  {
   "property": "C21",
   "status": "partial",
   "theorems": [
    "PyULog.C21_fixed_point",
    "PyULog.C21_same_bytes_partial",
    "PyULog.C21_tags_swap",
    "PyULog.C21_dropout_moves"
   ],
   "note": "C21_fixed_point: after one write and read the log is a fixed point (read back equal, so later writes are identical). C21_same_bytes_partial: the first rewrite is identical when messages of different tags never share a timestamp and dropouts/changes carry the time of the latest sample. The unrestricted statement is false: C21_tags_swap, C21_dropout_moves."
  },
  {
   "property": "C22",
   "status": "proved",
   "theorems": [
    "PyULog.C22_header_and_flags"
   ],
   "note": "Header bytes, and the flags message with the appended-data bit cleared and zero offsets; all other flag bytes kept."
  },
  {
   "property": "C23",
   "status": "proved",
   "theorems": [
    "PyULog.C23_data_section"
   ],
   "note": "Whole file layout; data section is the time-sorted stable permutation of rows, logged, tagged, dropout and parameter-change messages, and each message decodes to what the log holds. Columns must hold values of their declared type and parameter keys have no space."
  },
  {
   "property": "C24",
   "status": "partial",
   "theorems": [
    "PyULog.C24_appended_partial",
    "PyULog.C24_resync_reads_past_offset",
    "PyULog.C24_resync_stops_early",
    "PyULog.C24_section_partial",
    "PyULog.C24_pieces_partial"
   ],
   "note": "False as stated: after a search for a sync sequence the position compared with the offset is wrong: C24_resync_reads_past_offset (messages of the appended section are read as part of the first), C24_resync_stops_early (complete messages before the offset are lost). Proved: sections of complete messages, each followed by the beginning of a message that the offset cuts (C24_appended_partial); sections of any bytes, also corrupt ones, if no sync sequence follows or the search was given up: the file is read as if it ended at each offset (C24_section_partial, C24_pieces_partial)."
  },
  {
   "property": "C25",
   "status": "proved",
   "theorems": [
    "PyULog.C25_get_dataset",
    "PyULog.C25_not_found"
   ],
   "note": "get_dataset returns the unique first dataset with the given name and multi id, IndexError exactly when there is none."
  },
  {
   "property": "C26",
   "status": "proved",
   "theorems": [
    "PyULog.C26_value_changes",
    "PyULog.C26_reconstruct",
    "PyULog.C26_missing"
   ],
   "note": "list_value_changes lists the first sample and exactly the samples that differ from their predecessor (with the code's NaN handling), and the column can be rebuilt from them."
  },
  {
   "property": "C27",
   "status": "proved",
   "theorems": [
    "PyULog.C27_version_bytes",
    "PyULog.C27_missing",
    "PyULog.C27_no_integer",
    "PyULog.C27_version_text"
   ],
   "note": "version tuple and release suffix text for every 32-bit version; absent info gives None."
  },
  {
   "property": "C28",
   "status": "proved",
   "theorems": [
    "PyULog.C28_refl",
    "PyULog.C28_symm",
    "PyULog.C28_iff_same",
    "PyULog.C28_loaded",
    "PyULog.C28_order_not_checked"
   ],
   "note": "Data.__eq__ is reflexive on loaded data, symmetric, and holds iff names, fields and numbers agree (NaN equal to NaN). The order of dict keys is not compared: C28_order_not_checked."
  },
  {
   "property": "C29",
   "status": "partial",
   "theorems": [
    "PyULog.C29_window_partial",
    "PyULog.C29_bound_not_reached",
    "PyULog.C29_column",
    "PyULog.C29_rounded",
    "PyULog.C29_exact",
    "PyULog.C29_raises_iff",
    "PyULog.C29_unknown_message",
    "PyULog.C29_no_timestamp"
   ],
   "note": "C29_exact: rows for timestamps in any order below 2^53 us; C29_column: the same for timestamp columns of any type, also floats with NaN and infinities; C29_rounded: integers of 2^53 us and more, found within 8.2 ms; C29_raises_iff: IndexError exactly when a bound is not reached by any timestamp, so the full statement is false (C29_bound_not_reached); C29_window_partial: for ascending timestamps and bounds that are reached the rows are those of the window."
  },
  {
   "property": "C30",
   "status": "partial",
   "theorems": [
    "PyULog.C30_columns",
    "PyULog.C30_file_partial",
    "PyULog.C30_shape",
    "PyULog.C30_cells",
    "PyULog.C30_non_ascii",
    "PyULog.C30_unescaped"
   ],
   "note": "file contents proved for every dataset with ASCII texts; shape proved for every dataset. Finding: a char value of 128 or more raises ValueError (C30_non_ascii); texts are not quoted, so a delimiter in a text adds a cell (C30_unescaped)."
  },
  {
   "property": "C31",
   "status": "proved",
   "theorems": [
    "PyULog.C31_elements",
    "PyULog.C31_streams",
    "PyULog.C31_no_output"
   ],
   "note": "C31_elements: for elements of every type the streams are the bytes of the elements as they are in the log file, for a len of type uint8_t; C31_streams: the same for bytes; C31_no_output: logs without gps_dump, or with another format, end with an exit code and no file."
  },
  {
   "property": "C32",
   "status": "proved",
   "theorems": [
    "PyULog.C32_csv",
    "PyULog.C32_no_defaults",
    "PyULog.C32_csv_initial",
    "PyULog.C32_csv_timestamps",
    "PyULog.C32_qgc",
    "PyULog.C32_octave"
   ],
   "note": "for every log; distinct keys are the invariant of Python dictionaries. Also octave, qgc, --timestamps and --initial/--default output. Order is that of the log, which is time order when timestamps do not decrease."
  },
  {
   "property": "C33",
   "status": "partial",
   "theorems": [
    "PyULog.C33_line_partial",
    "PyULog.C33_levels",
    "PyULog.C33_parts",
    "PyULog.C33_seconds_partial",
    "PyULog.C33_seconds_close",
    "PyULog.C33_seconds_away",
    "PyULog.C33_seconds_large",
    "PyULog.C33_seconds_small",
    "PyULog.C33_lines",
    "PyULog.C33_lines_px4",
    "PyULog.C33_empty_message"
   ],
   "note": "levels, parts of the time and the order of lines are proved; the whole seconds are exact below 2^53 us; for all 64 bit timestamps they can differ only within 3 ms of a full second (C33_seconds_close, C33_seconds_away), where they can be one too large or one too small (C33_seconds_large, C33_seconds_small). Finding: an empty message in a PX4 log raises IndexError (C33_empty_message)."
  },
  {
   "property": "C34",
   "status": "proved",
   "theorems": [
    "PyULog.C34_events",
    "PyULog.C34_no_definitions",
    "PyULog.C34_stops",
    "PyULog.C34_float_level",
    "PyULog.C34_exception",
    "PyULog.C34_float_id",
    "PyULog.C34_none"
   ],
   "note": "getLoggedEvents is the list of the event rows in order with external level below 8 whose group is default, with the time, level name and decoded text (or the unknown event text); with no definitions every row gives the unknown text; a missing dataset or id column gives []. libevents_parse (a git submodule absent from /repo) is an abstract parser. Exceptions are TypeErrors of float levels or arguments or come from the definitions (C34_exception); float ids are shown as Python floats (C34_float_id)."
  },
  {
   "property": "C35",
   "status": "proved",
   "theorems": [
    "PyULog.C35_rc_names"
   ],
   "note": "values are compared as numbers: 4.0 and True match too."
  },
  {
   "property": "C36",
   "status": "proved",
   "theorems": [
    "PyULog.C36_track",
    "PyULog.C36_thinning",
    "PyULog.C36_dropped",
    "PyULog.C36_complete",
    "PyULog.C36_positions",
    "PyULog.C36_modes"
   ],
   "note": "the KML lines of a topic are exactly the segments given by the thinned samples with a fix and the flight mode changes; samples nearer than the interval to the previously kept one are exactly those dropped; positions are those of the rows. float comparison (cur_t-last_t)/1e6 > s is an abstract predicate of the time difference."
  },
  {
   "property": "C37",
   "status": "partial",
   "theorems": [
    "PyULog.C37_topics_partial",
    "PyULog.C37_collision"
   ],
   "note": "false as stated: C37_collision shows data sets a/1 and a_1 share /px4/a_1. C37_topics_partial gives the exact condition under which two data sets share a topic, for every data_list."
  },
  {
   "property": "C38",
   "status": "partial",
   "theorems": [
    "PyULog.C38_loads_stored",
    "PyULog.C38_equal_partial",
    "PyULog.C38_not_equal",
    "PyULog.C38_corruption_lost",
    "PyULog.C38_save_succeeds",
    "PyULog.C38_cannot_save"
   ],
   "note": "Proved: every saved regular log (all logs read from files are, when their columns have names; C90_unnamed: others cannot be saved) loads from every later database as fromDb of it; equality with the file is characterised exactly (iff); saving succeeds for every log whose numbers fit and whose columns have names. Violated in general: corruption mark, filtered/missing ids, formats without fields, info-multiple numbers and NaN do not come back; start time >= 2^63 or duplicate (name, multi_id) cannot be saved (witnesses)."
  },
  {
   "property": "C39",
   "status": "proved",
   "theorems": [
    "PyULog.C39_distinct",
    "PyULog.C39_second_save",
    "PyULog.C39_lookup"
   ],
   "note": "For all databases reachable by saves (with any fault) and deletes."
  },
  {
   "property": "C40",
   "status": "proved",
   "theorems": [
    "PyULog.C40_content",
    "PyULog.C40_others"
   ],
   "note": "Rows, orphans, existence and loading of all other logs."
  },
  {
   "property": "C41",
   "status": "partial",
   "theorems": [
    "PyULog.C41_unchanged_partial",
    "PyULog.C41_first_partial",
    "PyULog.C41_cannot_retry",
    "PyULog.C41_wrong_delete"
   ],
   "note": "Database unchanged for every fault: proved. The second half is violated: after a fault behind the first statement _pk stays set, save raises KeyError for ever, and delete() of that object removes the next log that is saved (proved in general and by example)."
  },
  {
   "property": "C42",
   "status": "proved",
   "theorems": [
    "PyULog.C42_same",
    "PyULog.C42_cache_hit",
    "PyULog.C42_second_call"
   ],
   "note": "For any sequence of get_dataset calls and any change of the database that keeps the log."
  },
  {
   "property": "C43",
   "status": "partial",
   "theorems": [
    "PyULog.C43_in_order",
    "PyULog.C43_up_to_date",
    "PyULog.C43_second_run",
    "PyULog.C43_noop",
    "PyULog.C43_noop_creates",
    "PyULog.C43_refused",
    "PyULog.C43_not_recorded",
    "PyULog.C43_stray_commit",
    "PyULog.C43_statements"
   ],
   "note": "Proved for every SQL engine and every directory whose scripts are each missing, unframed or one transaction: order, completeness, recording, second run, noop and refusals. C43_not_recorded: the check for COMMIT; looks at the text only, a script that ends in an open comment is committed but never recorded."
  },
  {
   "property": "C44",
   "status": "partial",
   "theorems": [
    "PyULog.C44_crash_states",
    "PyULog.C44_resume_partial",
    "PyULog.C44_not_recorded",
    "PyULog.C44_first_refused",
    "PyULog.C44_stuck",
    "PyULog.C44_rerun_partial",
    "PyULog.C44_rerun_second"
   ],
   "note": "C44_crash_states gives every state a crash can leave; C44_resume_partial: a recorded state continues to the result of the uninterrupted run. Not true in general: the version is set after COMMIT, so a crash in between runs the script again (C44_not_recorded), and a crash in the first migration leaves a version 0 file that is refused (C44_first_refused). For the shipped scripts: 1 and 5 can be repeated (C44_rerun_partial), 2 can on a new database (C44_rerun_second), 3 and 4 never (C44_stuck)."
  },
  {
   "property": "C45",
   "status": "proved",
   "theorems": [
    "PyULog.C45_whole_file",
    "PyULog.C45_open_file"
   ],
   "note": "The hash function is a parameter; an open file object is hashed from its position."
  },
  {
   "property": "C46",
   "status": "partial",
   "theorems": [
    "PyULog.C46_short_message_loses_rest",
    "PyULog.C46_struct_error_ends_section",
    "PyULog.C46_too_short",
    "PyULog.C46_bad_data_message_partial"
   ],
   "note": "The property is false: witness and general theorem (struct.error ends the section). Proved part: wrong-size and unknown-id data messages lose only themselves."
  },
  {
   "property": "C47",
   "status": "partial",
   "theorems": [
    "PyULog.C47_padding_rejected",
    "PyULog.C47_padding_example"
   ],
   "note": "The property is false for every format: C47_padding_rejected; witness on the sample file."
  },
  {
   "property": "C48",
   "status": "partial",
   "theorems": [
    "PyULog.C48_truncated_format_accepted",
    "PyULog.C48_cut_in_header_partial"
   ],
   "note": "The property is false: witness. Proved part: a cut inside a message header raises."
  },
  {
   "property": "C49",
   "status": "proved",
   "theorems": [
    "PyULog.C49_logged_messages"
   ],
   "note": "For every file that loads."
  },
  {
   "property": "C50",
   "status": "proved",
   "theorems": [
    "PyULog.C50_float_roundtrip",
    "PyULog.C50_signalling_nan",
    "PyULog.C50_widen_exact",
    "PyULog.C50_rounding",
    "PyULog.C50_overflow",
    "PyULog.C50_int_rounding",
    "PyULog.C50_int_overflow"
   ],
   "note": "Every 32-bit pattern; signalling NaNs are shown to come back quiet; the widening is shown exact in value; writing a double as a float is shown to round to the nearest 32-bit value with ties to even (C50_rounding) and to raise OverflowError exactly from the half way point to 2^128 on (C50_overflow)."
  },
  {
   "property": "C51",
   "status": "proved",
   "theorems": [
    "PyULog.C51_info"
   ],
   "note": "For every file that loads, over both sections."
  },
  {
   "property": "C52",
   "status": "proved",
   "theorems": [
    "PyULog.C52_load_exceptions",
    "PyULog.C52_no_unicode_error"
   ],
   "note": "All byte strings and configurations; the model of the constructor has no unmodelled outcome."
  },
  {
   "property": "C53",
   "status": "proved",
   "theorems": [
    "PyULog.C53_same_content",
    "PyULog.C53_two_reads",
    "PyULog.C53_symmetric",
    "PyULog.C53_transitive"
   ],
   "note": "C53_same_content characterises ULog.__eq__ of two loaded logs attribute by attribute; C53_two_reads gives reflexivity up to NaN; symmetric and transitive. _debug (always False) is not compared; _subscriptions of a loaded log is empty (load_subs)."
  },
  {
   "property": "C54",
   "status": "partial",
   "theorems": [
    "PyULog.C54_one_file_each_partial",
    "PyULog.C54_shared_iff",
    "PyULog.C54_last_wins",
    "PyULog.C54_slash"
   ],
   "note": "Exact for every log: two datasets share a file if and only if they have the same instance and names that differ in / against _ only (C54_shared_iff), and then the last one is what is left (C54_last_wins); so the property holds for names without / (C54_one_file_each_partial) and is false in general (C54_slash)."
  },
  {
   "property": "C55",
   "status": "proved",
   "theorems": [
    "PyULog.C55_vehicle_type",
    "PyULog.C55_estimator"
   ],
   "note": "every parameter dictionary; float values that are equal to a listed number are found too."
  },
  {
   "property": "C56",
   "status": "partial",
   "theorems": [
    "PyULog.C56_embedded",
    "PyULog.C56_default",
    "PyULog.C56_bad_hash",
    "PyULog.C56_wrong_kind",
    "PyULog.C56_failed_load"
   ],
   "note": "embedded, default, bad-hash and wrong-kind cases are proved, for hashes logged as text or as bytes; the clause about failures is false: C56_failed_load shows that the parser is stored before load_definitions succeeded, so a failed load is kept and used for the next log."
  },
  {
   "property": "C57",
   "status": "partial",
   "theorems": [
    "PyULog.C57_colors_partial",
    "PyULog.C57_table",
    "PyULog.C57_distinct",
    "PyULog.C57_no_color"
   ],
   "note": "false for modes >= 18: C57_no_color (IndexError). Every mode below 18 has a colour, and different modes below 18 different ones."
  },
  {
   "property": "C58",
   "status": "partial",
   "theorems": [
    "PyULog.C58_times",
    "PyULog.C58_exact_partial",
    "PyULog.C58_wraps"
   ],
   "note": "times are the row times in nanoseconds modulo 2^64 (C58_times); exact for t*1000 < 2^64 (C58_exact_partial), wraps beyond (C58_wraps). numpy 2 integer arithmetic is assumed."
  },
  {
   "property": "C59",
   "status": "partial",
   "theorems": [
    "PyULog.C59_versions_partial",
    "PyULog.C59_exact",
    "PyULog.C59_major",
    "PyULog.C59_wrong_iff",
    "PyULog.C59_string_order"
   ],
   "note": "strings are compared. C59_exact says for every version 0.m.p what is chosen, C59_wrong_iff which versions are decided wrongly (one-digit minor from 3 (4) on; three digits or more with the first two below 25 (32)), C59_major that 1.0 and later are decided right; C59_versions_partial: right for 0.10.x to 0.99.x."
  },
  {
   "property": "C60",
   "status": "proved",
   "theorems": [
    "PyULog.C60_values",
    "PyULog.C60_frame",
    "PyULog.C60_exported",
    "PyULog.C60_rows",
    "PyULog.C60_exception",
    "PyULog.C60_exact"
   ],
   "note": "for columns that are different places (attribute or attribute[k]) not mixing both forms for one attribute; which exception a place that does not fit the message raises (C60_exception, C60_exact); type checks of the rosidl setters are not modelled."
  },
  {
   "property": "C61",
   "status": "proved",
   "theorems": [
    "PyULog.C61_split",
    "PyULog.C61_int",
    "PyULog.C61_format_text",
    "PyULog.C61_formats"
   ],
   "note": "C61_split, C61_int and C61_format_text characterise the accepted texts and the resulting format exactly (white space and digits ASCII only); C61_formats: last definition wins, formats of the data section do not count."
  },
  {
   "property": "C62",
   "status": "partial",
   "theorems": [
    "PyULog.C62_file_name_partial",
    "PyULog.C62_open_file_fails",
    "PyULog.C62_closed_file_fails",
    "PyULog.C62_arguments"
   ],
   "note": "Holds for file names; open file objects always raise TypeError and closed ones ValueError (proved)."
  },
  {
   "property": "C63",
   "status": "partial",
   "theorems": [
    "PyULog.C63_load_again_doubles",
    "PyULog.C63_datasets_partial",
    "PyULog.C63_not_stored"
   ],
   "note": "Violated: lists are doubled (proved for every stored log); the datasets and the digest are right."
  },
  {
   "property": "C64",
   "status": "partial",
   "theorems": [
    "PyULog.C64_eager",
    "PyULog.C64_lazy_loses_data",
    "PyULog.C64_can_save",
    "PyULog.C64_deleted",
    "PyULog.C64_delete_unsaved"
   ],
   "note": "Holds for eagerly loaded logs; a lazily loaded log loses all data series (proved for every stored log). Deleting an object that is not stored is a KeyError (C64_delete_unsaved)."
  },
  {
   "property": "C65",
   "status": "partial",
   "theorems": [
    "PyULog.C65_json_partial",
    "PyULog.C65_same_rows_partial",
    "PyULog.C65_json_fails",
    "PyULog.C65_text",
    "PyULog.C65_valid",
    "PyULog.C65_refused",
    "PyULog.C65_column_partial"
   ],
   "note": "False as stated: save with JSON fails for -inf and for topics without timestamp (C65_json_fails). Proved: which rows are stored (C65_json_partial, C65_same_rows_partial), the text of the column reads as one member per timestamp with a number, or null for NaN and infinity (C65_text, C65_column_partial), it is JSON exactly when no value is -inf (C65_valid), and save raises exactly then (C65_refused). Limit: that SQLite's json() accepts exactly JSON is assumed; timestamps that are floats are outside the model."
  },
  {
   "property": "C66",
   "status": "partial",
   "theorems": [
    "PyULog.C66_lazy_raises",
    "PyULog.C66_write_same_partial",
    "PyULog.C66_writable_partial",
    "PyULog.C66_violated"
   ],
   "note": "Violated: for the default lazy=True ValueError also when made from a file (C66_lazy_raises); a stored log with NaN or with multi info messages of number types cannot be written, and a multi info message False is written as True (C66_violated). Proved: same bytes for logs without NaN whose formats have fields and whose info-multiple values are text (C66_write_same_partial); exactly which stored logs of files can be written (C66_writable_partial)."
  },
  {
   "property": "C67",
   "status": "proved",
   "theorems": [
    "PyULog.C67_sync_count"
   ],
   "note": "load-level theorem over the processed-message trace (tied to the bytes by C18)"
  },
  {
   "property": "C68",
   "status": "partial",
   "theorems": [
    "PyULog.C68_version1_logs",
    "PyULog.C68_version1_iff",
    "PyULog.C68_text_reference",
    "PyULog.C68_kept",
    "PyULog.C68_version1_refused"
   ],
   "note": "C68_kept: versions 2, 3 and 4. Version 1: C68_version1_logs (only the table of the logs has rows: kept) and C68_version1_refused (a log with any row belonging to it: script 2 fails at DROP TABLE ULog and is rolled back, nothing is lost, nothing is migrated); C68_version1_iff: for databases whose rows refer to existing rows these are the only cases. Partial since the property is false for version 1 databases in use."
  },
  {
   "property": "C69",
   "status": "proved",
   "theorems": [
    "PyULog.C69_new_database",
    "PyULog.C69_serves",
    "PyULog.C69_no_index",
    "PyULog.C69_indexed"
   ],
   "note": "Schema of the five shipped scripts on the model of SQLite's statements; independent of the stored rows. AUTOINCREMENT and column affinity are not modelled."
  },
  {
   "property": "C70",
   "status": "partial",
   "theorems": [
    "PyULog.C70_listing_partial",
    "PyULog.C70_untimed"
   ],
   "note": "Lines in exact arithmetic for times and dropout sums below 2^53 (C70_listing_partial); a log with a topic without timestamp loads but cannot be listed (C70_untimed, KeyError), so the full statement is false. Also assumes that get_version_info_str succeeds (C27)."
  },
  {
   "property": "C71",
   "status": "partial",
   "theorems": [
    "PyULog.C71_row",
    "PyULog.C71_order",
    "PyULog.C71_instances_partial",
    "PyULog.C71_ten_before_two"
   ],
   "note": "Row contents proved for every loaded log (C71_row), order by the text of name and instance (C71_order). The stated order by instance holds below ten (C71_instances_partial) and is false in general: instance 10 comes before instance 2 (C71_ten_before_two)."
  },
  {
   "property": "C72",
   "status": "partial",
   "theorems": [
    "PyULog.C72_bytes",
    "PyULog.C72_text",
    "PyULog.C72_message",
    "PyULog.C72_numbers",
    "PyULog.C72_mixed"
   ],
   "note": "Bytes and texts proved (C72_bytes, C72_text, C72_message); parts that are numbers are stored by the reader and raise TypeError when shown (C72_numbers), so the full statement is false."
  },
  {
   "property": "C73",
   "status": "partial",
   "theorems": [
    "PyULog.C73_camel",
    "PyULog.C73_direct",
    "PyULog.C73_exceptions",
    "PyULog.C73_export",
    "PyULog.C73_words_partial",
    "PyULog.C73_digit_letter"
   ],
   "note": "Direct names and the table of exceptions are proved exactly, for every ASCII name, with each pattern characterised as a set of texts (C73_camel, C73_direct, C73_exceptions, C73_export). That the camel-case form is the name of the message holds for words of letters followed by digits (C73_words_partial) and is false when letters follow a digit (C73_digit_letter)."
  },
  {
   "property": "C74",
   "status": "partial",
   "theorems": [
    "PyULog.C74_columns",
    "PyULog.C74_default",
    "PyULog.C74_missing",
    "PyULog.C74_write_partial",
    "PyULog.C74_overwrites"
   ],
   "note": "Columns, rows, unchanged rest and KeyError proved for every log and every list of entries for different topics. That the log is written as before holds when no field of the topics is named roll, pitch or yaw (C74_write_partial); C74_overwrites shows a log with a field named roll whose written form changes. Element arithmetic is a parameter."
  },
  {
   "property": "C75",
   "status": "partial",
   "theorems": [
    "PyULog.C75_angles",
    "PyULog.C75_rotation",
    "PyULog.C75_gimbal_lock",
    "PyULog.C75_gimbal_zero",
    "PyULog.C75_negated"
   ],
   "note": "Proved over the real numbers (Mathlib's Complex.arg for arctan2) for pitches other than 90 and -90 degrees; at 90 degrees the claim is false: roll and yaw are always 0 (C75_gimbal_zero) and C75_gimbal_lock shows a quaternion whose rotation is another one. Rounding of numpy is not modelled."
  },
  {
   "property": "C76",
   "status": "partial",
   "theorems": [
    "PyULog.C76_triggers",
    "PyULog.C76_missing",
    "PyULog.C76_not_scaled"
   ],
   "note": "Proved: one point per row of the camera topic, with its number and the logged coordinates; no points without the topic; KeyError without the columns. Missing: coordinates logged as integers are not converted to degrees (C76_not_scaled)."
  },
  {
   "property": "C77",
   "status": "partial",
   "theorems": [
    "PyULog.C77_document_partial",
    "PyULog.C77_one",
    "PyULog.C77_no_topic",
    "PyULog.C77_missing_colors",
    "PyULog.C77_single_color",
    "PyULog.C77_color_list",
    "PyULog.C77_filter",
    "PyULog.C77_topic_lost"
   ],
   "note": "Proved when there is one colour function per topic. Topics beyond the list of colours are silently left out (C77_missing_colors, C77_topic_lost), and a list of topics with the default colours is a TypeError (C77_single_color). C77_filter needs the hypothesis of C17."
  },
  {
   "property": "C78",
   "status": "proved",
   "theorems": [
    "PyULog.C78_csv",
    "PyULog.C78_gps",
    "PyULog.C78_gps_distinct",
    "PyULog.C78_bag"
   ],
   "note": "The bag name drops .ulg in lower case only. POSIX paths; creation of folders is not modelled."
  },
  {
   "property": "C79",
   "status": "proved",
   "theorems": [
    "PyULog.C79_all",
    "PyULog.C79_names",
    "PyULog.C79_csv",
    "PyULog.C79_bag",
    "PyULog.C79_raises"
   ],
   "note": "Under the hypothesis of C17 (no id reused for a topic of the other kind); the CSV half also needs the distinct file names of C54."
  },
  {
   "property": "C80",
   "status": "partial",
   "theorems": [
    "PyULog.C80_gps",
    "PyULog.C80_messages",
    "PyULog.C80_params_partial",
    "PyULog.C80_initial_times"
   ],
   "note": "GPS dump and messages proved under the hypothesis of C17; parameters proved unless times are printed. With --initial --timestamps the times are those of a log without messages (C80_initial_times)."
  },
  {
   "property": "C81",
   "status": "proved",
   "theorems": [
    "PyULog.C81_run",
    "PyULog.C81_file",
    "PyULog.C81_barriers"
   ],
   "note": "C81_run for the processing of messages, C81_file for files; C81_barriers shows that the order within a stream and the place of parameter changes and dropouts do matter. Ids that are neither subscribed nor filtered are excluded: the model keeps the set of missing ids as a list."
  },
  {
   "property": "C82",
   "status": "proved",
   "theorems": [
    "PyULog.C82_success",
    "PyULog.C82_error",
    "PyULog.C82_cut",
    "PyULog.C82_whole_messages",
    "PyULog.C82_loads",
    "PyULog.C82_data_section",
    "PyULog.C82_data_section_loads"
   ],
   "note": "All log objects and all exceptions of the writer itself; exceptions of the file object (full disk) are not modelled. The loading part assumes a log of the round trip (Writable), because other logs do not load the same way even when they are written completely (C20)."
  },
  {
   "property": "C83",
   "status": "partial",
   "theorems": [
    "PyULog.C83_exact",
    "PyULog.C83_loaded",
    "PyULog.C83_comes_back",
    "PyULog.C83_same_object",
    "PyULog.C83_not_writable",
    "PyULog.C83_conditions",
    "PyULog.C83_changed",
    "PyULog.C83_truth",
    "PyULog.C83_truth_element"
   ],
   "note": "exact condition for every log object (C83_exact), reduced to what remains for loaded logs (C83_loaded), with logs that can be loaded but not written (C83_not_writable); loaded logs come back under conditions on the file content only (C83_comes_back, C83_same_object), and these conditions are the ones of the round trip (C83_conditions). That every loaded log comes back is false (C83_changed). Missing: timestamps that are not integers"
  },
  {
   "property": "C84",
   "status": "proved",
   "theorems": [
    "PyULog.C84_bytes",
    "PyULog.C84_bytes_quotes",
    "PyULog.C84_bytes_printable",
    "PyULog.C84_float64",
    "PyULog.C84_float32",
    "PyULog.C84_int",
    "PyULog.C84_element",
    "PyULog.C84_unique64",
    "PyULog.C84_unique32",
    "PyULog.C84_csv",
    "PyULog.C84_params",
    "PyULog.C84_nan",
    "PyULog.C84_shortest64",
    "PyULog.C84_shortest32"
   ],
   "note": "All bit patterns: the decimal that the text denotes is nearest to the printed float (nearest is stated with magnitudes in units of the smallest subnormal, without the search for digits). No decimal number with fewer digits is rounded to the float, none with as many digits is closer (quantified over all decimals), the notation is decided by the value, and there are no superfluous zeros. Text determines the value; csv tables of loaded logs and the lines of ulog_params are read back; printed bytes are read back as the literal they are. The search for the shortest digits models CPython's repr and numpy's Dragon4."
  },
  {
   "property": "C85",
   "status": "partial",
   "theorems": [
    "PyULog.C85_complete",
    "PyULog.C85_left",
    "PyULog.C85_all",
    "PyULog.C85_files",
    "PyULog.C85_whole_partial",
    "PyULog.C85_begun"
   ],
   "note": "C85_all and C85_files: exactly the complete files of the datasets before the failing one, plus at most the file of the failing dataset. C85_left (iff): not opened without a timestamp column; empty when the fields are unusual; the header when the window is not reached; otherwise header, whole rows and the begun row. False as stated for the begun row: C85_begun is a loaded log with a byte of 200 in a text, whose file ends after a separator. C85_whole_partial: with ASCII texts only whole lines are left, and rows only if there was no exception."
  },
  {
   "property": "C86",
   "status": "proved",
   "theorems": [
    "PyULog.C86_special64",
    "PyULog.C86_special32",
    "PyULog.C86_quotient_special",
    "PyULog.C86_narrow_special",
    "PyULog.C86_float_columns",
    "PyULog.C86_round64",
    "PyULog.C86_round32",
    "PyULog.C86_scaled",
    "PyULog.C86_recover",
    "PyULog.C86_injective",
    "PyULog.C86_sum64",
    "PyULog.C86_sum32",
    "PyULog.C86_altitude",
    "PyULog.C86_quotient64",
    "PyULog.C86_quotient32",
    "PyULog.C86_narrow",
    "PyULog.C86_far",
    "PyULog.C86_interval",
    "PyULog.C86_apart",
    "PyULog.C86_point",
    "PyULog.C86_unscaled"
   ],
   "note": "Rounding is specified as the nearest float with ties to even (Spec/Floats). The sum of an integer altitude and an integer offset is modelled without overflow; the text that simplekml writes is not modelled."
  },
  {
   "property": "C87",
   "status": "partial",
   "theorems": [
    "PyULog.C87_roll",
    "PyULog.C87_yaw",
    "PyULog.C87_pitch",
    "PyULog.C87_domain_partial",
    "PyULog.C87_elements",
    "PyULog.C87_no_pitch",
    "PyULog.C87_product_special",
    "PyULog.C87_difference_special"
   ],
   "note": "Arguments of arctan2 and arcsin proved within 2^-20 (C87_roll, C87_yaw, C87_pitch). That the pitch is a number is false (C87_no_pitch: a quaternion of length exactly 1, rounded to float32); it holds when the exact argument is at most 1 - 2^-22 (C87_domain_partial). arctan2 and arcsin are parameters."
  },
  {
   "property": "C88",
   "status": "proved",
   "theorems": [
    "PyULog.C88_lists",
    "PyULog.C88_loaded"
   ],
   "note": "C88_lists: any list of lists of values, any set of printable characters. C88_loaded: the lines that show_info prints for a loaded log."
  },
  {
   "property": "C89",
   "status": "proved",
   "theorems": [
    "PyULog.C89_exception",
    "PyULog.C89_obstacle",
    "PyULog.C89_loaded",
    "PyULog.C89_examples",
    "PyULog.C89_unnamed"
   ],
   "note": "The exception always belongs to an obstacle of the list (C89_exception), every obstacle makes the write fail (C89_obstacle), and for loaded files the list is shorter (C89_loaded); a column without a name always makes it fail (C89_unnamed). The timestamp columns are integers, as in every file whose timestamp fields are integers."
  },
  {
   "property": "C90",
   "status": "proved",
   "theorems": [
    "PyULog.C90_exception",
    "PyULog.C90_exact",
    "PyULog.C90_file",
    "PyULog.C90_unnamed"
   ],
   "note": "C90_exception: the exception has a reason of the list; C90_exact: save succeeds exactly without one; C90_file: the shorter list for logs of files; C90_unnamed: a column without a name. Not modelled (an error value of its own): columns whose values are not of the kind of the column type, float timestamps with JSON columns."
  },
  {
   "property": "C91",
   "status": "proved",
   "theorems": [
    "PyULog.C91_definition",
    "PyULog.C91_message",
    "PyULog.C91_message_exact",
    "PyULog.C91_load",
    "PyULog.C91_load_exact",
    "PyULog.C91_default"
   ],
   "note": "One message: an equivalence for definitions, both directions for data messages up to the choice between KeyError and RecursionError. Whole load: every exception has its reason, and a file with a reason is not loaded."
  },
  {
   "property": "C92",
   "status": "proved",
   "theorems": [
    "PyULog.C92_tools",
    "PyULog.C92_names",
    "PyULog.C92_kinds",
    "PyULog.C92_line",
    "PyULog.C92_dashes"
   ],
   "note": "For every parser whose option strings have the shape of C92_tools, in particular the eight tools: options, file names and options give the last values and the defaults, the file names go to the arguments in turn, and behind -- everything is a file name."
  },
  {
   "property": "C93",
   "status": "proved",
   "theorems": [
    "PyULog.C93_code",
    "PyULog.C93_help_option",
    "PyULog.C93_help",
    "PyULog.C93_missing",
    "PyULog.C93_files",
    "PyULog.C93_no_value",
    "PyULog.C93_bad_value",
    "PyULog.C93_unknown",
    "PyULog.C93_letters",
    "PyULog.C93_flag_value"
   ],
   "note": "Exit codes for every command line; the refusals for every parser of the shape of C92_tools, an unknown option for every parser. Finding: ulog_params FILE -i OUT is refused although ulog_params FILE OUT -i is not, and ulog2csv -ts5 is refused."
  },
  {
   "property": "C94",
   "status": "proved",
   "theorems": [
    "PyULog.C94_csv",
    "PyULog.C94_csv_mkdir",
    "PyULog.C94_gps",
    "PyULog.C94_gps_instance",
    "PyULog.C94_params",
    "PyULog.C94_messages",
    "PyULog.C94_info",
    "PyULog.C94_kml",
    "PyULog.C94_bag",
    "PyULog.C94_bag_unavailable",
    "PyULog.C94_migrate"
   ],
   "note": "All eight main functions, from the words of the command line to the files that are left. The command lines are those of C92. Files that cannot be opened for writing are not modelled."
  },
  {
   "property": "C95",
   "status": "partial",
   "theorems": [
    "PyULog.C95_refused",
    "PyULog.C95_csv_status",
    "PyULog.C95_gps_status",
    "PyULog.C95_whole_partial",
    "PyULog.C95_unreadable",
    "PyULog.C95_directory_left",
    "PyULog.C95_gps_begun",
    "PyULog.C95_info_left",
    "PyULog.C95_message_left",
    "PyULog.C95_dump_left",
    "PyULog.C95_bag_left",
    "PyULog.C95_begun",
    "PyULog.C95_listing_begun",
    "PyULog.C95_bag_begun"
   ],
   "note": "Proved: refused lines change nothing, the status and what it stands for (ulog2csv, ulog_extract_gps_dump), all or nothing for ulog_params, ulog2kml and ulog_messages, logs that cannot be read, and exactly what an exception leaves for ulog_info (C95_info_left, C95_message_left, C95_dump_left) and ulog2ros2bag (C95_bag_left). The code violates the rest: ulog2csv leaves the directory it has made (C95_directory_left), the gps dump leaves begun files (C95_gps_begun), ulog_info half a listing (C95_listing_begun), ulog2ros2bag a bag with some topics (C95_bag_begun)."
  },
  {
   "property": "C96",
   "status": "proved",
   "theorems": [
    "PyULog.C96_file",
    "PyULog.C96_convert",
    "PyULog.C96_extract",
    "PyULog.C96_loaded",
    "PyULog.C96_huge"
   ],
   "note": "Every reason is a constructor with its exception; both directions for files (C96_file), all files (C96_convert), topics (C96_extract). C96_huge: OverflowError for the bounds no double can hold. C96_loaded: the reasons that remain for loaded logs. Elements above 127 in columns that are not char (names that look like the characters of a text) have no modelled result."
  },
  {
   "property": "C97",
   "status": "proved",
   "theorems": [
    "PyULog.C97_params",
    "PyULog.C97_messages",
    "PyULog.C97_info",
    "PyULog.C97_message",
    "PyULog.C97_gps",
    "PyULog.C97_gps_float"
   ],
   "note": "Exact conditions and exceptions of showInfo, showMessage, paramsText, messageLines and gpsDump. gpsDump: len of type uint8_t (C97_gps) or a float (C97_gps_float), instance not a float; the elements of data have any type. Other types of len depend on the version of numpy and are not modelled."
  },
  {
   "property": "C98",
   "status": "proved",
   "theorems": [
    "PyULog.C98_track",
    "PyULog.C98_triggers",
    "PyULog.C98_document"
   ],
   "note": "Assumes that all fields are named, timestamps are uint64_t, and nav_state and fix_type are no floats (KmlTypes); C98_track has no such assumption."
  },
  {
   "property": "C99",
   "status": "proved",
   "theorems": [
    "PyULog.C99_lines_any",
    "PyULog.C99_lines",
    "PyULog.C99_version",
    "PyULog.C99_flags",
    "PyULog.C99_corruption",
    "PyULog.C99_missing",
    "PyULog.C99_quiet",
    "PyULog.C99_text",
    "PyULog.C99_silent"
   ],
   "note": "The list of lines is determined exactly (C99_lines for loads that succeed, C99_lines_any with lines before an exception, if the appended sections start at file positions); C99_silent is the witness that a corrupt log can be loaded without a line. Lines printed in debug mode (an attribute that is always false) are not modelled."
  },
  {
   "property": "C100",
   "status": "partial",
   "theorems": [
    "PyULog.C100_csv",
    "PyULog.C100_points_partial",
    "PyULog.C100_points_exact",
    "PyULog.C100_points_window",
    "PyULog.C100_csv_all",
    "PyULog.C100_gps",
    "PyULog.C100_events",
    "PyULog.C100_skip",
    "PyULog.C100_skip_reason",
    "PyULog.C100_bag",
    "PyULog.C100_migrate",
    "PyULog.C100_migrate_refused",
    "PyULog.C100_done"
   ],
   "note": "C100_csv (announced files = files that exist, also after an exception), C100_csv_all (order of the lines), C100_gps, C100_events, C100_skip, C100_skip_reason, C100_bag, C100_migrate, C100_done are full. The announced number of data points is the number of rows only without a window (C100_points_partial, for cells without line breaks); C100_points_window is the counterexample."
  },
  {
   "property": "C101",
   "status": "partial",
   "theorems": [
    "PyULog.C101_path_partial",
    "PyULog.C101_migrate",
    "PyULog.C101_other_directory",
    "PyULog.C101_never"
   ],
   "note": "The code violates the property for names with curly brackets: C101_path_partial shows that the path is right exactly for names without them, C101_never that otherwise no script of the directory is read, C101_other_directory gives the exceptions and the other directories. C101_migrate lifts the result to migrate_db, so that the properties about migrate_db apply."
  },
  {
   "property": "C102",
   "status": "partial",
   "theorems": [
    "PyULog.C102_lines_partial",
    "PyULog.C102_bag_partial",
    "PyULog.C102_version",
    "PyULog.C102_violated",
    "PyULog.C102_topic",
    "PyULog.C102_missing",
    "PyULog.C102_run",
    "PyULog.C102_unavailable",
    "PyULog.C102_available"
   ],
   "note": "The code violates the property for a log whose version is no number: C102_version shows that every such log raises only with --verbose and leaves an empty bag, C102_violated is a file. For all other logs C102_bag_partial (same bag), C102_lines_partial (same lines), C102_run (the whole output, also after an exception), C102_topic, C102_missing. C102_unavailable and C102_available cover the import blocks."
  },
  {
   "property": "C103",
   "status": "proved",
   "theorems": [
    "PyULog.C103_bag",
    "PyULog.C103_program",
    "PyULog.C103_fits",
    "PyULog.C103_skipped"
   ],
   "note": "for logs whose timestamps are uint64_t and whose field names are plain names or names with one index (Places); reading and loading errors are those of C94"
  },
  {
   "property": "C104",
   "status": "partial",
   "theorems": [
    "PyULog.C104_params_partial",
    "PyULog.C104_info_partial",
    "PyULog.C104_message",
    "PyULog.C104_datasets_partial",
    "PyULog.C104_files_partial",
    "PyULog.C104_messages_partial",
    "PyULog.C104_different"
   ],
   "note": "false as stated: C104_different has four rewritten logs for which a tool prints something else (lost warning about corruption, bool byte 2 shown as 1, messages of a log not from PX4 in another order, shorter duration after a second subscription). Proved for all logs that come back: ulog_info --message without condition; ulog_params if no parameter is a bool (with --timestamps: if changes carry the time of the latest sample); ulog_info but for the warning if the end of the log is its last sample; ulog_messages of PX4 logs, and of others in order; datasets and thus ulog2csv, ulog2ros2bag, gps dump, extract_message and ulog2kml if samples are in order and stored unchanged."
  },
  {
   "property": "C105",
   "status": "proved",
   "theorems": [
    "PyULog.C105_cut",
    "PyULog.C105_not_marked",
    "PyULog.C105_more"
   ],
   "note": "LogUpTo gives the shape of what is loaded, the count of complete messages that nothing complete is lost. Cuts within the definitions are the subject of C15."
  },
  {
   "property": "C106",
   "status": "partial",
   "theorems": [
    "PyULog.C106_csv_partial",
    "PyULog.C106_extract_partial",
    "PyULog.C106_params",
    "PyULog.C106_message",
    "PyULog.C106_messages_partial",
    "PyULog.C106_different"
   ],
   "note": "Violated (C106_different): the ROS 2 topic of the only instance left loses its index; with colliding csv file names or two subscriptions of a topic another dataset is shown. Proved: csv files have the head and the first lines (distinct file names), extract_message returns the first rows or raises AttributeError exactly if none is left (distinct name and multi id), same parameters with the first changes (same text for initial values), same text of ulog_info --message, first lines of ulog_messages (messages in the order of time, no events)."
  },
  {
   "property": "C107",
   "status": "partial",
   "theorems": [
    "PyULog.C107_messages",
    "PyULog.C107_file_partial",
    "PyULog.C107_not_noticed",
    "PyULog.C107_different"
   ],
   "note": "Violated (C107_different): a damaged timestamp that is too large changes the duration of the log and the times of all later dropouts and parameter changes. Proved for any bytes of the sample (C107_file_partial): same exception or same contents but for one row of the topic and these times; with an intact timestamp the times are equal too."
  },
  {
   "property": "C108",
   "status": "proved",
   "theorems": [
    "PyULog.C108_text",
    "PyULog.C108_tagged",
    "PyULog.C108_dropout",
    "PyULog.C108_parameter",
    "PyULog.C108_strict"
   ],
   "note": "C108_text, C108_tagged, C108_dropout and C108_parameter for every replacement of the payload bytes of the same length (tag, and type and key of the parameter, intact); C108_strict for strict decoding. The parameter theorem is for disable_str_exceptions=True (the default)."
  },
  {
   "property": "C109",
   "status": "partial",
   "theorems": [
    "PyULog.C109_text",
    "PyULog.C109_dropout",
    "PyULog.C109_parameter",
    "PyULog.C109_tagged",
    "PyULog.C109_sample_partial",
    "PyULog.C109_different"
   ],
   "note": "Violated for the times (C109_different): a lost sample that was the newest dates later dropouts and parameter changes earlier and can shorten the log. Proved: the log without a logged message (C109_text), tagged message (C109_tagged), dropout (C109_dropout), parameter change (C109_parameter) or sample (C109_sample_partial; a topic without samples has no dataset; all times equal if the sample was not newer than those before)."
  },
  {
   "property": "C110",
   "status": "partial",
   "theorems": [
    "PyULog.C110_csv_partial",
    "PyULog.C110_works_partial",
    "PyULog.C110_extract",
    "PyULog.C110_lost_csv_partial",
    "PyULog.C110_lost_extract_partial",
    "PyULog.C110_raises"
   ],
   "note": "Violated (C110_raises): a damaged character above 127 makes ulog2csv raise ValueError. Proved: if ulog2csv works on the damaged log, one line of one file differs (C110_csv_partial); it works if the topic has no characters (C110_works_partial); extract_message returns the same rows but one (C110_extract); for a lost sample, ulog2csv works and one line or the file is missing (C110_lost_csv_partial), and extract_message lacks one row or raises AttributeError (C110_lost_extract_partial). The csv theorems and the last one need distinct names (C106_different shows what happens otherwise)."
  },
  {
   "property": "C111",
   "status": "proved",
   "theorems": [
    "PyULog.C111_info",
    "PyULog.C111_params",
    "PyULog.C111_message",
    "PyULog.C111_messages"
   ],
   "note": "For ulog_info: C111_info (damaged sample); for ulog_params C111_params, ulog_info --message C111_message and ulog_messages C111_messages (damaged or lost sample). The logs are those related by C107 and C109."
  },
  {
   "property": "C112",
   "status": "proved",
   "theorems": [
    "PyULog.C112_definition",
    "PyULog.C112_data",
    "PyULog.C112_damaged",
    "PyULog.C112_value"
   ],
   "note": "C112_definition: a file without one info, multi info, parameter or default parameter message of its definitions raises the same exception or differs only in entries with its key. C112_data: the same for such a message in the data section (parameter changes: C109). C112_value, C112_damaged: the value, or also the key, is damaged."
  },
  {
   "property": "C113",
   "status": "proved",
   "theorems": [
    "PyULog.C113_params",
    "PyULog.C113_info",
    "PyULog.C113_info_multi",
    "PyULog.C113_multi_lines",
    "PyULog.C113_info_same",
    "PyULog.C113_message",
    "PyULog.C113_messages",
    "PyULog.C113_samples"
   ],
   "note": "For any two loaded logs related by OnlyKey (C112). C113_params: only the part of the key differs, and nothing if parameters of another kind are printed. C113_info, C113_info_multi, C113_multi_lines, C113_info_same: ulog_info. C113_message, C113_messages, C113_samples: the other tools."
  },
  {
   "property": "C114",
   "status": "proved",
   "theorems": [
    "PyULog.C114_subscription",
    "PyULog.C114_dataset",
    "PyULog.C114_sample",
    "PyULog.C114_times"
   ],
   "note": "C114_subscription: for any plain file and any readable, wanted subscription whose id no other subscription has; LostTopic lists what is the same, what is missing, and that lost samples are reported. C114_dataset: the datasets of other ids. C114_sample: the sample file without its second subscription. C114_times: why the times of dropouts and parameter changes are excluded from the property (as in C109)."
  },
  {
   "property": "C115",
   "status": "proved",
   "theorems": [
    "PyULog.C115_csv",
    "PyULog.C115_extract",
    "PyULog.C115_info",
    "PyULog.C115_params",
    "PyULog.C115_message",
    "PyULog.C115_messages",
    "PyULog.C115_sample"
   ],
   "note": "For any two loaded logs related by LostTopic (C114). C115_csv, C115_extract (other messages and the lost one), C115_info, C115_params, C115_message, C115_messages; C115_sample: the sample log without its second subscription."
  },
  {
   "property": "C116",
   "status": "proved",
   "theorems": [
    "PyULog.C116_definition",
    "PyULog.C116_data",
    "PyULog.C116_entries",
    "PyULog.C116_later"
   ],
   "note": "C116_definition and C116_data: for any plain file with a message written n + 1 times in a row, equality of the results of load. C116_entries: the excluded types do add entries. C116_later: a subscription that is repeated after samples drops these samples, so the repetition has to follow at once."
  },
  {
   "property": "C117",
   "status": "proved",
   "theorems": [
    "PyULog.C117_format",
    "PyULog.C117_unused",
    "PyULog.C117_sample",
    "PyULog.C117_twice",
    "PyULog.C117_tools",
    "PyULog.C117_messages"
   ],
   "note": "C117_format: for any plain file of which the only definition of a format is missing. C117_unused: when no subscribed topic contains the format (Contains), no KeyError is added. C117_tools, C117_messages: the tools on the log without the format. C117_sample: the sample file without each of its formats. C117_twice: with two definitions of one name, the loss of the later one can change the values, so the definition has to be the only one."
  }
 ]
}