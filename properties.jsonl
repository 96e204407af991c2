{"id": "C01", "title": "File header gate", "statement": "ULog(file) raises TypeError for exactly those files that have fewer than 16 bytes or whose first 7 bytes are not the ULog magic; for every other file the file version is byte 7 and start_timestamp is the little-endian 64-bit value of bytes 8..15 (unless loading fails later).", "quantifier": "every byte string", "why_tests_cant": "a test can only try a few headers; the accept/reject boundary ranges over all byte strings", "anchors": ["pyulog/core.py:ULog._read_file_header", "pyulog/core.py:ULog._load_file"]}
{"id": "C02", "title": "Parsing the data section terminates", "statement": "Once the definitions have been read, reading the data section of any file ends: every iteration of the reader consumes at least one byte, whatever the corruption, unknown messages or sync sequences.", "quantifier": "every byte string, every start offset, every read-until offset and every filter", "why_tests_cant": "non-termination on some adversarial file cannot be excluded by samples", "anchors": ["pyulog/core.py:ULog._read_file_data", "pyulog/core.py:ULog._find_sync"]}
{"id": "C03", "title": "Parsing the definition section terminates", "statement": "Reading the definition section of any file ends (returns or raises).", "quantifier": "every byte string", "why_tests_cant": "an infinite loop on one particular truncated/corrupt file is not visible in any finite test set", "anchors": ["pyulog/core.py:ULog._read_file_definitions", "pyulog/core.py:ULog._check_packet_corruption"]}
{"id": "C04", "title": "last_timestamp is the maximum data timestamp", "statement": "After loading, last_timestamp is the maximum of start_timestamp and the timestamps of all data messages that were accepted into a dataset; it never decreases while reading.", "quantifier": "every message sequence", "why_tests_cant": "must hold for every interleaving of data messages, out-of-order timestamps included", "anchors": ["pyulog/core.py:ULog._read_file_data", "pyulog/core.py:ULog._MessageData.initialize"]}
{"id": "C05", "title": "Corruption is sticky and malformed data adds no sample", "statement": "A data message whose id has no subscription (and is not filtered), or whose payload size does not match the subscribed format, sets file_corruption, adds no sample to any dataset and does not move last_timestamp; once set, file_corruption is never cleared.", "quantifier": "every reader state and every message", "why_tests_cant": "all histories of corrupt and good messages", "anchors": ["pyulog/core.py:ULog._MessageData.initialize", "pyulog/core.py:ULog._read_file_data", "pyulog/core.py:ULog._check_packet_corruption"]}
{"id": "C06", "title": "Datasets contain exactly the accepted samples", "statement": "For each subscription, every column data[field] has one entry per accepted data message, in file order, and entry i is the little-endian typed decoding of the bytes of message i at the offset given by the sizes of the preceding fields.", "quantifier": "every format, every sequence of data messages", "why_tests_cant": "all formats x all payload sequences", "anchors": ["pyulog/core.py:ULog.Data.__init__", "pyulog/core.py:ULog._MessageAddLogged", "pyulog/core.py:ULog._MessageData.initialize"]}
{"id": "C07", "title": "data_list is sorted and complete", "statement": "After loading, data_list is ordered by (name, multi_id) and contains, for each section, exactly one dataset for each subscription that received at least one sample and none for the others; building the arrays never fails.", "quantifier": "every set of subscriptions and samples", "why_tests_cant": "all subscription orders, ids and names", "anchors": ["pyulog/core.py:ULog._read_file_data (final loop and sort)", "pyulog/core.py:ULog.data_list"]}
{"id": "C08", "title": "Nested formats are flattened faithfully", "statement": "The columns of a subscription are the depth-first expansion of its format: basic fields keep their name, arrays become name[0..n-1], nested types are prefixed with 'field.' or 'field[i].', trailing _padding fields are removed; an unknown type name raises KeyError and a cyclic format never loads.", "quantifier": "every format table", "why_tests_cant": "formats are user data: arbitrary nesting, arrays and cycles", "anchors": ["pyulog/core.py:ULog._MessageAddLogged._parse_nested_type", "pyulog/core.py:ULog._MessageAddLogged._parse_format"]}
{"id": "C09", "title": "Parameters: initial versus changed", "statement": "A parameter message in the definition section sets initial_parameters[name] (the last one wins); a parameter message in the data section never touches initial_parameters and is appended to changed_parameters, in file order, stamped with the last data timestamp seen so far, so the stamps never decrease.", "quantifier": "every message sequence", "why_tests_cant": "all interleavings of parameters and data", "anchors": ["pyulog/core.py:ULog._read_file_definitions", "pyulog/core.py:ULog._read_file_data", "pyulog/core.py:ULog.initial_parameters", "pyulog/core.py:ULog.changed_parameters"]}
{"id": "C10", "title": "Default parameters follow the bit mask", "statement": "A default-parameter message with mask m sets the value in get_default_parameters(i) for exactly the bits i that are set in m, and changes nothing else.", "quantifier": "every mask, every previous content", "why_tests_cant": "all masks and all histories of default messages", "anchors": ["pyulog/core.py:ULog._add_parameter_default", "pyulog/core.py:ULog.get_default_parameters"]}
{"id": "C11", "title": "Multi-part info messages are grouped losslessly", "statement": "msg_info_multiple_dict[key] is a list of lists whose concatenation is the sequence of values received for that key in file order; a message starts a new inner list exactly when it is the first for its key or its continued flag is 0; no inner list is empty.", "quantifier": "every sequence of info-multiple messages", "why_tests_cant": "all interleavings of keys and flags", "anchors": ["pyulog/core.py:ULog._add_message_info_multiple"]}
{"id": "C12", "title": "Incompatible flags are refused", "statement": "A log whose flag message sets any incompatible bit other than 'data appended' is refused with an exception (ValueError for the first byte, NotImplementedError for bytes 1..7), and every log with only that bit (or none) passes; the appended offsets are the three stored offsets without trailing zeros.", "quantifier": "every flag message", "why_tests_cant": "2^128 flag values", "anchors": ["pyulog/core.py:ULog._MessageFlagBits", "pyulog/core.py:ULog._read_file_definitions"]}
{"id": "C13", "title": "Sync recovery finds the first sync sequence", "statement": "When the reader resynchronises it continues right after the first occurrence of the 8 sync bytes at or after the current position, wherever the occurrence lies relative to the 512-byte search chunks; when there is none it stays where it was and stops searching.", "quantifier": "every byte string, every position", "why_tests_cant": "occurrences straddling any chunk boundary at any file length", "anchors": ["pyulog/core.py:ULog._find_sync"]}
{"id": "C14", "title": "Unknown message types are skipped (forward compatibility)", "statement": "Inserting messages of an unknown type, with payload of 1..10000 bytes and not containing the sync sequence, anywhere in the definition or data section does not change what is loaded.", "quantifier": "every message sequence, every insertion point, every unknown payload", "why_tests_cant": "all positions x all payloads", "anchors": ["pyulog/core.py:ULog._check_packet_corruption", "pyulog/core.py:ULog._read_file_data", "pyulog/core.py:ULog._read_file_definitions"]}
{"id": "C15", "title": "A cut log loads as its prefix", "statement": "Cutting a well-formed log at any byte of its data section still loads without exception and without corruption flag, and gives exactly the content of the messages that are completely contained in the prefix.", "quantifier": "every log, every cut point", "why_tests_cant": "every crash point of the logger", "anchors": ["pyulog/core.py:ULog._read_file_data"]}
{"id": "C16", "title": "parse_header_only agrees with a full load", "statement": "Whenever the full load succeeds, loading the same file with parse_header_only=True succeeds and gives the same start_timestamp, file version, message_formats, initial_parameters, flags; the info dictionary of the full load extends it and data_list, logged_messages, dropouts, changed_parameters are empty.", "quantifier": "every byte string", "why_tests_cant": "all files", "anchors": ["pyulog/core.py:ULog._load_file"]}
{"id": "C17", "title": "The name filter selects datasets and nothing else", "statement": "Loading with a message name filter gives exactly the datasets of the unfiltered load whose name is in the filter, with identical samples, and identical formats, infos, parameters and logged messages.", "quantifier": "every file, every filter", "why_tests_cant": "relational property over pairs of runs", "anchors": ["pyulog/core.py:ULog._read_file_data (message_name_filter_list)", "pyulog/core.py:ULog._MessageData.initialize"]}
{"id": "C18", "title": "Framing: the reader sees exactly the messages written", "statement": "Reading the concatenation of complete messages (3-byte header, payload) processes exactly those messages, once each and in order, independent of payload contents.", "quantifier": "every list of messages", "why_tests_cant": "all lengths and contents, payloads that look like headers", "anchors": ["pyulog/core.py:ULog._MessageHeader", "pyulog/core.py:ULog._read_file_data"]}
{"id": "C19", "title": "String decoding", "statement": "Valid UTF-8 is decoded to the same text in both modes; with disable_str_exceptions=True decoding never raises and drops only ill-formed bytes; with False it raises exactly when the bytes are not valid UTF-8; encoding then decoding any text is the identity.", "quantifier": "every byte string and every text", "why_tests_cant": "all byte strings", "anchors": ["pyulog/core.py:ULog.parse_string", "pyulog/core.py:_parse_string"]}
{"id": "C20", "title": "write_ulog / read round trip", "statement": "For every writable log, write_ulog succeeds and reading the result gives an equal log, except that sync count and appended offsets are dropped, the appended flag is cleared, and samples and messages are ordered by timestamp.", "quantifier": "every writable in-memory log", "why_tests_cant": "all contents, sizes, formats, parameter values, timestamps", "anchors": ["pyulog/core.py:ULog.write_ulog", "pyulog/core.py:ULog._load_file"]}
{"id": "C21", "title": "Writing is idempotent", "statement": "Writing a log, reading it and writing it again gives the same bytes.", "quantifier": "every writable in-memory log", "why_tests_cant": "all logs", "anchors": ["pyulog/core.py:ULog.write_ulog"]}
{"id": "C22", "title": "write_ulog clears the appended marker", "statement": "The written file starts with the 16-byte header and a flag message as first message whose compat flags are those of the log, whose incompatible flags are those of the log with bit 0 of byte 0 cleared, and whose offsets are zero.", "quantifier": "every log that can be written", "why_tests_cant": "all flag values", "anchors": ["pyulog/core.py:ULog._write_file_header", "pyulog/core.py:ULog._write_flags"]}
{"id": "C23", "title": "The written data section is a time-sorted permutation", "statement": "The data section written by write_ulog contains every sample, logged message, tagged message, dropout and parameter change exactly once, ordered by timestamp, and equal timestamps keep the order data, logged, tagged, dropouts, parameters.", "quantifier": "every log that can be written", "why_tests_cant": "all timestamp patterns", "anchors": ["pyulog/core.py:ULog._write_data_section", "pyulog/core.py:ULog._make_data_items"]}
{"id": "C24", "title": "Appended data is read from its offset, once", "statement": "For a log with appended data, each section is parsed only up to its end offset and parsing continues exactly at the offset; a message that crosses the offset is not processed.", "quantifier": "every file with appended offsets", "why_tests_cant": "all offsets and cut messages", "anchors": ["pyulog/core.py:ULog._load_file", "pyulog/core.py:ULog._read_file_data (read_until)"]}
{"id": "C25", "title": "get_dataset", "statement": "get_dataset(name, i) returns the first dataset with exactly that name and multi_id if there is one and raises IndexError otherwise.", "quantifier": "every data_list, name and instance", "why_tests_cant": "all lists", "anchors": ["pyulog/core.py:ULog.get_dataset"]}
{"id": "C26", "title": "list_value_changes", "statement": "list_value_changes(field) ignores samples with timestamp 0, starts with the first remaining sample, and then lists exactly the samples whose value differs from the previous remaining sample, in order.", "quantifier": "every dataset", "why_tests_cant": "all value sequences", "anchors": ["pyulog/core.py:ULog.Data.list_value_changes"]}
{"id": "C27", "title": "Version information", "statement": "get_version_info splits the 32-bit version into its four bytes for every value and get_version_info_str prints 'vA.B.C' with the suffix of the release-type range, and None for development versions or a missing key.", "quantifier": "every version value", "why_tests_cant": "2^32 values", "anchors": ["pyulog/core.py:ULog.get_version_info", "pyulog/core.py:ULog.get_version_info_str"]}
{"id": "C28", "title": "Equality of datasets", "statement": "Data.__eq__ is reflexive for every dataset (NaN included) and symmetric, and datasets that compare equal have the same name, ids, fields and columns.", "quantifier": "every pair of datasets", "why_tests_cant": "all datasets", "anchors": ["pyulog/core.py:ULog.Data.__eq__"]}
{"id": "C29", "title": "extract_message time window", "statement": "extract_message returns, for timestamps in ascending order, exactly the rows with time_s*1e6 <= timestamp < time_e*1e6 (missing or zero bound = unbounded), timestamp first, other fields in log order.", "quantifier": "every dataset and window", "why_tests_cant": "all windows relative to all timestamp sequences", "anchors": ["pyulog/extract_message.py:extract_message"]}
{"id": "C30", "title": "ulog2csv output shape", "statement": "Every CSV row has exactly one cell per header column, the first column is timestamp, each non-padding field appears exactly once, and char arrays become one column holding the text up to the first NUL.", "quantifier": "every dataset", "why_tests_cant": "all field lists", "anchors": ["pyulog/ulog2csv.py:convert_ulog2csv", "pyulog/ulog2csv.py:read_string_data"]}
{"id": "C31", "title": "GPS dump extraction splits the stream losslessly", "statement": "For the selected instance the to-device file is the concatenation of the first (len & 0x7f) data bytes of the messages whose len has bit 7 set, and the from-device file of those without, in order.", "quantifier": "every gps_dump dataset", "why_tests_cant": "all message sequences", "anchors": ["pyulog/extract_gps_dump.py:main"]}
{"id": "C32", "title": "Parameter export lists every parameter once", "statement": "ulog_params (csv) prints one line per parameter in ascending name order with its initial value followed by its changed values in time order (without --initial).", "quantifier": "every parameter set and change history", "why_tests_cant": "all histories", "anchors": ["pyulog/params.py:main"]}
{"id": "C33", "title": "Log message listing", "statement": "Log level bytes '0'..'7' map to the eight syslog names and all others to UNKNOWN; a timestamp is printed as h:mm:ss with 0<=mm,ss<60 and 3600h+60m+s equal to the whole seconds.", "quantifier": "every level byte, every timestamp", "why_tests_cant": "256 levels, 2^64 timestamps", "anchors": ["pyulog/core.py:ULog.MessageLogging.log_level_str", "pyulog/messages.py:main"]}
{"id": "C34", "title": "Event extraction", "statement": "get_logged_events returns the events in dataset order, drops exactly those with external log level >= 8 and those whose group is not 'default', and reports an event without definition as unknown with its id.", "quantifier": "every event dataset and every parser", "why_tests_cant": "all datasets x all definition files", "anchors": ["pyulog/px4_events.py:PX4Events.get_logged_events", "pyulog/px4_events.py:PX4Events._get_event_parser"]}
{"id": "C35", "title": "RC channel mapping names", "statement": "get_configured_rc_input_names(c) returns exactly the parameters RC_MAP_X with value c+1, in parameter order, and None when there are none.", "quantifier": "every parameter dictionary and channel", "why_tests_cant": "all dictionaries", "anchors": ["pyulog/px4.py:PX4ULog.get_configured_rc_input_names"]}
{"id": "C36", "title": "KML track thinning and mode segments", "statement": "The exported track keeps a subsequence of the positions whose consecutive timestamps differ by more than the minimum interval, and a new segment is started for every flight mode change that has been reached.", "quantifier": "every position sequence and every list of mode changes", "why_tests_cant": "all sequences", "anchors": ["pyulog/ulog2kml.py:_kml_add_position_data"]}
{"id": "C37", "title": "ROS2 topic names are unambiguous", "statement": "Different (name, multi_id) datasets are written to different ROS2 topics.", "quantifier": "every data_list", "why_tests_cant": "all name sets; collisions are rare", "anchors": ["pyulog/ulog2ros2bag.py:convert_ulog2ros2bag"]}
{"id": "C38", "title": "Database round trip", "statement": "Saving a log with DatabaseULog.save and loading it (lazy=False) from any later database state that still contains it gives an equal log.", "quantifier": "every storable log and every history of other saves and deletes", "why_tests_cant": "all logs x all database histories", "anchors": ["pyulog/db.py:DatabaseULog.save", "pyulog/db.py:DatabaseULog.load"]}
{"id": "C39", "title": "A log is stored at most once", "statement": "In every reachable database no two stored logs have the same SHA256 digest or primary key; save on a digest that is already stored raises KeyError, leaves the database unchanged and makes primary_key point to the stored log.", "quantifier": "every history of save/delete", "why_tests_cant": "all histories", "anchors": ["pyulog/db.py:DatabaseULog.save", "pyulog/db.py:DatabaseULog.primary_key_from_sha256sum"]}
{"id": "C40", "title": "delete removes exactly one log", "statement": "delete() removes the log and every row that belongs to it and no row of any other log; afterwards the primary key does not exist and every other log still loads with the same content.", "quantifier": "every reachable database", "why_tests_cant": "all histories; orphan rows are invisible to the API tests", "anchors": ["pyulog/db.py:DatabaseULog.delete", "pyulog/sql/pyulog.2.sql"]}
{"id": "C41", "title": "save is all-or-nothing", "statement": "If save fails at any statement the database is unchanged and the object can be saved again.", "quantifier": "every failing statement", "why_tests_cant": "every crash point", "anchors": ["pyulog/db.py:DatabaseULog.save"]}
{"id": "C42", "title": "Lazy loading returns the same dataset", "statement": "get_dataset on a lazily loaded log returns the same dataset as an eager load, whatever sequence of get_dataset calls was made before, and a cache hit returns the cached object.", "quantifier": "every sequence of get_dataset calls", "why_tests_cant": "all call histories", "anchors": ["pyulog/db.py:DatabaseULog.get_dataset"]}
{"id": "C43", "title": "Migrations run once and in order", "statement": "migrate_db executes exactly the scripts version+1..SCHEMA_VERSION in ascending order and records each; a second run does nothing; noop executes nothing; an unversioned existing database is refused unless force; a missing or malformed script stops before executing it with all earlier ones recorded.", "quantifier": "every start version, every script directory, every failure point", "why_tests_cant": "all versions and failure points", "anchors": ["pyulog/migrate_db.py:migrate_db", "pyulog/migrate_db.py:_read_db_schema_version", "pyulog/migrate_db.py:_read_migration_file"]}
{"id": "C44", "title": "An interrupted migration can be resumed", "statement": "If the process dies at any point during migrate_db, running it again brings the database to the same final state as an uninterrupted run.", "quantifier": "every crash point", "why_tests_cant": "crash points between COMMIT and the version update", "anchors": ["pyulog/migrate_db.py:_read_migration_file", "pyulog/migrate_db.py:migrate_db"]}
{"id": "C45", "title": "The digest covers the whole file", "statement": "calc_sha256sum hashes exactly the bytes of the file once each and in order, whatever its length relative to the 4096-byte blocks.", "quantifier": "every file", "why_tests_cant": "all lengths", "anchors": ["pyulog/db.py:DatabaseULog.calc_sha256sum"]}
{"id": "C46", "title": "A malformed data-section message does not lose later messages", "statement": "A message in the data section that is too short for its type affects only itself: the messages that follow are still loaded.", "quantifier": "every file", "why_tests_cant": "all positions of a malformed message", "anchors": ["pyulog/core.py:ULog._read_file_data"]}
{"id": "C47", "title": "Trailing padding bytes are accepted", "statement": "A data message that carries the trailing _padding bytes of its format is accepted like one without them.", "quantifier": "every format with trailing padding", "why_tests_cant": "all formats", "anchors": ["pyulog/core.py:ULog._MessageAddLogged", "pyulog/core.py:ULog._MessageData.initialize"]}
{"id": "C48", "title": "Truncated definitions are reported", "statement": "A file that ends inside a definition message is never loaded as if it were complete: loading raises or sets file_corruption.", "quantifier": "every file, every cut point in the definitions", "why_tests_cant": "every crash point", "anchors": ["pyulog/core.py:ULog._read_file_definitions"]}
{"id": "C49", "title": "Logged text messages are kept in order", "statement": "logged_messages lists every logging message of the data section in file order with its level, timestamp and text, and logged_messages_tagged[tag] the tagged ones of that tag, and nothing else is added.", "quantifier": "every message sequence", "why_tests_cant": "all interleavings", "anchors": ["pyulog/core.py:ULog.MessageLogging", "pyulog/core.py:ULog.MessageLoggingTagged", "pyulog/core.py:ULog._read_file_data"]}
{"id": "C50", "title": "Float parameters survive the double representation", "statement": "A 32-bit float value read from a log (held as a 64-bit Python float) is written back with the same 32 bits, for every value that is not a signalling NaN.", "quantifier": "every 32-bit pattern", "why_tests_cant": "2^32 patterns", "anchors": ["pyulog/core.py:ULog._make_parameter_data", "pyulog/core.py:ULog._make_info_message_data", "pyulog/core.py:ULog._MessageInfo"]}
{"id": "C51", "title": "Info messages: the last value wins, with its type", "statement": "After loading, msg_info_dict[key] is the value of the last info message for that key in either section, msg_info_dict_types[key] its type, and keys without info message are absent.", "quantifier": "every byte string that loads", "why_tests_cant": "all interleavings of info messages in both sections", "anchors": ["pyulog/core.py:ULog._read_file_definitions", "pyulog/core.py:ULog._read_file_data", "pyulog/core.py:ULog._MessageInfo"]}
{"id": "C52", "title": "Only listed exceptions leave the constructor", "statement": "Loading any byte string either returns or raises TypeError (exactly for a bad header), struct.error, ValueError, NotImplementedError, OSError, RecursionError or KeyError; UnicodeDecodeError is raised only when string exceptions are enabled; IndexError never escapes.", "quantifier": "every byte string and configuration", "why_tests_cant": "all malformed inputs", "anchors": ["pyulog/core.py:ULog._load_file", "pyulog/core.py:ULog._read_file_definitions", "pyulog/core.py:ULog._read_file_data"]}
{"id": "C53", "title": "Two reads of a log compare equal", "statement": "ULog.__eq__ is an equivalence on the attributes it compares: loading the same file twice gives equal objects, except that a NaN in an info value, parameter or default makes them unequal.", "quantifier": "every byte string that loads", "why_tests_cant": "all logs", "anchors": ["pyulog/core.py:ULog.__eq__", "pyulog/core.py:ULog.Data.__eq__"]}
{"id": "C54", "title": "ulog2csv writes every dataset to its own file", "statement": "ulog2csv writes different (name, multi_id) datasets to different files, so that no file is overwritten.", "quantifier": "every data_list", "why_tests_cant": "all sets of names", "anchors": ["pyulog/ulog2csv.py:convert_ulog2csv"]}
{"id": "C55", "title": "Vehicle type and estimator names", "statement": "get_mav_type returns the MAVLink name of the initial value of MAV_TYPE and 'unknown type' for a missing or unlisted value; get_estimator returns EKF2 for fixed wing vehicles, else the estimator selected by SYS_MC_EST_GROUP, EKF2 when it is missing.", "quantifier": "every parameter dictionary", "why_tests_cant": "all values and types", "anchors": ["pyulog/px4.py:PX4ULog.get_mav_type", "pyulog/px4.py:PX4ULog.get_estimator"]}
{"id": "C56", "title": "Which event definitions are used", "statement": "PX4Events decodes the events of a log with the definitions embedded in the log when it has metadata_events and a usable metadata_events_sha256 (at most 64 characters, alphanumeric); otherwise with the default definitions, asked for once and kept; a failing download or decoding leaves the state as it was, so that the next log is decoded with complete definitions or none.", "quantifier": "every log and every sequence of logs", "why_tests_cant": "all info dictionaries, all outcomes of the download", "anchors": ["pyulog/px4_events.py:PX4Events._get_event_parser"]}
{"id": "C57", "title": "Every flight mode has a colour", "statement": "_kml_default_colors returns a colour for every flight mode number, negative ones like mode 0, and different colours for different modes.", "quantifier": "every integer", "why_tests_cant": "all nav_state values", "anchors": ["pyulog/ulog2kml.py:_kml_default_colors"]}
{"id": "C58", "title": "Bag messages carry the time of their row", "statement": "ulog2ros2bag writes the messages of each exported dataset in row order to the topic of the dataset, with the row's timestamp (microseconds) in nanoseconds.", "quantifier": "every data_list", "why_tests_cant": "all uint64 timestamps", "anchors": ["pyulog/ulog2ros2bag.py:convert_ulog2ros2bag"]}
{"id": "C59", "title": "The rosbag2 interface is chosen by version", "statement": "rosbag_topicmetadata_uses_id holds exactly for rosbag2_py versions from 0.25.0 on and rosbag_write_uses_seqnum exactly from 0.32.0 on, in the order of versions.", "quantifier": "every version", "why_tests_cant": "all version strings", "anchors": ["pyulog/ulog2ros2bag.py:rosbag_topicmetadata_uses_id", "pyulog/ulog2ros2bag.py:rosbag_write_uses_seqnum"]}
{"id": "C60", "title": "Bag messages carry the values of their row", "statement": "The ROS2 message built from row i of a dataset holds the row's value of every column in the attribute (or array element) named by the column, converted to bool where the ROS2 type is bool; attributes without column keep their initial value.", "quantifier": "every dataset, row and message type", "why_tests_cant": "all shapes", "anchors": ["pyulog/ulog2ros2bag.py:ros2_msg_from_ulg_topic", "pyulog/ulog2ros2bag.py:ros2ify_value"]}
{"id": "C61", "title": "Format definitions are read as written", "statement": "A format message is accepted exactly when its text is 'name:field;field;...' with fields 'type name' or 'type[size] name', and gives exactly that name and those types, sizes and names (including the leniencies of the parser: empty fields, text after a second colon, a missing closing bracket); after loading the format of a name is that of the last format message of the definition section with this name.", "quantifier": "every message text and every log", "why_tests_cant": "all texts, all integers as sizes (ASCII)", "anchors": ["pyulog/core.py:ULog.MessageFormat.__init__", "pyulog/core.py:ULog.MessageFormat._extract_type", "pyulog/core.py:ULog._read_file_definitions"]}
{"id": "C62", "title": "The constructor accepts file names and file objects", "statement": "DatabaseULog(db, log_file=f) gives the log of the file and its digest for every f that calc_sha256sum accepts: a file name, an open file and a closed file object.", "quantifier": "every file and argument kind", "why_tests_cant": "all files x all positions", "anchors": ["pyulog/db.py:DatabaseULog.__init__", "pyulog/db.py:DatabaseULog.calc_sha256sum"]}
{"id": "C63", "title": "load() can be called again", "statement": "Calling load() on a DatabaseULog that was loaded from the database leaves its attributes equal to the stored log.", "quantifier": "every stored log", "why_tests_cant": "all logs", "anchors": ["pyulog/db.py:DatabaseULog.load"]}
{"id": "C64", "title": "delete() and save() keep the log", "statement": "As the class documentation says, a stored log can be updated by delete() and save(): a log loaded from the database, deleted and saved again loads as before.", "quantifier": "every stored log, lazily or eagerly loaded, every database history", "why_tests_cant": "all logs x histories", "anchors": ["pyulog/db.py:DatabaseULog.delete", "pyulog/db.py:DatabaseULog.save", "pyulog/db.py:DatabaseULog.load"]}
{"id": "C65", "title": "The JSON column mirrors the data", "statement": "save(append_json=True) succeeds whenever save() does, stores the same rows and in addition, for every column, a JSON object from each timestamp to the value of the column at this timestamp.", "quantifier": "every log", "why_tests_cant": "all values including infinities", "anchors": ["pyulog/db.py:DatabaseULog.save"]}
{"id": "C66", "title": "A stored log can be written to a file", "statement": "write_ulog of a log loaded from the database writes the same file as write_ulog of the log that was saved; write_ulog of a DatabaseULog made from a file writes what ULog writes.", "quantifier": "every log and database history", "why_tests_cant": "all logs x histories", "anchors": ["pyulog/db.py:DatabaseULog.write_ulog", "pyulog/core.py:ULog.write_ulog"]}
{"id": "C67", "title": "Sync messages are counted", "statement": "After loading, the number of sync packets found in the file is the number of complete sync messages of the data section.", "quantifier": "every log", "why_tests_cant": "all logs", "anchors": ["pyulog/core.py:ULog._read_file_data"]}
{"id": "C68", "title": "Migration keeps the stored logs", "statement": "Migrating a database with the shipped scripts keeps every table, row, row order and value; only the timestamp columns converted by script 4 change, to the integer part.", "quantifier": "every database of versions 1 to 4 made by the scripts, with any rows", "why_tests_cant": "needs databases of every old version with arbitrary content; the scripts run inside SQLite with foreign keys on", "anchors": ["pyulog/sql/pyulog.2.sql", "pyulog/sql/pyulog.3.sql", "pyulog/sql/pyulog.4.sql", "pyulog/sql/pyulog.5.sql", "pyulog/migrate_db.py:migrate_db"]}
{"id": "C69", "title": "The migrated schema serves the database code", "statement": "After a successful migration, from any version, every table and column named in a statement of db.py exists, digests, datasets per log and keys are unique, a chain of cascading foreign keys leads from every table to ULog, and every foreign key column has an index.", "quantifier": "every start version and content for which the migration succeeds", "why_tests_cant": "schema drift between five scripts and thirty-five statements shows only in the version and statement that disagree", "anchors": ["pyulog/sql/pyulog.1.sql", "pyulog/sql/pyulog.2.sql", "pyulog/sql/pyulog.3.sql", "pyulog/sql/pyulog.4.sql", "pyulog/sql/pyulog.5.sql", "pyulog/db.py:DatabaseULog"]}
{"id": "C70", "title": "The summary of a log is exact and complete", "statement": "show_info prints, for every loaded log, the start time and duration in h:mm:ss, count, total, greatest and mean of the dropouts in exact arithmetic, every info message (perf_ messages only when verbose) and multi info message in ascending order of the keys, and one row for each dataset.", "quantifier": "every loaded log, verbose or not", "why_tests_cant": "floating point divisions, three sorted loops, columns that are looked up by name", "anchors": ["pyulog/info.py:show_info"]}
{"id": "C71", "title": "The table of datasets counts what was logged", "statement": "The row of a dataset shows the size of a sample, the number of data messages with a sample for its subscription and the bytes of these messages together; the rows are ordered by topic and, within a topic, by instance.", "quantifier": "every loaded log and dataset", "why_tests_cant": "the order key joins name and instance as text; the sizes come from the field list, the counts from the column", "anchors": ["pyulog/info.py:show_info"]}
{"id": "C72", "title": "A multi info message is shown without loss", "statement": "ulog_info -m shows all the lists stored under the name with their index, joins texts (separated by line ends with -n) and shows bytes as hexadecimal digits from which the bytes can be read back; other names give a message.", "quantifier": "every loaded log and every name", "why_tests_cant": "values can be text, bytes or numbers, in lists of any length", "anchors": ["pyulog/info.py:main"]}
{"id": "C73", "title": "ROS2 message type of a topic", "statement": "calc_msgtype gives a topic the message type that is the camel-case form of its name when px4_msgs has it, otherwise the type of the first matching entry of the table of exceptions, otherwise none; the camel-case form of a snake-case name is the name of its message.", "quantifier": "every ASCII topic name, every set of message types", "why_tests_cant": "24 regular expressions that overlap, greedy and lazy repetition, anchors, str.title with digits", "anchors": ["pyulog/ulog2ros2bag.py:calc_msgtype", "pyulog/ulog2ros2bag.py:to_camel_case"]}
{"id": "C74", "title": "Attitude angles are added to the right datasets and change nothing else", "statement": "add_roll_pitch_yaw adds the columns roll, pitch and yaw (with the suffix of the entry) to every dataset of the given topics, row by row from the quaternion of the row, leaves all other datasets and columns as they are, fails with KeyError exactly when a column of the quaternion is missing, and the log is written as before.", "quantifier": "every log, every list of entries for different topics, any arithmetic of the elements", "why_tests_cant": "datasets are changed in place, columns are addressed by composed names, field_data is not updated", "anchors": ["pyulog/px4.py:add_roll_pitch_yaw", "pyulog/px4.py:_add_roll_pitch_yaw_to_message"]}
{"id": "C75", "title": "The attitude angles describe the rotation of the quaternion", "statement": "In exact arithmetic the computed roll, pitch and yaw of the quaternion of a rotation by roll, pitch and yaw are these angles, and the rotation by the computed angles is the rotation of the quaternion, for every unit quaternion.", "quantifier": "all angles (roll and yaw in (-pi, pi], pitch between -pi/2 and pi/2) and all unit quaternions", "why_tests_cant": "a wrong sign or index in one of five products gives plausible angles; quadrants and the poles are special", "anchors": ["pyulog/px4.py:_add_roll_pitch_yaw_to_message"]}
{"id": "C76", "title": "Camera triggers become points", "statement": "Exporting a log with a camera topic adds one point for every row of its first instance, named with the sequence number and placed at the logged longitude, latitude and altitude in degrees and metres; without the topic there are no points.", "quantifier": "every log and every camera topic", "why_tests_cant": "all datasets and column layouts", "anchors": ["pyulog/ulog2kml.py:_kml_add_camera_triggers"]}
{"id": "C77", "title": "Every listed topic is exported", "statement": "convert_ulog2kml with a list of topics exports the track of every listed topic, in order, divided by the flight modes of the log, together with the camera triggers; loading only the needed topics does not change the tracks.", "quantifier": "every log, topic list and colours", "why_tests_cant": "all combinations of arguments and logs", "anchors": ["pyulog/ulog2kml.py:convert_ulog2kml"]}
{"id": "C78", "title": "Output files have the expected names", "statement": "ulog2csv writes one file <folder>/<name>_<topic>_<instance>.csv per dataset and ulog_extract_gps_dump two files <folder>/<name>_<instance>_{to,from}_device.dat, where name is the file name without its ending .ulg in any case and folder is the given output folder, or the folder of the log for ulog2csv and the current one for the GPS dump; the bag of ulog2ros2bag is named rosbag_<name> unless a name is given.", "quantifier": "every path of a log, every output folder, every log", "why_tests_cant": "paths with any number of folders, endings in both cases, names that consist of the ending only", "anchors": ["pyulog/ulog2csv.py:convert_ulog2csv", "pyulog/extract_gps_dump.py:main", "pyulog/ulog2ros2bag.py:convert_ulog2ros2bag"]}
{"id": "C79", "title": "Chosen messages are converted as in the whole log", "statement": "ulog2csv -m and ulog2ros2bag -m with names separated by commas convert exactly the topics with these names, and what is written for them (file names, contents, ROS2 topics, messages) is the same as without the choice.", "quantifier": "every file (without reused ids), every list of names", "why_tests_cant": "all files and choices; the ROS2 topic name depends on the other datasets", "anchors": ["pyulog/ulog2csv.py:convert_ulog2csv", "pyulog/ulog2ros2bag.py:convert_ulog2ros2bag"]}
{"id": "C80", "title": "Tools that load only some messages print what the whole log contains", "statement": "ulog_extract_gps_dump (loading gps_dump), ulog_messages (loading event) and ulog_params --initial (loading nothing) give the same output as from the completely loaded log.", "quantifier": "every file (without reused ids), all options", "why_tests_cant": "times of changes come from the samples that are loaded", "anchors": ["pyulog/extract_gps_dump.py:main", "pyulog/messages.py:main", "pyulog/params.py:main"]}
{"id": "C81", "title": "The interleaving of the topics does not matter", "statement": "Two files that differ only in how the data messages of different ids and the text messages are interleaved (between two messages of another kind), with the same order within every id and among the texts, load as the same object.", "quantifier": "every file, every run of data and text messages, every rearrangement that keeps the order within the streams", "why_tests_cant": "the loggers write topics in any order; buffers, last_timestamp and the corruption flag are shared state", "anchors": ["pyulog/core.py:_MessageData.initialize", "pyulog/core.py:_read_file_data"]}
{"id": "C82", "title": "A failing write leaves a loadable log", "statement": "When write_ulog ends with an exception, the file is empty, or ends after the header, or is exactly the file of a log that is cut within its definitions or subscriptions: whole messages only, never a sample or a message, and (for a log that the round trip supports) it loads without error as the definitions that were written. If only a sample or message cannot be written, all definitions are there and no sample at all.", "quantifier": "every log object, every exception of the writer", "why_tests_cant": "all positions at which a value, a name or a sample cannot be encoded", "anchors": ["pyulog/core.py:write_ulog", "pyulog/core.py:_write_data_section"]}
{"id": "C83", "title": "Exactly which logs can be written", "statement": "write_ulog succeeds exactly for the logs whose numbers, texts and columns fit into the fields of a ULog file, and raises for all others. Of a log that was loaded from a file only the types of info messages, the kinds and sizes of parameters, the bits of default parameters, the timestamps of the topics and the char columns can prevent it; when it is loaded again the same log comes back.", "quantifier": "every log object with integer timestamps; every file that can be loaded", "why_tests_cant": "integers up to any size under float types, texts of any length, keys of 255 bytes, messages of 65535 bytes", "anchors": ["pyulog/core.py:write_ulog", "pyulog/core.py:_write_info_messages", "pyulog/core.py:_write_initial_parameters", "pyulog/core.py:_write_data_section"]}
{"id": "C84", "title": "Printed numbers stand for the logged values", "statement": "Every number that ulog2csv and ulog_params print reads back as exactly the logged value: the printed decimal number is closer to it than to any other float of its type (ties go to the even one), so different numbers (all NaNs alike) have different texts, and a csv file of a loaded dataset without texts, whose field names do not contain the separator, can be read back cell by cell. A float is printed with the fewest digits that read back, and the closest ones of these, with an exponent exactly below 1e-4 and from 1e16 on; printed bytes are a literal that denotes these bytes.", "quantifier": "all 2^64 and 2^32 bit patterns, all integers; every file that can be loaded; every separator that is no character of numbers", "why_tests_cant": "17 and 9 digits are just enough; neighbours of powers of two; subnormal numbers; notation with exponent", "anchors": ["pyulog/ulog2csv.py:convert_ulog2csv", "pyulog/params.py:main"]}
{"id": "C85", "title": "What a failing csv conversion leaves", "statement": "If convert_ulog2csv raises, the datasets before the failing one have the complete files of a conversion of these datasets, there are no files of later datasets, and the file of the failing dataset, if it was opened, consists of whole lines: nothing, the header, or the header and the first rows.", "quantifier": "every log object, every window, every exception", "why_tests_cant": "the file is open while the fields, the window and the texts are looked at", "anchors": ["pyulog/ulog2csv.py:convert_ulog2csv"]}
{"id": "C86", "title": "Coordinates and distances in KML files", "statement": "Positions logged as integers become the doubles nearest to the position in degrees and metres, from which the logged integers can be recovered; other positions are unchanged. Without an altitude offset the altitude is the same number; with one it is the float nearest to the exact sum. With the default interval of 0.1 s a point is used exactly when it is more than 100000 microseconds after the last used one, in spite of the rounding.", "quantifier": "every value of the columns, all bit patterns of floats, all distances of timestamps", "why_tests_cant": "0.1 is no binary fraction; the quotient is rounded; float32 altitudes stay float32; signs, zeros, infinities and NaNs", "anchors": ["pyulog/ulog2kml.py:_kml_add_position_data", "pyulog/ulog2kml.py:_kml_add_camera_triggers", "pyulog/ulog2kml.py:convert_ulog2kml"]}
{"id": "C87", "title": "Attitude angles of float32 quaternions", "statement": "For a logged float32 quaternion of length 1 (up to a few rounding errors) arctan2 and arcsin are called with finite floats within 1e-6 of the exact arguments of roll, pitch and yaw, and the pitch is a number.", "quantifier": "every quaternion of finite float32 components whose squares add up to at most 1 + 2^-20", "why_tests_cant": "every product, sum and difference is rounded; at a pitch of 90 degrees the argument of arcsin is at the edge of its domain", "anchors": ["pyulog/px4.py:_add_roll_pitch_yaw_to_message"]}
{"id": "C88", "title": "The verbose listing of multi info messages can be read back", "statement": "With --verbose, ulog_info prints every multi info message exactly once, in ascending order of the keys, and the printed lists denote exactly the logged values: a reader of Python list literals gets back every element (texts and bytes exactly, numbers as the logged numbers), whatever quotes, backslashes, control characters, brackets or commas the texts contain and whichever characters the Python at hand regards as printable.", "quantifier": "every file that can be loaded, every list of lists of values, every set of printable characters", "why_tests_cant": "both kinds of quotes in one text; characters above U+FFFF; separators inside texts; empty texts and lists", "anchors": ["pyulog/info.py:show_info"]}
{"id": "C89", "title": "The exception of a failing write names the obstacle", "statement": "If write_ulog raises, the log contains something that stands in the way of exactly this exception: struct.error for a number, key or message that is too big for its field, KeyError for an unknown type name or a missing column, TypeError for a value of the wrong kind, OverflowError for a number beyond the 32-bit floats, ValueError for a negative char, IndexError for missing flags, fields or rows. A log with such an obstacle is never written, and with obstacles of one kind the exception is of this kind. For a log that was loaded from a file only a few of them are left, never an IndexError.", "quantifier": "every log object whose timestamp columns are integers; every file that can be loaded", "why_tests_cant": "which exception a value raises depends on the order of the checks of struct.pack, bytes and chr", "anchors": ["pyulog/core.py:write_ulog", "pyulog/core.py:_write_info_messages", "pyulog/core.py:_write_default_parameters", "pyulog/core.py:_write_data_section"]}
{"id": "C90", "title": "The exception of a failing save names the obstacle", "statement": "DatabaseULog.save of a log that is not in the database succeeds exactly when nothing in the log stands in the way, and otherwise raises an exception for which there is a reason in the log: OverflowError for an integer outside 64 bits with sign, IntegrityError for two datasets with one name and multi id, KeyError for a missing type, column or timestamp, UnicodeEncodeError or ValueError for flags that are no characters, OperationalError for -inf with JSON columns. For the log of a file only the first two are possible without JSON columns.", "quantifier": "every reachable database, every log object, with and without JSON columns; every file that can be loaded", "why_tests_cant": "unsigned 64-bit timestamps and values from 2^63 on; datasets of one name in logs that were concatenated", "anchors": ["pyulog/db.py:save"]}
{"id": "C91", "title": "The exception of a failing load names the reason", "statement": "If loading a file raises, the reason is the one the exception stands for: TypeError for an invalid header; a definition message that is too short (struct.error), has a key without a space or with an unknown type (ValueError, KeyError), a text that is not UTF-8 (UnicodeDecodeError, only when errors are not ignored) or unknown incompatible flags (ValueError, NotImplementedError); OSError for a seek before the start of the file; a subscription of a format that is not defined (KeyError), nested too deeply (RecursionError) or with two columns of one name (ValueError); ValueError for an appended section beyond 2^63. A file with such a reason is never loaded, and a single message raises exactly the named exception.", "quantifier": "every byte string, every option, every state of the reader", "why_tests_cant": "IndexError in a definition and struct.error in the data section do not leave the reader; the choice between KeyError and RecursionError depends on the order of traversal", "anchors": ["pyulog/core.py:_load_file", "pyulog/core.py:_read_file_definitions", "pyulog/core.py:_read_file_data", "pyulog/core.py:_MessageAddLogged"]}
{"id": "C92", "title": "What a command line says", "statement": "A command line of options, file names and options, in the ways argparse allows (option strings, unique beginnings of long ones, letters bundled behind one dash, values in the same word, behind an equals sign or in the next word), gives every option of the tool the last value that is said for it, converted to its type, or the default, and the file names to the arguments in turn. Behind a -- every word is a file name.", "quantifier": "the declarations of all eight tools, every such command line of any length", "why_tests_cant": "negative numbers and a single dash are values; an option that occurs twice; file names that begin with a dash", "anchors": ["pyulog/extract_gps_dump.py:main", "pyulog/info.py:main", "pyulog/messages.py:main", "pyulog/migrate_db.py:main", "pyulog/params.py:main", "pyulog/ulog2csv.py:main", "pyulog/ulog2kml.py:main", "pyulog/ulog2ros2bag.py:main"]}
{"id": "C93", "title": "Which command lines are refused", "statement": "A refused command line ends with the exit code 2, and with 0 only if a word may ask for the help; -h and --help behind options always end with 0. Refused are: no file name where one is needed, more file names than arguments, a file name behind an option that follows the file names, an option without its value, a value that is no number or no directory, and a word with a dash that names no option.", "quantifier": "the declarations of all eight tools, every command line", "why_tests_cant": "the optional second file name of ulog_params; option strings of several letters behind one dash; words that begin with a dash behind --", "anchors": ["pyulog/extract_gps_dump.py:main", "pyulog/info.py:main", "pyulog/messages.py:main", "pyulog/migrate_db.py:main", "pyulog/params.py:main", "pyulog/ulog2csv.py:main", "pyulog/ulog2kml.py:main", "pyulog/ulog2ros2bag.py:main"]}
{"id": "C94", "title": "The tools do what their command lines say", "statement": "Every console program, started with a command line that it accepts and a log that can be read, does what the function behind it does for the values that the line gives last to the options with the documented names, or their documented defaults: the same files under the same names, the same text, the same exception. ulog_extract_gps_dump without --instance extracts instance 0 and ends with the status 0 if there are no messages and 255 for a wrong format; ulog_info with a message name prints that message; ulog_params writes to the second file name or the standard output; ulog2csv creates the output directory if it is missing.", "quantifier": "all eight programs, every accepted command line, every content of the file, every set of readable files and directories", "why_tests_cant": "options under different names in different tools (-i is --ignore, --initial or --instance); a directory that cannot be created; an instance that is no number; missing ROS2 packages", "anchors": ["pyulog/extract_gps_dump.py:main", "pyulog/info.py:main", "pyulog/messages.py:main", "pyulog/migrate_db.py:main", "pyulog/params.py:main", "pyulog/ulog2csv.py:main", "pyulog/ulog2kml.py:main", "pyulog/ulog2ros2bag.py:main"]}
{"id": "C95", "title": "What a program has done when it ends", "statement": "A program that refuses its command line has changed nothing. A program that ends with status 0 has written its complete output, or was asked for the help or had nothing to extract. A program that raises has written nothing. The status is 0, 1 (an exception), 2 (a refused command line) or, for ulog_extract_gps_dump only, 255.", "quantifier": "every run of the programs that write files", "why_tests_cant": "the output directory of ulog2csv is created before the log is opened; the files of ulog_extract_gps_dump are opened before the first row is read", "anchors": ["pyulog/extract_gps_dump.py:main", "pyulog/info.py:main", "pyulog/messages.py:main", "pyulog/migrate_db.py:main", "pyulog/params.py:main", "pyulog/ulog2csv.py:main", "pyulog/ulog2kml.py:main", "pyulog/ulog2ros2bag.py:main"]}
{"id": "C96", "title": "When ulog2csv and extract_message raise", "statement": "Converting a dataset raises only for one of these reasons, and each of them is enough: it has no column or no header named timestamp (KeyError, ValueError); the index of a character field is no number (ValueError); a bound of the window is not reached by any timestamp (IndexError) or too large for a float (OverflowError); a cell in the window has no element (KeyError, IndexError); a text contains an element that is no character before its end or its first NUL (ValueError, TypeError). Extracting a topic raises only if there is no such topic (AttributeError), no timestamp, a bound is not reached, or a cell is missing. For the datasets of a loaded log with named fields only bounds that are not reached and bytes of 128 and more in texts remain.", "quantifier": "every dataset and log, every window whose bounds are compared with the timestamps without rounding", "why_tests_cant": "a text that ends before a missing character; names that look like array elements; bounds of 309 digits; the order in which the reasons are found", "anchors": ["pyulog/ulog2csv.py:convert_ulog2csv", "pyulog/ulog2csv.py:get_fields", "pyulog/ulog2csv.py:read_string_data", "pyulog/extract_message.py:extract_message"]}
{"id": "C97", "title": "When the listing tools raise", "statement": "ulog_info on a loaded log raises TypeError exactly if the version is not a number, otherwise KeyError exactly if a topic has no field timestamp. ulog_info --message raises what the first list with an obstacle raises: TypeError for a part that is no text, or after bytes for a number, ValueError for a text after bytes. ulog_params raises only with -d: AssertionError without the flag for defaults, ValueError for an unknown kind. ulog_messages raises only in logs of PX4: what the events raise, or IndexError for an empty message. ulog_extract_gps_dump, with bytes in len and data, raises only KeyError, exactly if there are no timestamps or the length of a message of the instance counts more bytes than there are fields.", "quantifier": "every loaded log, every list of parts, every option", "why_tests_cant": "bit 7 of the length; topics without the column instance; an empty text after bytes; the order of the lists", "anchors": ["pyulog/info.py:show_info", "pyulog/info.py:main", "pyulog/params.py:get_defaults", "pyulog/messages.py:main", "pyulog/extract_gps_dump.py:main"]}
{"id": "C98", "title": "When ulog2kml raises", "statement": "Exporting one topic of a loaded log with the default colours raises exactly for one of these reasons: KeyError if there is no dataset of the topic with instance 0, or its first one lacks a longitude, latitude or altitude under both names or a timestamp; IndexError if the track reaches a flight mode of 18 or more; otherwise KeyError if the topic of the camera has a dataset that lacks a coordinate or seq. With other colours the error of the first mode without a colour is raised, in the order of the line strings, even if the line string has no point.", "quantifier": "every loaded log with integer modes and fixes and 64-bit times, every topic, every function of colours, every thinning", "why_tests_cant": "a mode that passes between two positions; a missing camera topic is no error; the colours come before the camera, the positions before the colours", "anchors": ["pyulog/ulog2kml.py:convert_ulog2kml", "pyulog/ulog2kml.py:_kml_add_position_data", "pyulog/ulog2kml.py:_kml_add_camera_triggers", "pyulog/ulog2kml.py:_kml_default_colors"]}
{"id": "C99", "title": "What the reader prints", "statement": "While it loads a file the reader prints, in this order: one line if the version is above 1; for every definition message of flag bits a line with the position if the message does not end where a first message of its size ends, and a line if it announces more than 40 bytes; one line for the first message of the definitions or the data whose key has no space, or whose format has no colon or a field without a name, unless the file was known to be corrupt before; for every id of data messages that has no subscription and was not filtered one line, at the first message. A log that is not marked as corrupt is loaded without any other line than those about version and flags. The converse fails: a log can be marked as corrupt without a line.", "quantifier": "every file, every configuration; no bound on the length", "why_tests_cant": "both corruption lines share one flag; ids are reported once per load, not per section; flag bits that are cut by the end of the file; lines printed before an exception", "anchors": ["pyulog/core.py:_read_file_header", "pyulog/core.py:_read_file_definitions", "pyulog/core.py:_read_file_data", "pyulog/core.py:_MessageData", "pyulog/core.py:_MessageFlagBits"]}
{"id": "C100", "title": "What the converters print", "statement": "ulog2csv announces exactly the files that it opens, in the order of the datasets, each with its number of rows, after the directory that it creates and the lines of the reader. ulog_extract_gps_dump announces its files exactly if it opens them, with a warning about dropouts if there are any, and otherwise says why it ends, with the status that goes with the reason. ulog2ros2bag prints one line for every topic that is not exported, with the reason, and at the end the numbers of topics and messages of the bag, unless it raises. ulog_migratedb names every script that is begun, and says that it is done exactly if there was no exception. ulog_messages reports the exception of the event parser exactly if there are events, and lists no event then.", "quantifier": "every loaded log, every window, every set of message types, every directory without curly brackets, every database and engine", "why_tests_cant": "the line of a file whose conversion fails; a window in which no or few rows are; topics that are skipped; scripts that fail; --noop", "anchors": ["pyulog/ulog2csv.py:main", "pyulog/ulog2csv.py:convert_ulog2csv", "pyulog/extract_gps_dump.py:main", "pyulog/ulog2ros2bag.py:convert_ulog2ros2bag", "pyulog/migrate_db.py:migrate_db", "pyulog/px4_events.py:PX4Events.get_logged_events"]}
{"id": "C101", "title": "The scripts come from the directory that is given", "statement": "For every directory and number the migration script that is read is the file pyulog.<number>.sql in this directory.", "quantifier": "every name of a directory, every number of a migration", "why_tests_cant": "a slash at the end of the name; curly brackets in the name, since str.format is applied to the path with the directory", "anchors": ["pyulog/migrate_db.py:_read_migration_file", "pyulog/migrate_db.py:migrate_db"]}
{"id": "C102", "title": "What --verbose changes", "statement": "A verbose run of ulog2ros2bag writes the same bag as a quiet one, and prints its lines in the same order behind an empty line; every other line begins with I: or D:. These are the machine, the version of the firmware, one line for every topic with its name in the log, its number of samples and its name in the bag, the type that is found, and one line for every field that the type has not, without index. Without the ROS2 packages both runs only name the missing packages.", "quantifier": "every loaded log, every set of message types, every order in which a set is listed", "why_tests_cant": "a version that is no number, for which only the verbose run raises; instances other than 0; array fields, which share a name; a run that raises in the middle", "anchors": ["pyulog/ulog2ros2bag.py:convert_ulog2ros2bag", "pyulog/ulog2ros2bag.py:main"]}
{"id": "C103", "title": "When ulog2ros2bag raises", "statement": "The conversion of a loaded log raises exactly if the run is verbose and the release of the software is no number, or else at the first dataset with an obstacle: it has no timestamps, even if it would be skipped, or it is exported and a column has no place in a new message of its type. The exception is that of the first such column: KeyError for a field without a name, AttributeError if the message has no such attribute, TypeError if the attribute is no array, IndexError if the array is too short. If all datasets have timestamps and named fields and the arrays of the types are long enough, there is no exception.", "quantifier": "every loaded log with timestamps of type uint64_t and plain field names, every set of message types, verbose or not", "why_tests_cant": "several datasets with obstacles, of which the first counts; a dataset that is skipped but has no timestamps; arrays that changed their length in px4_msgs", "anchors": ["pyulog/ulog2ros2bag.py:convert_ulog2ros2bag", "pyulog/ulog2ros2bag.py:ros2_msg_from_ulg_topic", "pyulog/ulog2ros2bag.py:main"]}
{"id": "C104", "title": "A rewritten log looks the same in the tools", "statement": "If a log is loaded, written with write_ulog and loaded from the new file, the command line tools give the same output for the new file as for the old one: ulog_info and ulog_info --message, ulog_params with every option, ulog_messages, ulog2csv, ulog2ros2bag, ulog_extract_gps_dump, extract_message and ulog2kml.", "quantifier": "every loaded log that can be written and comes back (C83), every option of the tools, no bound on the number of topics, samples and messages", "why_tests_cant": "samples or messages out of the order of time; values that the writer normalises; a log with a mark of corruption; a topic that is subscribed again; messages that end with a tab", "anchors": ["pyulog/core.py:write_ulog", "pyulog/info.py:show_info", "pyulog/params.py:main", "pyulog/messages.py:main", "pyulog/ulog2csv.py:convert_ulog2csv", "pyulog/ulog2ros2bag.py:convert_ulog2ros2bag", "pyulog/extract_gps_dump.py:main", "pyulog/ulog2kml.py:convert_ulog2kml"]}
{"id": "C105", "title": "A written file that is cut is the log up to a time", "statement": "If the file of write_ulog is cut anywhere after its subscriptions, it loads without exception, with all the definitions; every topic has its first rows and every kind of message its first messages, and there is a time such that everything that is there is not later and everything that is missing is not earlier. Exactly the samples and messages that are complete in the remaining bytes are there, a longer part never has less, and the log is not marked as corrupt.", "quantifier": "every log that can be written and comes back (C20), every position of the cut from the first message of the data on, no bound on the number of topics, samples and messages", "why_tests_cant": "a cut within a message; topics of which no sample is left; samples that were out of order in the log; data of several topics and messages at the same time", "anchors": ["pyulog/core.py:write_ulog", "pyulog/core.py:_make_data_items", "pyulog/core.py:_read_file_data", "pyulog/core.py:_load_file"]}
{"id": "C106", "title": "The tools on a file that is cut", "statement": "If a file of write_ulog is cut after its subscriptions, the tools show for it the begin of what they show for the whole file: each csv file of ulog2csv has the head and first lines of the file of the same name, extract_message returns the first rows (or raises AttributeError if none is left), ulog_params prints the same parameters with the first of their changes, ulog_info --message prints the same, ulog_messages prints the first lines, and ulog2ros2bag uses the same topic names.", "quantifier": "every log that is the part of another one up to a time, in the sense of C105; no bound on the number of topics, samples and messages", "why_tests_cant": "a topic of which no sample is left; several instances of a topic of which only the first is left; topics with the same csv file name; messages that end with a tab", "anchors": ["pyulog/ulog2csv.py:convert_ulog2csv", "pyulog/extract_message.py:extract_message", "pyulog/params.py:main", "pyulog/messages.py:main", "pyulog/info.py:main", "pyulog/ulog2ros2bag.py:convert_ulog2ros2bag"]}
{"id": "C107", "title": "A damaged sample stays in its sample", "statement": "If bytes of one sample in a file are damaged, other than its length, type and subscription id, the file raises the same exception as before or loads with the same contents: all other topics, all other rows of the topic, the messages, parameters, info entries, the order of parameter changes and dropouts with their durations and the mark of corruption are the same. If the timestamp of the sample is intact, so are the duration of the log and all times; the damage of a timestamp should not reach beyond its row either.", "quantifier": "every file of a header, definitions and complete messages without appended data, every position of the sample, every replacement of its bytes, no bound on sizes", "why_tests_cant": "a sample that is rejected anyway; a topic that is subscribed again later; the bytes of the timestamp, which determine the times of later messages", "anchors": ["pyulog/core.py:_read_file_data", "pyulog/core.py:_MessageData", "pyulog/core.py:Data"]}
{"id": "C108", "title": "A damaged message stays in its message", "statement": "If bytes of one logged message in a file are damaged, or bytes of a tagged message other than its tag, of a dropout, or of the value of a parameter change, the file raises the same exception as before or loads with the same contents, of which only this message, the duration of this dropout or this value may be another one. With disable_str_exceptions=False a text that is no UTF-8 keeps the whole file from being loaded.", "quantifier": "every file of a header, definitions and complete messages without appended data, every position of the message, every replacement of its bytes, no bound on sizes", "why_tests_cant": "a payload that is too short; text that is cut to fewer characters because bytes are dropped; strict decoding; values of type char[n]", "anchors": ["pyulog/core.py:_read_file_data", "pyulog/core.py:MessageLogging", "pyulog/core.py:MessageLoggingTagged", "pyulog/core.py:MessageDropout", "pyulog/core.py:_MessageInfo"]}
{"id": "C109", "title": "A lost message is missing, and nothing else", "statement": "If one readable message of the data is missing in a file (not the first one), the file raises the same exception as with it or loads with the same contents, without this logged message, dropout, parameter change or row. A topic of which the only sample is lost is missing. If the lost sample was not newer than the samples before it, all times are the same; a lost sample should not change the times of other messages at all.", "quantifier": "every file of a header, definitions and complete messages without appended data, every position behind the first message, no bound on sizes", "why_tests_cant": "the only sample of a topic; a topic that is subscribed again later; the newest sample, which dates later dropouts and parameter changes; a run that ends early because of another message", "anchors": ["pyulog/core.py:_read_file_data", "pyulog/core.py:_MessageData", "pyulog/core.py:Data", "pyulog/core.py:MessageLogging", "pyulog/core.py:MessageDropout"]}
{"id": "C110", "title": "A damaged or lost sample is one line of one csv file", "statement": "If the values of one sample are damaged, ulog2csv writes the same files as without the damage, but for one line of the file of its topic, and extract_message returns the same rows, but for one. If one sample is lost, this line or row is missing and all others are the same; a topic without other samples has no file, and extract_message raises AttributeError for it. ulog2csv should work on the damaged log if it works on the other one.", "quantifier": "every two loaded logs that differ in one sample, every number of topics and rows, every formatting of numbers, with no time limits, no bound on sizes", "why_tests_cant": "a damaged character above 127, for which chr raises and no further file is written; the only sample of a topic; two topics with the same file name", "anchors": ["pyulog/ulog2csv.py:convert_ulog2csv", "pyulog/ulog2csv.py:read_string_data", "pyulog/ulog2csv.py:get_fields", "pyulog/extract_message.py:extract_message", "pyulog/core.py:Data"]}
{"id": "C111", "title": "A damaged sample does not show in reports without samples", "statement": "If the values of one sample are damaged, ulog_info prints the same lines, but for the one with the duration, and the same duration if the last timestamp is the same. If a sample is damaged or lost, ulog_info --message prints the same, ulog_params prints the same unless it is asked for times that changed, and ulog_messages prints the same if the sample is no event.", "quantifier": "every two loaded logs that differ in one sample, every option of ulog_params, every formatting of values, every event parser, no bound on sizes", "why_tests_cant": "the duration when the timestamp of the sample is damaged; the order of the table; times of parameter changes with --timestamps; events, which are samples", "anchors": ["pyulog/info.py:show_info", "pyulog/params.py:main", "pyulog/messages.py:main", "pyulog/px4_events.py:get_logged_events"]}
{"id": "C112", "title": "A lost info message or parameter changes its key only", "statement": "If one info message, multi info message, parameter or default parameter is missing in a file, the file raises the same exception as with it or loads with the same contents, but for the entries with the key of this message in the dictionary for messages of its type; all other entries have the same values and order, and samples, messages, formats and times are the same. The same holds if the value of the message is damaged; if its key is damaged, the entries with the former and the present key may differ.", "quantifier": "every file of a header, definitions and complete messages without appended data, every position of the message in the definitions, or in the data behind the first message, every key, no bound on sizes", "why_tests_cant": "several messages with the same key; a default parameter for several defaults; continued multi info messages; a definition in the data section", "anchors": ["pyulog/core.py:_read_file_definitions", "pyulog/core.py:_read_file_data", "pyulog/core.py:_add_message_info_multiple", "pyulog/core.py:_add_parameter_default", "pyulog/core.py:_MessageInfo"]}
{"id": "C113", "title": "What the tools show of a lost info message or parameter", "statement": "If one info message, multi info message, parameter or default parameter is lost or has another value, ulog_params fails as before or prints the same but for what it prints for its key, ulog_info prints the same but for the line of an info message (unless it is the version) or the list of multi info messages, and the same if a parameter is lost; ulog_info --message prints another message as before; ulog_messages prints the same unless sys_name is lost; ulog2csv and extract_message write and return the same.", "quantifier": "every two loaded logs that differ in the entries with one key, every option, every formatting of values, no bound on sizes", "why_tests_cant": "the order of the keys; the last entry of a kind, with which a heading disappears; perf_ keys that are shown with --verbose only; defaults for the two kinds", "anchors": ["pyulog/params.py:main", "pyulog/info.py:show_info", "pyulog/info.py:main", "pyulog/messages.py:main", "pyulog/ulog2csv.py:convert_ulog2csv", "pyulog/extract_message.py:extract_message"]}
{"id": "C114", "title": "A lost subscription loses its topic, and no other data", "statement": "If one readable subscription is missing in a file (not the first message of the data) and no other subscription has its id, the file raises the same exception as with it or loads with the same contents without the dataset with this id. The datasets of all other topics, messages, info messages, parameters and the durations of dropouts are the same; a log that was corrupt stays corrupt. If there were samples with this id, the id is in the set of missing ids and the log is marked as corrupt, so that the loss does not go unnoticed. The last timestamp is not later than before.", "quantifier": "every file of a header, definitions and complete messages without appended data, every position of the subscription behind the first message, every number of samples before and behind it, every filter that wants the topic, no bound on sizes", "why_tests_cant": "samples of the topic before its subscription; a sample of the wrong size; a topic without samples, for which nothing is reported; a run that ends early because of another message; the times of dropouts and parameter changes, which are taken from the samples", "anchors": ["pyulog/core.py:_read_file_data", "pyulog/core.py:_MessageAddLogged", "pyulog/core.py:_MessageData", "pyulog/core.py:Data"]}
{"id": "C115", "title": "What the tools show of a lost subscription", "statement": "If the subscription of a topic is lost (as in C114), ulog2csv works if it worked before, for every time range, and writes the same files but for those of this topic, which are missing; extract_message returns the same rows for every other message and raises AttributeError for the lost one; ulog_info prints the same but for the warning about data corruption, the duration, and the lines of the lost topic in the table; ulog_params prints the same unless it is asked for times that changed, ulog_info --message prints the same, and ulog_messages prints the same unless the lost topic is the one of the events.", "quantifier": "every two loaded logs of which one lacks the datasets with one id, every time range, option and formatting of values, every number of topics, every event parser; for ulog2csv, no two topics have the same file name; no bound on sizes", "why_tests_cant": "the order of the table; two instances of one topic of which one is lost; the position of the warning line; a log that was corrupt before", "anchors": ["pyulog/ulog2csv.py:convert_ulog2csv", "pyulog/extract_message.py:extract_message", "pyulog/info.py:show_info", "pyulog/params.py:main", "pyulog/messages.py:main", "pyulog/core.py:get_dataset"]}
{"id": "C116", "title": "A definition that is written several times in a row counts once", "statement": "If a message of the definition section, other than a multi info message, is written several times in a row, the file loads to exactly the same object, or raises the same exception, as if it is written once. The same holds in the data section for info messages, default parameters, subscriptions and messages of unknown type. The other messages each add an entry to a list.", "quantifier": "every file of a header, definitions and complete messages without appended data, every position, every payload (also one that cannot be decoded), every number of repetitions, no bound on sizes", "why_tests_cant": "a default parameter for several defaults; a subscription that is filtered out; a payload that is skipped as corrupt; flag bits; a subscription that is repeated after its samples, which loses them", "anchors": ["pyulog/core.py:_read_file_definitions", "pyulog/core.py:_read_file_data", "pyulog/core.py:_add_parameter_default", "pyulog/core.py:_MessageAddLogged"]}
{"id": "C117", "title": "A lost format makes no difference, or raises", "statement": "If the only definition of a format is missing in a file, the file loads with the same contents without this format, or raises the same exception as with it, or raises KeyError; samples are never read with other fields. If no subscribed topic contains the format, at any depth, no KeyError is added. ulog2csv, extract_message, extract_gps_dump, ulog2ros2bag, ulog_info, ulog_params and ulog_messages give the same for the log without the format.", "quantifier": "every file of a header, definitions and complete messages without appended data, every position of the definition, every nesting of formats, every option of the reader, no bound on sizes", "why_tests_cant": "a format that is a field of a field of a topic; arrays of nested types; a subscription in the middle of the data; a format that refers to itself", "anchors": ["pyulog/core.py:_read_file_definitions", "pyulog/core.py:_read_file_data", "pyulog/core.py:_MessageAddLogged", "pyulog/core.py:_parse_nested_type"]}
