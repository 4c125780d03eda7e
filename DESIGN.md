# DESIGN: a Lean 4 model of jiangzhe/mybin

## Approach

The library is a MySQL client-protocol / binlog codec (`bytes-parser`, `mybin-core`), an async
connection layer (`mybin-async`) and two small binaries (`mybinlog`, `mybinmsg`). The model is a set
of total computable Lean functions, one per Rust function:

* a byte buffer (`Bytes`, `BytesMut`, `&[u8]`) is `List UInt8`;
* a reader `fn read_x(&mut self) -> Result<T>` is `P T := Bytes → R T`, where
  `R T` is `ok value rest | err e rest | panic | hang`; `rest` is what the caller's buffer holds
  afterwards, also after an error (Rust leaves a partially consumed buffer);
* an `async fn` on a connection is `M T := Conn → MR T`, where a `Conn` holds the bytes still to be
  received, the bytes sent so far, the packet number, the capability flags and the status;
* `panic` is an explicit value: slicing/indexing out of bounds, `unwrap` on `None`,
  `unimplemented!`/`unreachable!`, and integer overflow (the semantics of a build with overflow
  checks, i.e. `cargo build`/`cargo test`; a `--release` build wraps instead, see C109);
* `hang` marks a loop that repeats without changing its state;
* writers return the bytes they append;
* Rust integers are `Nat`/`Int` with explicit range predicates, casts (`as u8`) are `% 2^k`.

Layout of `lean/Verif`:

* `Model/` - the code, function by function, each definition citing file and lines;
* `Spec/` - the specifications: MySQL's wire formats as encoders (`Spec.le`, `Spec.lenEncStr`,
  `Spec.okPacket`, ...), servers as scripts of messages, SQL and JSON meaning, calendars, numerals.
  No module of `Spec` uses a function of the model to say what should happen; some use the model's
  data types;
* `Lemmas/` - auxiliary lemmas;
* `Props/` - the property theorems, each with an example that meets its hypotheses.

Where the code violates a property, the negation is proved with a witness (`_false`) and the
property is proved under the weakest hypothesis found (`_partial`).

## Plan per property

The theorems of each property are listed in MANIFEST.json. The suffix `_partial` marks a theorem that covers part of a property, `_false` one that refutes it for the stated case.

* **C01 Fixed-width integers round-trip** (proved) - model every read_*/write_* over `List UInt8`; prove read∘write = id by induction on the byte width (little-endian positional lemma).
  Outcome: all 16 fixed-width formats; f32/f64 as bit patterns.
* **C02 Fixed-width reads: positional value, exact consumption, failure leaves input intact** (partial) - same model, `R.err` carries the untouched input and the reported shortage; one theorem per width derived from a generic one; the f64 reader is proved to panic on 5..7 bytes (negation) and excluded from the main theorem.
  Outcome: all reads but read_le_f64, which panics on short input (C02_f64_false, exactly C02_f64_panic_iff).
* **C03 Signed reads are two's complement of the named byte order** (partial) - two's complement spec over `Int`; negations with witnesses for read_be_i24 and read_be_i40, theorem for all others.
  Outcome: all signed reads but read_be_i24 and read_be_i40, proved wrong (C03_be_i24_false, C03_be_i40_false; C03_be_iff says exactly for which bytes they are right).
* **C04 Length-encoded integers round-trip** (partial) - LenEncInt model; theorem for all n ≠ 251, negation at 251.
  Outcome: all n except 251, which is encoded as the NULL marker (C04_false, C04_iff).
* **C05 Length-encoded integer decoding agrees with the MySQL protocol definition** (proved) - independent spec function `Spec.lenEncInt` on bytes; equality for every input.
* **C06 Length-encoded strings round-trip** (partial) - theorem for all lengths ≠ 251, negation for every string of length 251.
  Outcome: all lengths except 251 (C06_false, C06_iff).
* **C07 read_len and read_until split the input without loss** (proved) - direct, by induction on the input.
* **C08 Async integer reads do not depend on how the stream is chunked** (proved) - poll-level state machine driven by an arbitrary list of transport answers; invariant by induction over the schedule.
  Outcome: every chunking of the source, including Pending and short reads.
* **C09 Async integer writes put exactly the encoding on the wire** (partial) - same machine for writes; negation with a two-step schedule; partial theorem for transports that accept all bytes at once.
  Outcome: holds for a sink that takes every byte at once; the future resends after a partial write (C09_false). C09_iff says exactly which transports get every integer, C09_sent what the others get.
* **C10 Bitmap indexing, marking and construction agree** (proved) - model bitmap.rs over `List UInt8`; get/set laws, from_iter/to_iter round trip.
* **C11 Message framing round-trips for every payload size** (proved) - send_msg/recv_msg as functions on the stream bytes; round trip by strong induction on payload length.
  Outcome: every message length and every packet size split.
* **C12 Packets on the wire are well formed and consecutively numbered** (partial) - packet list of send_msg and numbering; recv side; debug-mode overflow of the packet number is an explicit panic.
  Outcome: holds while the packet number does not pass 255; overflow panics (C12_false); C12_panic_iff says exactly when.
* **C13 A stream of messages is received message by message** (proved) - induction over the message list using C11.
* **C14 OK packet decoding** (proved) - protocol encoder as spec, decode∘encode = id for every flag set.
  Outcome: for the published layout; OK packets without the info string, as servers since 5.7 write them when it is empty, are errors on connections made with the default flags (C14_without_info); a login does not ask for that flag.
* **C15 ERR and EOF packet decoding** (proved) - same.
* **C16 Response dispatch is decided by the header byte** (proved) - first-byte dispatch functions; theorem for every message.
  Outcome: the ERR state of a handshake answer is returned inside the message: C16_handshake_err_state_false.
* **C17 Initial handshake decoding** (partial) - protocol encoder as spec; negation (panic) for auth data length < 8.
  Outcome: needs announced length >= 8 with SECURE_CONNECTION, panics otherwise (C17_short_auth_length_false, C17_panic_iff).
* **C18 Handshake response is decodable by the server under the flags it announces** (partial) - server-side parser written from the protocol grammar as spec; parse∘write = id.
  Outcome: needs PLUGIN_AUTH_LENENC, or SECURE_CONNECTION with short auth data, and no length 251; otherwise false (C18_nul_terminated_auth_false, C18_len_251_false).
* **C19 Command packets decode to what the caller asked** (partial) - server-side grammar for each command; parse∘write = id.
  Outcome: all commands; length-prefixed strings need < 256 bytes, exactly which packets are read as meant: the _iff theorems (C19_table_dump_false, C19_register_slave_false, C19_change_user_false).
* **C20 Command and column-type and event-type codes are one-to-one** (proved) - finite tables, total functions on all 256 byte values.
  Outcome: commands, column types and log event types.
* **C21 COM_BINLOG_DUMP and COM_BINLOG_DUMP_GTID round-trip** (proved) - model of both structs; round trip by induction on the sid list.
  Outcome: the readers accept any command code: C21_code_not_checked_false.
* **C22 COM_STMT_EXECUTE carries every parameter** (partial) - server-side parser as spec; parse∘write = id when value and type agree on NULL, negation otherwise.
  Outcome: all parameter lists whose types match their values (every API constructor does); a NULL of another declared type is not sent as NULL (C22_typed_null_false), strings of 251 bytes are damaged (C23_blob_251_false).
* **C23 Binary protocol values round-trip** (partial) - model of read_from/write_to; round trip per type; negations for the lossy variants.
  Outcome: decoding of every encoding proved; writing fails for 251-byte strings, negative zero time and timestamp read back as datetime (the _false theorems); C23_write_iff and C23_round_trip_iff say exactly which values are written and read back right.
* **C24 Binary rows: NULL bitmap and values line up** (partial) - encoder spec, induction on columns with the bitmap offset-2 lemma.
  Outcome: decoding and shape proved for all rows; no panic for rows without DOUBLE, which panics on 5-7 remaining bytes (C24_double_panics_false); C24_panic_iff says exactly which rows panic.
* **C25 Text rows decode column by column** (proved) - encoder spec, induction on columns.
* **C26 Result set iteration is complete, ordered and final** (proved) - result set state machine over a list of received messages; induction over rows and over histories.
  Outcome: text, binary and mapped result sets; any number of rows and calls.
* **C27 Errors sent by the server in place of a row are reported as errors** (partial) - negation with witness; partial theorem for the cases where it does hold.
  Outcome: text rows: an error, though not the one the server sent; binary rows: an ERR packet can be returned as a row (C27_binary_false).
* **C28 Event header decoding and event extents** (partial) - model of header/parse/skip; consumption theorem; negations for event_len < 19 (panic).
  Outcome: consumption is exact for every input; an announced length below 19 (23 with checksums) panics (C28_short_length_false; exactly which inputs panic: C86).
* **C29 A binlog file is walked event by event** (proved) - encoder for whole files as spec; induction on the event list.
* **C30 Checksum validation accepts exactly the matching events** (proved) - checksum function is modelled (reflected CRC-32); theorem for all inputs.
  Outcome: for announced lengths of at least 4; smaller ones panic, see C28.
* **C31 Checksum validation detects every short burst of corruption** (partial) - CRC-32 as a linear map over GF(2); injectivity of the shift-register step; burst theorem.
  Outcome: every burst that leaves the 4 bytes of the length field as they are; a burst in the length field can go undetected (C31_length_field_false).
* **C32 Format description event decoding** (partial) - encoder spec; negations (panics) for malformed FDE.
  Outcome: decoding and checksum setting proved; malformed payloads panic (C32_malformed_false; exactly which: C86).
* **C33 Decoded GTID sets are well formed** (proved) - invariant of the interval loop by induction; round trip.
  Outcome: for fewer than 2^57 servers and 2^58 intervals; larger announced counts panic (C33_huge_count_false).
* **C34 Table map decoding** (partial) - encoder spec; induction on columns.
  Outcome: every table map whose columns are of supported kinds; old TIMESTAMP, TIME, DATETIME and SET columns panic (C34_unsupported_false).
* **C35 Row events: every present column gets its own value** (partial) - encoder spec; induction on columns then rows.
  Outcome: every write, update and delete event with at least one logged column, values as in C37.
* **C36 Row event decoding always terminates without panicking** (partial) - no-panic fragment; negations: empty present bitmap loops forever, extra_data_len < 2 panics, ...
  Outcome: any bytes after a usable header; needs at least one logged column (C36_no_columns_false: endless loop), extra-data length of 2 or more and enough metadata (C36_header_false), and columns whose values cannot panic, which C36_value characterises exactly; C36_panic_iff and C36_update_panic_iff say exactly which payloads panic (C36_value_iff for one value), C36_endless_iff and C36_update_endless_iff which payloads never end.
* **C37 Binlog column values are decoded at their exact width** (partial) - consumption per type/metadata; negation for TIMESTAMP(n>0).
  Outcome: every column kind; TIMESTAMP drops and misaligns its fraction (C37_timestamp_fraction_false), DECIMAL and DATETIME as in C38 and C39.
* **C38 DECIMAL decoding preserves the value** (partial) - model of decimal.rs; value semantics over Int; negations for p-s multiple of 9 and zero padding.
  Outcome: values exactly when the number of integer digits is not a multiple of nine (C38_nine_digits_false, C38_decode_iff; C38_nine_digits_exact and C38_fraction_exact say what is read otherwise); a missing value reads as zero (C38_missing_false); text when no inner group of nine digits starts with a zero (C38_display_false; C38_display_iff is exact).
* **C39 TIME/DATETIME binlog decoding preserves the value** (partial) - packed integer encoders as spec; negation for negative TIME with fraction.
  Outcome: datetimes in full; times unless negative with a fraction (C39_negative_fraction_false; C39_time_iff is exact, C39_negative_exact says what they are read as); the zero datetime bytes panic (C39_zero_bytes_false).
* **C40 Generated INSERT/UPDATE/DELETE SQL assigns each column its own value** (partial) - transform model; negation when a column is absent; partial when all columns are present.
  Outcome: every event whose logged columns come before the columns that are not logged; otherwise columns are paired with wrong values (C40_insert_false). C40_insert_exact, C40_delete_exact and C40_update_exact say what the statements hold with any set of logged columns, C40_insert_iff, C40_delete_iff and C40_update_iff say exactly with which logged columns they are right for every row.
* **C41 sql_list renders exactly one statement per row with each placeholder substituted** (proved) - direct induction over fragments.
* **C42 String literals in generated SQL denote the original string** (partial) - MySQL string-literal lexer as spec; theorem for strings free of backslash/non-ASCII with quote, negations otherwise.
  Outcome: text that is UTF-8 without quotes or backslashes, or ASCII without backslashes, and every blob; a backslash changes the string (C42_backslash_false), a quote changes characters outside ASCII (C42_quote_false), and text that is not UTF-8 panics (C42_not_text_false, C42_panic_iff); C42_string_iff says exactly which strings survive.
* **C43 The DML printer prints at most the requested number of statements, only for matching tables** (partial) - `print_dmls` as a loop over the events of a stream; the log as a list of items (table map, rows, rotate) with the lines it should print (Spec/Dml.lean); induction over the log with the set of known tables as invariant; the limit as a prefix of the unlimited output.
  Outcome: the limit in full; the printed lines for logs with row events of version 2 in which an id keeps its table within a file and tables have supported columns. Row events of version 1 are not printed (C43_version1_false), an id that gets another table keeps the old one (C43_remap_false), an unwanted table with a SET or JSON column ends the run (C43_unwanted_false), the missing-key note is printed for keys of several columns (C43_key_false).
* **C44 mysql_native_password responses verify** (proved) - the hash is an arbitrary function of fixed output length; xor algebra.
  Outcome: for every hash function of the right size, so also for SHA-1 (Spec/Sha.lean).
* **C45 caching_sha2_password responses depend on the server nonce and verify** (partial) - negation (the nonce is never stored); partial for the scramble function itself.
  Outcome: the scramble is right for the nonce the plugin holds, but the plugin never gets the nonce of the server (C45_nonce_ignored_false, C45_false).
* **C46 Column lookup by name** (proved) - association-list model of the two hash maps.
  Outcome: for every lower-casing function and repeated names.
* **C47 Query event and status variables decode** (partial) - encoder spec; induction on the variable list.
  Outcome: all status variables but the over-16-databases marker, which is misread (C47_over_max_dbs_false, exactly C47_status_vars_iff); unknown keys are an error (C47_unknown_key).
* **C48 Other event payloads decode** (partial) - encoder specs.
  Outcome: every payload except raw file blocks, which are cut at the first NUL (C48_file_block_false), so that none is returned as it is (C48_file_block_never_false).
* **C49 Column definitions decode** (partial) - encoder spec.
  Outcome: columns of supported types; others such as JSON, ENUM and SET are errors (C49_unsupported_false).
* **C50 Preparing a statement consumes the whole response** (partial) - message-list machine; induction on counts.
  Outcome: definitions of supported types (C49).
* **C51 exec consumes the whole response** (partial) - message-list machine; negation for result-set responses, partial for OK/ERR.
  Outcome: OK and ERR responses; of several statements only the first answer is read (C51_more_results_false), result sets are read past their end (C51_result_set_false) and an empty message panics (C51_empty_message_false).
* **C52 exec_close always releases the statement** (proved) - model of exec_close over a response/sent trace.
* **C53 Binlog stream iteration** (partial) - message-list machine; induction.
  Outcome: events and the first end; a call after the end waits for another message instead of reporting the end (C53_after_end_false).
* **C54 JSON change records carry every column once** (partial) - map semantics over association lists; negation when a column is absent.
  Outcome: events whose logged columns come first and whose column names are distinct; otherwise false (C54_insert_false). C54_rows_exact and C54_insert_repeated say what the records hold otherwise, C54_update_exact for updates; C54_insert_iff, C54_delete_iff and C54_update_iff that they are right for every row exactly when the logged columns come first.
* **C55 Signed and unsigned integers render with the right sign** (proved) - integer rendering model with a numeral spec.
  Outcome: every integer type, from the binlog and as parameters, in SQL and JSON.
* **C56 Connecting** (partial) - `handshake` as a function of the stream; the server as a script of messages (Spec/Auth.lean); case per answer of the server.
  Outcome: mysql_native_password in full, ERR answers and unknown methods; caching_sha2_password only answers for the empty nonce (C45).
* **C57 Only capabilities the server offers are announced** (partial) - the flags of the response computed symbolically, compared with the offered ones; negation for a server that lacks one.
  Outcome: against servers that offer every flag the client uses; the flags are not reduced to the offered ones (C57_unoffered_false; C57_iff is exact).
* **C58 A request to switch the authentication method is followed** (partial) - switch request while connecting (negation: panic) and in `change_user` (theorem).
  Outcome: a switch request panics while connecting (C58_switch_panics_false); it works in change_user.
* **C59 The password is used only through its hashes** (proved) - two runs with passwords of equal digests are equal, by induction over the messages of an arbitrary server.
  Outcome: any server behaviour, as two runs with different passwords of equal digests; the client never sets up TLS.
* **C60 Changing the user** (partial) - `change_user` as a message loop; the server's grammar for what is sent, the native scramble of C44.
  Outcome: native password, direct OK, ERR and unknown methods; more data without a switch panics (C60_more_data_false) and caching_sha2 sends an extra message (C60_extra_message_false).
* **C61 Commands answered by OK or ERR** (proved) - one generic theorem for commands with an OK/ERR answer (`OkErrCommand`), instantiated for each command.
* **C62 Ping tells whether the server is alive** (partial) - `ping` on the server's answers; negation for ERR.
  Outcome: OK answers and closed connections; an ERR packet is read as an OK packet, so that ping succeeds (C62_err_false).
* **C63 Server statistics** (proved) - `statistics`: the text is returned iff it is UTF-8.
  Outcome: an ERR packet is reported as text that is not UTF-8, without its code.
* **C64 Listing the fields of a table** (partial) - `field_list` loop over definitions, induction over the column list.
  Outcome: columns of supported types (C49); a NULL default is returned as an empty string (C64_null_default_false).
* **C65 Session options** (partial) - `set_multi_stmts` against the protocol's numbering of the options; negation.
  Outcome: the operand is inverted: asking for multiple statements switches them off at the server and on in the client (C65_set_multi_stmts_false).
* **C66 Reading text values as Rust types** (partial) - decimal numerals as spec (`Spec.D`), conversion from text; induction over digits.
  Outcome: integers, strings and NULL in full; numbers other than 0 and 1 are read as false (C66_bool_false, exactly C66_bool_iff).
* **C67 Reading binary values as Rust types** (partial) - values of the binary protocol and the Rust type asked for, by cases on both.
  Outcome: same sign and a type at least as wide, narrower types are errors; with different signs values wrap silently (C67_sign_false), numbers other than 1 are false (C67_bool_false).
* **C68 Reading TIME values sent as text** (partial) - TIME text grammar as spec; split/parse lemmas; negations for `-00:` and odd fractions.
  Outcome: times with 0, 3 or 6 fractional digits that are not between -00:59:59 and 0; the sign of -00: is lost (C68_sign_false), with other numbers of digits a fraction is misread (C68_fraction_false); C68_time_iff says exactly which values are read right, C68_panic_iff which texts panic.
* **C69 Reading dates of the binary protocol** (partial) - calendar as spec (leap years, month lengths).
  Outcome: every calendar date; zero dates panic (C69_zero_date_false); C69_datetime_iff says exactly which values.
* **C70 Reading server and user variables** (partial) - query text and first row; composition of C25/C26 with the text conversions of C66.
  Outcome: names without quotes and backslashes; names are not escaped (C70_injection_false); C70_pattern_iff says exactly which names are matched as themselves.
* **C71 Setting server and user variables** (proved) - prepared `SET` statements; composition of C22, C50 and C52.
* **C72 Listing binlog files** (proved) - loop over rows; induction over the list of files.
  Outcome: when every row is a name and a size.
* **C73 Commands after a result set** (partial) - sequences of command runs on one connection; negation when rows are left unread.
  Outcome: when all rows have been read; rows left unread are taken as the answer to the next command (C73_dropped_false).
* **C74 Requesting a binlog stream** (partial) - `request_stream` as a sequence of exchanges (`Exchanges`), each composed from C70, C71 and C61; the dump command of C21; the first two events of C28/C32.
  Outcome: every request when the GTID mode is ON, otherwise positions below 2^32 without GTIDs; larger positions are cut (C74_position_false), GTIDs ignored (C74_gtids_false), masters without GTID_MODE refused (C74_no_gtid_mode_false), the checksum of the description event is not verified (C74_description_checksum_false), a short rotate event panics (C74_short_rotate_false), and neither the marker nor the type of the description event is looked at (C74_description_type_false).
* **C75 Receiving messages in pieces** (proved) - `recv_msg` as a state machine that is polled with a list of transport answers (Model/AsyncConn.lean); invariant relating the state, the unread bytes and the reader of C11; induction over the answers.
* **C76 Sending messages in pieces** (proved) - `send_msg` as a state machine; invariant: accepted bytes plus what remains are the packets of the message; induction over the answers.
  Outcome: for messages within the packet limit of C12.
* **C77 Abandoned operations** (partial) - the same state machines, dropped after some answers.
  Outcome: dropped before a byte was transferred (C77_drop_partial, C77_drop_send_partial); after one byte or more the next receive can return a message nobody sent, wherever the drop is (C77_drop_anywhere_false); dropped after a packet header the payload is read as packets (C77_drop_recv_false), and sent bytes are mixed with the next command (C77_drop_send_false).
* **C78 Malformed answers** (partial) - a compositional judgement "ends on every connection" over the client operations; induction on the unread bytes for the loops; where it fails, an equivalence between the panic and a specification of the stream (first message, nonce length).
  Outcome: with these exceptions, each shown to panic: a result that begins with an empty message or the byte 0xfb alone (C78_query_partial), an empty message before the OK of an execution (C78_exec_partial), a greeting that announces fewer than eight bytes of authentication data (C78_greeting), a request to switch the method while connecting (C58_switch_panics_false), an authentication packet numbered 254 (C78_packet_number_false), more data before a method is chosen (C60_more_data_false), a row of a prepared statement in which a DOUBLE is cut short (C78_binary_rows_iff says exactly when); memory for announced columns is not modelled.
* **C79 Values in generated statements** (partial) - Spec/Replay.lean says how a server reads a literal and what a column takes from it. Per column kind: the text made from the decoded value is read as a literal that the column takes as the value of the row. Dates: the calendar algorithm against counting days (Lemmas/Civil.lean).
  Outcome: all column kinds; DATETIME fractions are lost (C79_datetime_fraction_false), dates the calendar does not have panic (C79_zero_date_false, C79_date_panic_iff), BIT values of more than one byte are reversed (C79_bit_false), spatial values panic (C79_geometry_false); floats are those whose text is read back; limits of C37, C38 and C42.
* **C80 Generated statements are well formed** (partial) - Spec/Replay.lean has a reader of statements; induction over the columns shows that it reads the texts of C40 as the statement they were made from.
  Outcome: names without a backtick (C80_name_false, C80_column_name_false), logged columns first (C40), for DELETE and UPDATE at least one key column (C80_no_key_false).
* **C81 Replaying a log** (partial) - Spec/Replay.lean says what statements do to the rows of tables and what row events do. Per row: the condition on the key holds exactly in the rows with that key, assignments give the new row. Induction over the rows of an event and over the log; with C43, from the bytes of the stream.
  Outcome: all columns logged, rows known by a key without NULL (C81_null_key_false, C81_no_key_false), values of C79, names of C80, logs of C43.
* **C82 Choosing events by type** (proved) - `LogEventType::read_from` on a copy of the input, then `parse_event` or `skip_event`; induction over the events of the log, with C28 and C35.
  Outcome: for the event types the library reads.
* **C83 Values that cannot be written** (partial) - an equivalence per value between the panic and a condition on the value; lifted over rows and events; the conditions the decoder of C37-C39 guarantees.
  Outcome: exactly when a value is a date, time or datetime the calendar library has no value for, a BIT of more than eight bytes, text that is not UTF-8 without a quote, or a spatial value (C83_sql_value, C83_json_value); which of these decoding yields: C83_decoded.
* **C84 A whole session** (partial) - an inductive specification `Spec.Exchange` of one call by the documented protocol (what is said, what is answered, what the application has to get); each call refines it, by the theorems of C44-C73; composition and induction over the history. `Spec.Turn` adds the ways to read rows, exec_close, set_multi_stmts (the flags change), change_user (with the proof it sends) and errors in answer to queries.
  Outcome: C84_calls_partial covers all calls and answers but those for which the claim is false: rows not all read before the next call (C73_dropped_false), several result sets in one answer (C84_more_results_false), rows in answer to exec (C51_result_set_false), refused pings (C62_err_false), the operand of set_multi_stmts (C65_set_multi_stmts_false); columns of supported types (C49), change_user by mysql_native_password (C45).
* **C85 JSON change records** (partial) - Spec/JsonRead.lean says what a consumer reads in a record (base64 of RFC 4648, numbers, text of dates and times). Per column kind: the JSON form of the decoded value is read as the value of the row. Lifted over the columns by distinct names, and over the rows of an event with C35, C54 and C83.
  Outcome: all columns logged; without DATETIME fractions (C85_fraction_false), dates the calendar does not have (C85_zero_date_false), BIT values of more than eight bits (C85_bit_false), text that is not UTF-8, floats that are not finite (C83_json_value); C85_text_*: the same, read from the JSON text of the records (C100).
* **C86 Malformed log events** (proved) - for each decoder an equivalence between the panic and a condition on the bytes, stated by the layout (Props/C86.lean); compositional: a prefix of reads that cannot panic, then the step that can. Induction over columns, GTID entries and the messages of a stream.
  Outcome: exact conditions; decoding the rows of row events is C36; table maps of less than 2^61 bytes.
* **C87 The programs, from connection to end** (partial) - Model/Program.lean has the two programs over given servers. The login by C56, the files by C72, the stream by C43; the refusals by unfolding. Induction over the events for `mybinmsg`.
  Outcome: limits of C43 (the log) and C45 (the nonce of caching_sha2_password); a Unix socket in the configuration of mybinmsg panics (C87_unix_socket_false); the text of the list is C117, that of the dml command C114; that of the log of mybinmsg C127.
* **C88 What is said does not depend on the server** (proved) - a judgement "sends nothing" over everything that receives (induction on the unread bytes for the loops) and one "sends exactly this message", closed under sequencing; scripts of messages for the request of a stream; induction over the calls of a session and over the events of a log.
  Outcome: for calls that return: the bytes sent before a panic are not kept in the model (when calls panic is C78); names of tables without a zero byte for list_fields; what change_user says is C59 and C60.
* **C89 Reading dates and datetimes sent as text** (proved) - Model/TextTime.lean has the parsers of the calendar library for the three formats. The text MySQL sends (Spec/Calendar.lean) is scanned item by item; an invariant "what is returned exists" for arbitrary bytes.
  Outcome: the parsers of the calendar library (chrono) are part of the model, after their published source.
* **C90 Reading decimals** (proved) - Model/TextTime.lean has the parser of the decimal library; the digits are read as in C66, for any number of them.
  Outcome: the parser of the decimal library (bigdecimal) is part of the model; other texts than those of DECIMAL columns can panic (C90_exponent_panics).
* **C91 Setting up a request for a stream** (partial) - Model/Builder.lean has the setting methods as a fold over a list of calls. Induction over the calls from the end; the last value set is defined on the calls alone. The messages heard follow from C74.
  Outcome: the settings in full; what the server hears with the limits of C74 (positions cut to 32 bits and GTIDs ignored without GTID_MODE=ON).
* **C92 Text is UTF-8, exactly** (proved) - the model of the library check is compared with the UTF-8 encoder of Lean itself (Props/C92.lean): for each length of a character, arithmetic on its bytes; induction over the characters one way and over the check the other way.
  Outcome: the library check is part of the model.
* **C93 What arrives later changes nothing** (proved) - a relation between the result of a run and its result with more bytes (equal, or cut off and continued), closed under sequencing, handling errors and loops whose rounds use input (Props/C93.lean); induction over how the application is built, and over the events of a log for the two programs.
  Outcome: an application that treats the end of the stream as an ordinary error and goes on is left out; the bytes sent before a panic are not kept in the model.
* **C94 From an event to what it says** (partial) - Model/TypedEvent.lean has the conversion of an event to its type and the reading of its data; Spec/Says.lean says what an event of each type says and how it is written. Walk over the log by C29, then a case per type by the theorems of C32, C33, C47 and C48.
  Outcome: all 27 types but blocks of files, where the claim is false (C94_block_false), and query events with the marker for too many databases, where it is false (C47_over_max_dbs_false).
* **C95 Sent means on its way** (partial) - Model/Buffered.lean has the single writes of a message and a transport with a write buffer (as BufWriter). Induction over the writes: order is kept, and the buffer is empty exactly if the last write was as long as the buffer.
  Outcome: true for transports without a write buffer (C95_unbuffered_partial), false with one (C95_silent_false): the library never flushes; exactly when: C95_arrives_iff.
* **C96 Nobody waits for nothing** (partial) - A live session: the application of C93 with calls that stop where they wait (an end of what has arrived so far), the server answering in rounds, one message heard, one answer in any pieces. Induction over the history with the invariant that the messages heard are one more than the answers used; per call from C84 (exchange), C88 (one message per command) and the three rounds of setting a variable. Login, change of user and streams (C96_more): a run that would use up what is missing waits (from C93), message by message.
  Outcome: for the calls and answers of C84_session_partial; false for exec answered by rows (C96_exec_rows_false): it reads the whole answer and waits for more, and for next_event after the reported end (C96_after_end_false). Also login, change_user and binlog streams, each with the limits of C56, C60 and C74.
* **C97 Named flags mean what the server means** (partial) - Model/Flags.lean lists the constants of all bitflags types, Spec/Flags.lean the bits of the server. The tables agree by decide; a test of one bit is testBit for all values, a union by induction over the chosen names.
  Outcome: for all names but two column flags: NUM and PART_KEY are the wrong way round (C97_swapped_false).
* **C98 A log reads the same from a file and from the server** (proved) - The two readings are relations over the model of parse_event and next_event. A reader is shown to do the same with an event whatever follows it (AsIf, compositional), so that both take the same step at each event; induction over the events.
  Outcome: for logs of events with right length fields, any content; the stream from the answer to the dump command on.
* **C99 A parameter read back is the value that was given** (partial) - A model of ToColumnValue for each Rust type (Model/ToCol.lean); the command is decoded by the grammar of the server (C22), its values are laid out in a row in any encoding (C24), and each column is converted back (C67, C69, C90).
  Outcome: false for MyDateTime (no column of a binary row can be read as one), for years outside of 0 to 65535, for fractions finer than a microsecond and leap seconds, for a negative time of zero and for texts of 251 bytes: C99_*_false; all other values come back.
* **C100 The text of JSON change records** (proved) - A model of the serialisation that the derives and serde_json give (escapes, order of members), of base64 and of f32 as f64 (Model/JsonText.lean); a reader of RFC 8259 with white space, escapes and all numbers (Spec/JsonText.lean), shown not to depend on its bound; what is written is read back piece by piece. Together with C85: from the bytes of the log to what a consumer reads in the text.
  Outcome: assumed of the library: the text of a double (ryu) is a number with a fraction or an exponent that the consumer reads as the same double (proved of a model of ryu in C125).
* **C101 Room is asked for only for what has arrived** (partial) - The readers once more, with the sizes they pass to with_capacity and reserve (Model/Reserve.lean); C101_same shows that without the sizes they are the readers of the model. Bounds on single requests by following the reads that come before them, on their number by induction on the rows; families of inputs for which no bound holds.
  Outcome: the full statement is false of the code: eight bytes ask for any number of GTID entries (C101_gtid_false), nine bytes for any 32-bit number of column definitions (C101_columns_false), and the rows of an event together for the square of its length (C101_rows_false, C101_factor_false); proved: table maps, single rows of events and of results, messages; what is appended one by one is not counted.
* **C102 The configuration of the messenger program is followed** (partial) - Model/MsgConfig.lean has the whole configuration and the run for it; what is passed on is defined from the configuration alone (Spec.TableWanted, Spec.passedOn). The address by C87, the rest as counterexamples for every run.
  Outcome: the full statement is false of the code: the filters and the place are never looked at (C102_subscribe_false, C102_unwanted_false), nothing is passed on in any run (C102_notify_false), and a server behind a socket makes the program panic (C102_socket_false); proved: with a TCP address the program connects there as configured, and logs every event.
* **C103 Reading can go on where it stopped** (partial) - Spec/Resume.lean defines logs of several files, places in them and what a master sends from a place on, without the model. The bookmark is a function of the events the API returns. By induction over what was sent, with the invariant that the bookmark is a place from which the log reports what is still to be sent; then C53 and C74 for both readers.
  Outcome: false for a reader that does not name a file: the rotate event that says the name is thrown away by the request (C103_unnamed_false); and for files above 4 GiB, where positions in event headers are cut to 32 bits by the format (C103_large_false); proved for all other readers and logs.
* **C104 Transactions a reader names are not sent again** (partial) - Spec/Gtids.lean defines transactions, how a master reads a set of GTIDs and what it then sends, without the model. The set to name is a function of the events the API returns. By induction over the transactions, the settled part of any beginning of what is sent is made of whole transactions; the set named with them is missing exactly the rest; then C53 and C74 for both readers.
  Outcome: proved for masters whose gtid_mode is ON; with any other mode the set named is dropped without a word (C74_gtids_false). Ends of intervals are exclusive in a request and inclusive in the ranges decoded from an event: carried over as they are, the last transaction of each interval is sent again (C104_carried_over_false).
* **C105 A stream follows the log from file to file** (partial) - Spec/Files.lean defines a log of files with a checksum setting each and the messages that carry its events. Files with the setting of the first: C53 for their joined events. Files with the other setting: an event with a checksum is, byte for byte, an event without one whose payload ends with it; an event without one is read header first, then cut; C30 for validation. C105_exactly joins both: handed out as it is in the log iff the settings agree.
  Outcome: proved for files written with the checksum setting of the file the stream started with (C105_same_partial). For the other setting the claim is false of every event, and what happens instead is proved: C105_changed_false, C105_cut_false, C105_refused_false, C105_exactly.
* **C106 What is printed for a log does not depend on later changes to the tables** (partial) - C43 for two catalogues, that of the time of the log and that of the time of the reading. Equal for the tables of the log: C43, and congruence of what is to be printed, by induction over the log. Columns altered in type, length, default: the statements see only name, sign and key; two runs in lockstep over the log, as in C123. Columns added at the end: the zip of bitmap and columns; for whole runs with the lockstep of the altered ones. Dropped ones: the zip of columns and row. A table that is gone: the flow of C43 up to its announcement, then C61 and C64 for the refusal. Renamed: two runs over the same bytes.
  Outcome: proved for tables that have not changed (C106_same_partial), for every change of the columns that leaves their names, places, signs and keys as they are (C106_altered_partial: whole runs over any rows, up to and including errors) and for columns added at the end when the unused bits of the bitmaps are clear and the table does not get its first key in this way (C106_grown_partial per event, C106_grown_log_partial for whole runs). For other changes the claim is false, and what happens instead is proved: C106_renamed_false, C106_added_false, C106_first_key_false, C106_first_key_text_false, C106_dropped_false, C106_gone_false.
* **C107 How row changes are grouped into events does not matter for what is printed** (partial) - The run over a log as a recursion over its events (runLog), to which the run of the program is equal for every stream. Readers do not look beyond what they take, so a list of row images is read row by row, and the rows of one event are the rows of its parts. Statements are made row by row. Then an invariant that the announced columns of a table stay the same, and induction over the equivalence that splitting events generates. Limits by C43_limit.
  Outcome: proved for every regrouping, filter and limit when the first log is read to its end without an error and without a note (C107_grouping_partial). False for updates of tables without a key (C107_note_false) and for rows that cannot be written (C107_broken_false).
* **C108 Events of other types do not disturb a reader** (partial) - For the dml command: the run over a log (runLog of C107) is that over the events about rows, by induction over the log. For the parser and the stream: C29 and C53 for the types up to 38. Newer types: the header is refused after 13 bytes, from which the errors of parsing, skipping and next_event follow, and by induction over the events before it the end of the run.
  Outcome: proved for the types the library knows: C108_dml_partial for the program; C29_parse_event, C29_skip_same and C53_events say it of the parser and the stream. False for newer types: C108_unknown_false, C108_stream_false, C108_dml_false.
* **C109 Builds with and without overflow checks behave alike** (partial) - A second model of the functions that contain arithmetic which can overflow, and of their callers, with wrapping arithmetic and without the assertions (Model/Release.lean), and the same of the client and the programs (Model/ReleaseProgram.lean). Agreement unless the checked function panics, composed over binds, loops and sub-buffers. For messages, induction over the packets with numbers modulo 256. Where the checked build panics, the exact result of the other.
  Outcome: the same results unless the checked build panics: C109_mybinlog and C109_mybinmsg for the programs as a whole, with every world, C109_events_partial, C109_rows_partial, C109_text_partial for the library; complete for messages: C109_send, and for events that announce less than a header: C109_short_event. The second half is false: C109_event_false, C109_values_false, C109_format_false, C109_statement_false (a statement is printed where the other build panics).
* **C110 The printed statements mean the same in whatever session executes them** (partial) - A specification of what the settings of a session change (Spec/Session.lean): how a string literal is read, which instant a local time is, what 0 means in an AUTO_INCREMENT column. The text of every value of C79 is shown to have no backslash and only doubled quotes, so every session reads it alike; then by kind of column. For TIMESTAMP the stored instant is computed for every offset.
  Outcome: C110_value_partial: every value that C79 covers, in every session in UTC, and of every column but TIMESTAMP in every session; C110_no_escapes: strings with backslashes where they are ordinary characters. False for TIMESTAMP in every other time zone: C110_timestamp_false; for backslashes: C110_escapes_false; for 0 in an AUTO_INCREMENT column: C110_auto_increment_false. Time zones are fixed offsets.
* **C111 Lost, repeated and reordered packets are noticed** (partial) - The packets other than the last are any members of the original ones, in any order and number; that is a message again, and C11 says what is received. For answers, a ping whose answer has any number.
  Outcome: false: C111_packets_false, C111_stale_answer_false. What holds instead: C111_numbers_ignored (the numbers do not matter), with C11 (every run of packets that is a message is received as one).
* **C112 Every text can be exchanged** (partial) - The characters a character set has are a small specification; the texts are compared with their UTF-8 bytes character by character. The announced number is what the server reads from the login message of C56.
  Outcome: C112_texts says exactly which texts can be exchanged; the rest of the claim is false: C112_login_false. Shown for logging in by mysql_native_password; the number is the same constant for the other method (C56_caching_partial) and for change_user (C60).
* **C113 A prepared statement is executed with as many values as it has placeholders** (partial) - The request for the right number from C22; that the announced number of parameters is not used, by comparing two statements that differ in nothing else; the requests with no value and with one too many are computed and read by the server for its own number.
  Outcome: C113_right_number_partial for the right number, C113_none_given for none. The first half is false: C113_unchecked_false, C113_extra_false.
* **C114 What is printed for a log can be read back and executed** (partial) - A small specification of the two readers (Spec/Script.lean): lines, and how the mysql client divides a script at the semicolons outside of quotes and comments. The text of a literal, as the server reads it, is shown to leave the client outside of quotes, to have a newline only if its value has one, and to be ended by a newline; then the statements of C80 by their three shapes, and lists of them by induction.
  Outcome: C114_lines_iff: exactly the outputs without newlines in a line are read back by lines; C114_insert_partial, C114_delete_partial, C114_update_partial: the statements of C80 with names and values without a newline, and single statements with the client; C114_notes: notes with names without a newline are not sent; C114_note_text: what a note says. False: C114_newline_false, C114_client_false and C114_insert_client_false (every output of two or more statements), C114_note_false.
* **C115 An output cut short holds no change that was not logged** (partial) - The output is the text of C114 and a crash keeps any prefix of it. By induction on the lines the prefix is whole lines and a piece of the next. The readers of the specification (Spec/Sql.lean) are shown to be local: what they read does not depend on what follows the first byte they leave; so an INSERT, which ends with a parenthesis that is checked to be the end, has no piece that is a statement, and a piece of a DELETE or UPDATE names the same table. Witnesses for the conditions that are cut short.
  Outcome: C115_insert_partial: in full for inserted rows (names without backticks and newlines, values without newlines, as in C114); C115_delete_partial, C115_update_partial, C115_same_table: at most one further statement, of the same kind and table. C115_delete_false, C115_update_false: that statement can change other rows.
* **C116 What is printed is what was committed, transaction by transaction** (partial) - Transactions are specified from the documentation: an id event, the statement BEGIN, events that announce their tables before their rows, and the end (commit of the engine, COMMIT or ROLLBACK). Over the theorem for whole runs (C43) the printed lines split into those of the transactions, by induction on the log, and do not depend on earlier announcements. That the end makes no difference follows from C108. Whole runs of the program as witnesses for what fails.
  Outcome: C116_transactions_partial: in full for logs whose transactions are all committed and logged as rows, without a limit. C116_endings, C116_rolled_back_false: transactions rolled back are printed too; C116_limit_false: a limit cuts a transaction; C116_statements_false: changes logged as statements are not printed.
* **C117 The list of files tells every name and size** (partial) - The text of a list is modelled from the documentation of the Debug formatting of the standard library (Model/ListText.lean), with the table of printable characters as a parameter. A reader of string literals and entries is specified from the reference of the language (Spec/RustText.lean). Round trip by induction on the characters of a name and on the files; lifted to whole runs with C87.
  Outcome: C117_text, C117_clean: in full for the text of every list. C117_list_partial: for whole runs, with the limit of C87 for caching_sha2_password. The Debug formatting is library code and modelled from its documentation.
* **C118 A connection that is lost is reported** (proved) - A run with the full answer is compared with one with a prefix. By the incremental reading of C93 (induction on what an application does) a run that ends on the prefix otherwise than by the end of the stream ends in the same way on the whole and leaves the missing bytes unread, which contradicts that they were used. The programs by the same comparison.
  Outcome: C118_lost for every use of the API, C118_mybinlog and C118_mybinmsg for the programs. Streams that break while sending are in C128.
* **C119 An error of the server reaches the caller** (partial) - By cases on the calls of C84: a refusal of the first message of each is a turn of the documented protocol with that error as its outcome, and each turn is what the model does. The places where the error is lost are stated for all errors: the result is one and the same.
  Outcome: proved for every call except ping and statistics (C119_calls_partial). False for a server that refuses the connection at once (C119_connect_false), errors in a stream of events (C119_stream_false), in the place of a row (C119_row_false, C27_binary_false), for statistics (C119_statistics_false), ping (C62_err_false) texts that are not UTF-8 (C119_text_false) and errors of the master in the place of the format description (C119_description_false). An error during login is reported in the text of another error, which the model leaves out (C56_refused).
* **C120 A reader has an identity of its own** (partial) - The announced ids are read off what the master hears in C74, with the id given or drawn.
  Outcome: proved for readers that were given an id; false for drawn ids (C120_drawn_false), and the id of the master is accepted (C120_given_false).
* **C121 Copies of a connection** (partial) - A relation between two connections with one stream and flags equal up to MULTI_STATEMENTS, which no reader tests, is kept by every step; every command resets the packet number and every answer sets it. Induction over the application (a tree of calls), the copies as a map from numbers to what each has for itself.
  Outcome: proved for all calls made one after another on copies that have the flags of the login (C121_copies_partial). False of a copy made before the login (C121_before_login_false) and of copies used at the same time (C121_at_once_false).
* **C122 The variable that is named** (partial) - A server with named variables that reads the sent text: the pattern of LIKE with its wildcards, and the target of SET. With C70 and C71, which say what is sent and what is done with the answer, the value is that of the first variable that matches, and the target is read off the text for all names.
  Outcome: proved for names that match no other variable, in particular all names without _ and % (C122_get_var_partial), and for setting names of letters, digits, _, $ and dots without a scope (C122_set_partial, C122_set_user_partial). False for names that match another variable, since _ is a wildcard (C122_other_false), for names with other characters (C122_set_user_false, C70_injection_false) and names that begin with a scope (C122_set_scope_false).
* **C123 Filters choose and change nothing** (partial) - Two runs of the program over the same log, with and without filters, simulated event by event: the tables each run keeps are related to the announced tables (Keeps of C43), so a row event of a wanted table gives the same lines in both, and one of another table gives none in the filtered run. Each line is shown to name the table of its event. The rows themselves may be anything.
  Outcome: proved for logs whose announced tables the library can read and whose table ids keep their meaning within a file (C123_filters_partial). Outside these the claim is false: the announcement of a table that no filter lets through can end the run (C43_unwanted_false), and a table id that is reused keeps its first meaning (C43_remap_false).
* **C124 Queries and prepared statements give the same values** (partial) - A value of the server is given once, with its text in the text protocol and its bytes in the binary protocol written down independently. Both rows are decoded (C24, C25) and both conversions are run. Where they agree is proved as an exact condition for each pair of a column and a type made for it, and the four kinds of disagreement as theorems of their own.
  Outcome: the exact condition for agreement is proved for all rows, values and types made for their columns (C124_rows_partial, C124_column_iff). It is false of the code for integer types narrower than the column and MEDIUMINT as i32 (C124_narrow_false), unsigned columns as signed types (C124_sign_false), dates that do not exist (C124_date_false), MyDateTime (C124_my_date_time_false), and TIME values whose text is misread (C68). Floats are in C125.
* **C125 Floating-point numbers survive as text** (partial) - The texts of floats (shortest digits that are read as the same float) and the reading of numerals (nearest float, ties to even) are modelled for all bit patterns and numerals. Values are rational numbers in the specification, and the nearest float is defined there by distances to all floats. Proved: that 17 digits are enough, that the digits lie in the interval of the float, how many digits there are, and with these the round trips through SQL literals (instances of C79, C81 without assumptions about floats), JSON text (C100) and query results.
  Outcome: JSON records: every finite double (C125_json, C125_json_text). Query results: every numeral (C125_query_double, C125_query_float, C125_query_binary). SQL: every FLOAT but a negative zero and the two largest, every DOUBLE but a negative zero that is zero or between 1e-48 and 1e64 (C125_sql_value_partial, C125_sql_insert_partial and its kin, C125_log_partial for whole logs). Beyond that it is false of the code: C125_large_false, C125_small_false, C125_negative_zero_false, C125_largest_false, C125_query_float_false. Library functions are modelled from their documentation.
* **C126 Statements and records tell the same changes** (partial) - One event is decoded once; the statements are run by the server of C81 and the text of the records is read by the consumer of C100, both with the floats of C125. Both must give the changes of the event. Where the two differ is shown for whole events.
  Outcome: proved for all columns logged, rows known by a key and all values that can be written as SQL (C126_insert_partial, C126_delete_partial, C126_update_partial), which can all be written as JSON too (C126_json_of_sql). False for text with a backslash (C126_backslash_false) and for a negative zero (C126_negative_zero_false): there the record is right and the statement is not.
* **C127 The log of mybinmsg tells every file and event** (proved) - The text of the derived Debug is modelled with that of Bytes and of the flags. A separate reader, written from the syntax of Rust, takes byte string literals, names, numbers and flags apart; reading the text must give the event, for every event the parser can deliver and for whole runs. What PhantomData prints after its name differs between versions of the standard library and is a parameter.
  Outcome: events (C127_event, C127_different), whole runs against any server (C127_log, C127_one_line, C127_count), and against a server that lists files and sends events, in terms of what the server encoded (C127_server). Flags the library has no name for are dropped when the event is parsed, so the log does not tell them (C127_flags_lost). The text of Debug is modelled from the documentation of the libraries; the prefix of env_logger and the messages of the libraries are left out.
* **C128 A connection that breaks while sending** (partial) - A second model of sending (Model/WriteFail.lean), write by write, on a stream that takes a number of bytes and then fails, and the calls on it. A relation between a call of the first model and its counterpart says that they agree if all bytes are taken and that the counterpart otherwise ends with the error having written exactly the bytes that fit; it is shown to be kept by sequencing, and so for all calls, and by induction for the loops of authentication and for sessions; a weaker relation, which allows for the dropped outcome of closing a statement, for streams of events and the programs. What the server can make of the bytes is said by the framing specification.
  Outcome: C128_call_partial, C128_after, C128_piece and C128_session_partial for calls and sessions, C128_login_partial, C128_change_user_partial, C128_stream_partial, C128_list_partial, C128_mybinlog_partial and C128_mybinmsg_partial: in full for connections that break while sending. The last sentence is false where the answer is lost instead: C128_unknown_false, the error is the same whether or not the server heard the statement.
* **C129 A log of several files is printed like its files one after another** (partial) - Two runs in lockstep over the events of a file, one that goes on and one of its own, which keep the same tables and differ in the helper connection and in what follows; the rotate event ends the one and empties the tables of the other. Induction over the files.
  Outcome: C129_files_partial, C129_limit_partial: for files with the same checksum setting (C105 says what happens otherwise), tables the library can read and table ids that keep their meaning within a file, as in C123.
* **C130 How row changes are grouped into events does not matter for their JSON records** (partial) - Every row of the events is decoded to one value whatever surrounds it (the lemmas of C107), and every record is made from its row alone: the records of the events of a grouping are those of all rows, by induction over the groups.
  Outcome: C130_rows_partial, C130_updates_partial: for rows the decoder reads at the right width (C37) and events that log the same columns. False for the records of single rows (C130_broken_false).
* **C131 A login proves the password for one challenge** (partial) - The loops of logging in and of changing the user, by induction over what is left of the input: with caching_sha2_password and without a password nothing follows the first message; with mysql_native_password every further challenge is answered, by induction over the challenges.
  Outcome: C131_login_partial: logins with caching_sha2_password, or without a password, say one message at most, whatever the server sends. False with mysql_native_password, when logging in (C131_login_false) and when changing the user (C131_change_user_false); the proof of caching_sha2_password is not for the challenge of the greeting (C45).
* **C132 Operations read whole messages** (proved) - A predicate on runs, closed under sequencing, error handling and loops, that holds of every operation: receiving takes one message (soundness of the receive loop), sending and decoding take nothing.
  Outcome: C132_whole_messages, for every application in the sense of C93.
* **C133 No more is printed than has arrived** (proved) - Every row takes a byte of its event (induction over the loop of the rows decoder), every event and every file takes bytes of the stream (C132), and the loops of the programs by induction over what is left of the input.
  Outcome: C133_mybinlog, C133_mybinmsg: the whole programs, for every server.
* **C134 What a program shows does not depend on the password** (proved) - A relation between runs: the same outcome and connections that differ only in what was sent. Every operation keeps it (it never reads what it sent), a message matters to the client only by its length, and the responses of the plugins have the same lengths; the loops by induction over what is left of the input.
  Outcome: C134_login, C134_change_user: the API; C134_mybinlog, C134_mybinmsg: the whole programs. C134_log: the text of the log. Whether there is a password can show (C134_empty_false), hence the restriction to non-empty ones.
* **C135 The random values of a run do not show** (proved) - As C134: the random values get only into messages whose lengths they do not change (the execution that sets the UUID, the registration and the dump command), and nothing the client does depends on the content of what it sent.
  Outcome: C135_stream: the API; C135_mybinlog, C135_mybinmsg: the whole programs; C135_log: the text of the log.
* **C136 What is printed comes from the servers** (proved) - As C134 and C135, with messages of different lengths that each fit into one packet: the packet numbers afterwards are the same, and so is everything that follows.
  Outcome: C136_stream: the API; C136_dml, C136_list, C136_mybinmsg: the whole programs; C136_log: the text of the log. File names below 2^22 bytes and the other texts below 2^23 bytes; empty passwords are excluded because of C134_empty_false.
* **C137 Going further only adds to the output** (proved) - Induction over the loop of the program for the two runs at once: the options make a difference only at a rotate event and at an end-of-file message, where the shorter run stops; the limit by C43_limit.
  Outcome: C137_mybinlog: the whole program, for all servers and options; C137_stream: the events of the API.
* **C138 Requests for different things are different** (partial) - Injectivity of the encodings: the fields are separated by the first NUL or by their fixed sizes, or are read back by the grammar of the server (C18). The code checks nothing, so names with a NUL and positions of more than 32 bits collide: proved for all of them.
  Outcome: names without NUL, positions below 2^32 without GTIDs, and with GTIDs all requests in range (C138_gtid_dump); a table name with a NUL is taken for another table and pattern (C138_field_list_false), a user name with a NUL for another user and another answer to the challenge (C138_login_false), and without GTIDs positions 2^32 apart and any transaction sets collide (C138_dump_false).
* **C139 Success is reported only for what has come to its end** (proved) - Backwards from the outcome: each place of the loop that ends without an error is shown to have just read a message with the marker of the end or the code of a rotation; the limit is reduced to the unlimited run (C43). The reads are joined over the login, the request and the events by the relation of C132.
  Outcome: both programs over TCP, and the operations of the library that execute statements and read rows and events (that the OK is the answer to this statement fails, see C51); a rotation is recognised by its marker and type code in the last message.

## Trusted base

* Lean's kernel (4.33.0), and the axioms listed per theorem at the end of this file: at most
  `propext`, `Classical.choice` and `Quot.sound`. No `sorry`, no `native_decide`, no `bv_decide`, no
  axioms of our own. `decide +kernel` is used for concrete cases and for finite tables; it is checked
  by the kernel.
* The reading of the Rust source recorded in the comments of `lean/Verif/Model/*`.
* The specifications in `lean/Verif/Spec/*`, written from the MySQL protocol documentation.
  `Spec/Replay.lean` describes another program: how a server reads and runs the three kinds of
  statements (default `sql_mode`, session time zone UTC, binary collations, rounding to floats as a
  parameter, uniqueness of keys not enforced by the copy).

### What is modelled

| Rust | Lean |
| --- | --- |
| bytes-parser/src/lib.rs (readers and writers), error.rs | Model/Parser.lean |
| bytes-parser/src/my.rs | Model/MyEnc.lean |
| bytes-parser/src/util.rs (async integers, at the level of polls) | Model/AsyncInt.lean |
| mybin-core/src/flag.rs, bitmap.rs | Model/Flag.lean, Bitmap.lean |
| mybin-core/src/packet.rs, resp.rs, handshake.rs | Model/Packet.lean |
| mybin-core/src/lib.rs, cmd/*.rs, quit.rs | Model/Command.lean, Stmt.lean |
| mybin-core/src/col.rs, row.rs (binary and text protocol) | Model/Column.lean |
| mybin-core/src/col.rs, time.rs, decimal.rs (binlog) | Model/BinlogCol.lean |
| mybin-core/src/binlog/{mod,header,fde,parser}.rs, util.rs (crc) | Model/Event.lean, Crc.lean |
| mybin-core/src/binlog/{gtid,query,rotate,intvar,rand,xid,user_var,incident,load}.rs | Model/EventData.lean |
| mybin-core/src/binlog/{table_map,rows_v1,rows_v2}.rs | Model/Rows.lean |
| mybin-core/src/stmt.rs, binlog/transform/{mod,sql}.rs | Model/Stmt.lean, Sql.lean |
| mybin-core/src/binlog/transform/json.rs | Model/Json.lean |
| mybin-core/src/resultset.rs, time.rs, util.rs (typed conversions) | Model/Convert.lean, TextTime.lean |
| mybin-async/src/conn.rs (packets, handshake, commands), auth_plugin.rs | Model/Conn.lean, AsyncConn.lean (polls), Auth.lean, ConnCmd.lean |
| mybin-async/src/{query,stmt,resultset}.rs | Model/Client.lean |
| mybin-async/src/binlog.rs | Model/Request.lean, Stream.lean |
| mybin-async/src/binlog.rs (setting up requests), mybin-core/src/cmd/binlog_dump.rs (setters) | Model/Builder.lean |
| mybin-core/src/stmt.rs (`ToColumnValue`), util.rs | Model/ToCol.lean |
| mybin-core/src/binlog/mod.rs (typed events), binlog/util.rs | Model/TypedEvent.lean |
| all `bitflags!` constants | Model/Flags.lean |
| mybinlog/src/mybinlog.rs | Model/Dml.lean (the dml command), Program.lean |
| mybinmsg/src/mybinmsg.rs, config.rs | Model/Program.lean, MsgConfig.lean |
| the text of statements, lists of files, messages of mybinmsg, JSON records | Model/DmlText.lean, ListText.lean, MsgText.lean, JsonText.lean |
| the whole of it once more as a release build (C109), and with the room it asks for (C101) | Model/Release.lean, ReleaseProgram.lean, Reserve.lean |

Library code behind it, from its documentation: floats as text and back (Model/Floats.lean, C125), UTF-8 (Model/Utf8.lean),
CRC-32 (Model/Crc.lean), a transport with a write buffer (Model/Buffered.lean, C95).

### What is not modelled

* Sharing and reference counting of `Bytes`, memory exhaustion (`Vec::with_capacity` of an announced
  count is modelled as a panic when the byte size passes `isize::MAX`).
* The async executor. The integer futures and the transfer of messages are modelled at the level of
  polls (C08, C09, C75-C77). The commands are modelled above that: a receive delivers the next message
  or an end-of-file error and a send delivers all packets, which C75 and C76 justify. Transport errors
  other than the end of the stream are left out there.
* Log output of the libraries (`log`, `dbg!`), the prefix of a log line, error message texts, and `Debug` formatting other than
  that of files and events (C117, C127).
* Constructors and setters that only store their arguments.
* Reading the arguments (`opts.rs`) and the configuration (`config.rs`), opening sockets and resolving
  names (the programs of Model/Program.lean get the bytes that come on each connection).
* Writes that fail are modelled below the commands (C76) and for the calls, sessions, logins, streams and programs (Model/WriteFail.lean,
  C128); in all other theorems a send delivers all packets.
* Release builds, in which integer overflow wraps instead of panicking, except in C109: `Model/Release.lean` has the
  functions in which the two builds differ and `Model/ReleaseProgram.lean` the client and the programs around them.

### Library behaviour that is assumed

* `crc_any::CRCu32::crc32` is CRC-32/ISO-HDLC (Model/Crc.lean gives the algorithm).
* `std::str::from_utf8` accepts exactly well-formed UTF-8 (Model/Utf8.lean).
* `chrono` constructors panic exactly on dates and times that do not exist; its formatting is
  modelled where SQL literals use it (Model/Sql.lean), its parser for the formats the conversions use
  (Model/TextTime.lean), and so is the parser of `bigdecimal`.
* Memory is not modelled, but for the sizes the decoders ask for in advance (Model/Reserve.lean, C101); growth by
  appending, and what happens when memory runs out, are not.
* `f32`/`f64` to text and back are parameters in most theorems and functions in those of C125 and C126 (Model/Floats.lean:
  shortest text that is read as the same float, nearest float with ties to even).
* `to_lowercase`, SHA-1, SHA-256 and regular expressions are
  parameters: the theorems hold for every such function (with the stated output sizes for hashes).
* `serde_json` objects are maps, written in the order of their names; its text, `base64::encode` and
  `f32 as f64` are modelled in Model/JsonText.lean.
* `str::parse` for integers is modelled (Model/Convert.lean); `str::trim_start` removes the white space of Unicode, listed there.

## Where the code differs from the claims

Every `_false` theorem is a disagreement between the code and the property as a user would state it.
They are listed per property above; the most serious are:

* strings of exactly 251 bytes and the number 251 are encoded as NULL (C04, C06, C23);
* a partial write of an integer resends bytes (C09);
* with `mysql_native_password` a client answers every further challenge a server sends with a proof for it (C131);
* `caching_sha2_password` ignores the server's nonce (C45); a switch request while connecting panics
  (C58);
* an ERR packet can be returned as a binary row (C27), or taken for a successful ping (C62);
* `set_multi_stmts` sends the opposite operand (C65);
* negative TIME values with a fraction, TIMESTAMP(n) and DECIMALs with nine integer digits are
  misread in the binlog (C37-C39);
* INSERT/UPDATE/DELETE statements and JSON records pair columns with wrong values when a column that
  is not logged comes before a logged one (C40, C54); strings with backslashes change (C42);
* variable names are not escaped (C70);
* after the end of a non-blocking stream another call waits for a message (C53);
* a time limit that drops a pending receive makes the next one read payload bytes as packets (C77);
* a row event without columns makes the decoder loop forever (C36);
* DATETIME fractions are lost in statements and BIT values reversed (C79); identifiers with backticks are
  not escaped (C80); statements for rows of tables without a key, or with NULL in a unique column, do
  not change the copy (C81);
* a stream uses the checksum setting of its first file for all others, so that after a change of the
  setting events lose the end of their payload or gain a checksum (C105).
* `mybinlog dml` asks for the columns of a table when it reads the log. If the table was changed after the log was
  written, values are printed for other columns, lost, or the statement is no SQL; if it was dropped, the run ends with
  the server's error (C106).
* An event of a type the library does not know ends a stream or a run with an error (C108).
* A release build does not panic where a build with checks does, but goes on with wrong numbers: events, values and a
  statement that changes other rows (C109).
* TIMESTAMP values are printed in UTC without saying so, and a 0 in an AUTO_INCREMENT column inserts another number (C110).
* Packet numbers are not looked at: packets that are lost, repeated or left over from another answer are taken (C111).
* The client asks for one character set whatever the texts are in (C112), and does not check the number of parameters (C113).
* A newline in a text breaks the line of its statement; the standard client stops or goes on at another place (C114). Cut off
  within its last line, the output of an UPDATE or DELETE can be a statement that changes other rows (C115).
* Transactions that were rolled back are printed, and a limit cuts a transaction in two (C116).
* Errors of the server are lost when it refuses the connection, in the place of the format description, within streams and
  rows, and by ping and statistics (C119). An event of any type is taken for the format description of a stream (C74).
* The id of a reader that draws one can be that of another, and the id of the master is accepted (C120).
* `get_var` treats `_` as a wildcard and can return another variable (C122).
* The same column read by a query and by a prepared statement gives different values, or an error from one of them (C124).
* A table without a key that gets one later: updates logged before are printed with an empty condition (C106_first_key_text_false).
* The error of a stream does not tell whether the server heard the request (C128).
* Floats below 1e-48 or above 1e64 are rounded to other numbers by the server, and a negative zero loses its sign (C125);
  the JSON records do not have these faults, so that records and statements of one event can differ (C126).

## Tests against wrong programs

`seeded/LOG.jsonl` records edits of the model in a scratch copy: the definition, the edit, the claim
it breaks and the theorems that failed. A claim counts as protected when a theorem of that claim (or
a lemma it rests on) fails.

## Axioms per theorem

Computed with `Lean.collectAxioms` for every theorem of MANIFEST.json. No theorem uses any other axiom.

* no axioms: C03_be_i40_false, C09_false, C09_false_pending, C33_duplicate_server, C41_plain, C94_convert
* `propext`: C01_slice_write, C02_f64_false, C02_f64_short_panics_false, C03_be_i24_false, C04_false, C04_markers, C06_false, C06_markers, C07_read_len, C138_field_list_partial, C16_change_user_response, C16_com_response, C16_eof_response, C16_handshake_message, C18_len_251_false, C18_nul_terminated_auth_false, C19_simple_commands, C19_string_commands, C19_table_dump_false, C22_constructor_values, C22_timestamp_micros_false, C23_blob_251_false, C23_negative_zero_time_false, C25_row_length, C32_malformed_false, C34_type, C34_unsupported_false, C38_missing_false, C39_zero_bytes_false, C46_by_index, C66_strings, C67_bool_partial, C67_null, C67_strings, C67_strings_exact, C69_my_date_time, C79_geometry_false, C90_other, C90_present
* `propext`, `Quot.sound`: C02_f64_panic_iff, C02_f64_partial, C09_overshoot_false, C101_same, C109_format_false, C109_rows_partial, C111_numbers_ignored, C111_packets_false, C113_unchecked_false, C11_recv_message, C11_recv_sound, C121_at_once_false, C124_not_optional, C127_flags_lost, C128_piece, C12_after_recv, C12_false, C138_field_list_false, C139_exec, C139_next_row, C139_query, C139_stmt_exec, C139_stmt_query, C13_stream_of_messages, C13_truncated, C20_command_codes, C20_event_types, C23_write_iff, C23_write_partial, C24_double_panics_false, C30_not_enabled, C31_length_field_false, C36_header_false, C36_no_columns_false, C38_display_false, C38_nine_digits_false, C39_negative_fraction_false, C44_hash_only, C45_answers, C45_scramble_partial, C47_over_max_dbs_false, C47_unknown_key, C53_completed, C66_bool_false, C66_bool_iff, C66_null, C66_unsigned, C67_narrow, C67_own_types, C79_date_panic_iff, C79_zero_date_false, C89_null, C90_underscore, C91_dump, C91_dump_gtid, C91_order, C91_request, C95_silent_false, C97_set_partial, C99_fraction_false
* `propext`, `Classical.choice`, `Quot.sound`: C01_fixed_width_round_trip, C02_unsigned_reads, C03_be_i24_actual, C03_be_i40_partial, C03_be_iff, C03_signed_reads_partial, C04_iff, C04_len_enc_int_round_trip_partial, C04_variant, C05_len_enc_int_decoding, C05_reencode, C06_iff, C06_len_enc_str_round_trip_partial, C07_read_until, C08_async_read_any_chunking, C08_async_read_completes, C09_async_write_partial, C09_iff, C09_sent, C100_text, C100_widen, C101_columns_false, C101_factor_false, C101_gtid_false, C101_log_partial, C101_message, C101_row, C101_rows_false, C101_total_partial, C102_connect_partial, C102_notify_false, C102_socket_false, C102_subscribe_false, C102_unwanted_false, C103_large_false, C103_resume_partial, C103_unnamed_false, C104_carried_over_false, C104_named, C104_previous, C104_resume, C105_changed_false, C105_cut_false, C105_exactly, C105_refused_false, C105_same_partial, C106_added_false, C106_altered_partial, C106_dropped_false, C106_first_key_false, C106_first_key_text_false, C106_gone_false, C106_grown_log_partial, C106_grown_partial, C106_renamed_false, C106_same_partial, C107_broken_false, C107_grouping_partial, C107_note_false, C108_dml_false, C108_dml_partial, C108_stream_false, C108_unknown_false, C109_event_false, C109_events_partial, C109_mybinlog, C109_mybinmsg, C109_send, C109_short_event, C109_statement_false, C109_text_partial, C109_values_false, C10_from_iter, C10_from_iter_to_iter, C10_index, C10_mark, C10_to_iter, C110_auto_increment_false, C110_escapes_false, C110_no_escapes, C110_timestamp_false, C110_value_partial, C111_stale_answer_false, C112_login_false, C112_texts, C113_extra_false, C113_none_given, C113_right_number_partial, C114_client_false, C114_delete_partial, C114_insert_client_false, C114_insert_partial, C114_lines_iff, C114_newline_false, C114_note_false, C114_note_text, C114_notes, C114_update_partial, C115_delete_false, C115_delete_partial, C115_insert_cut, C115_insert_partial, C115_lines, C115_same_table, C115_update_false, C115_update_partial, C116_endings, C116_limit_false, C116_rolled_back_false, C116_statements_false, C116_transactions_partial, C117_clean, C117_list_partial, C117_text, C118_lost, C118_mybinlog, C118_mybinmsg, C119_calls_partial, C119_connect_false, C119_description_false, C119_row_false, C119_statistics_false, C119_stream_false, C119_text_false, C11_round_trip, C120_drawn_false, C120_given_false, C120_given_partial, C121_before_login_false, C121_copies_partial, C122_first_match, C122_get_var_partial, C122_other_false, C122_set_partial, C122_set_scope_false, C122_set_user_false, C122_set_user_partial, C123_filters_partial, C124_column_iff, C124_date_false, C124_my_date_time_false, C124_narrow_false, C124_rows_partial, C124_sign_false, C125_digits, C125_json, C125_json_text, C125_large_false, C125_largest_false, C125_log_partial, C125_negative_zero_false, C125_query_binary, C125_query_double, C125_query_float, C125_query_float_false, C125_small_false, C125_sql_delete_partial, C125_sql_insert_partial, C125_sql_update_partial, C125_sql_value_partial, C126_backslash_false, C126_delete_partial, C126_insert_partial, C126_json_of_sql, C126_negative_zero_false, C126_update_partial, C127_count, C127_different, C127_event, C127_log, C127_one_line, C127_server, C128_after, C128_call_partial, C128_change_user_partial, C128_list_partial, C128_login_partial, C128_mybinlog_partial, C128_mybinmsg_partial, C128_session_partial, C128_stream_partial, C128_unknown_false, C129_files_partial, C129_limit_partial, C12_panic_iff, C12_sent_packets_partial, C130_broken_false, C130_rows_partial, C130_updates_partial, C131_change_user_false, C131_login_false, C131_login_partial, C132_whole_messages, C133_mybinlog, C133_mybinmsg, C134_change_user, C134_empty_false, C134_log, C134_login, C134_mybinlog, C134_mybinmsg, C135_log, C135_mybinlog, C135_mybinmsg, C135_stream, C136_dml, C136_list, C136_log, C136_mybinmsg, C136_stream, C137_mybinlog, C137_stream, C138_dump_false, C138_dump_partial, C138_gtid_dump, C138_login_false, C138_login_partial, C139_list, C139_mybinlog, C139_mybinmsg, C139_next_event, C14_null_info, C14_ok_no_panic, C14_ok_packet, C14_without_info, C15_eof_packet, C15_err_exact, C15_err_packet, C15_no_panic, C16_handshake_err_state_false, C16_no_panic, C16_well_formed_recognised, C17_initial_handshake_partial, C17_panic_iff, C17_short_auth_length_false, C18_handshake_response_partial, C18_server_reads_back_partial, C19_change_user_false, C19_change_user_iff, C19_change_user_partial, C19_field_list, C19_field_list_iff, C19_integer_commands, C19_register_slave_false, C19_register_slave_iff, C19_register_slave_partial, C19_table_dump_iff, C19_table_dump_partial, C20_column_types, C21_binlog_dump, C21_binlog_dump_gtid, C21_builder_flags, C21_code_not_checked_false, C21_interval_count_false, C21_range_count_false, C22_constructors_sound, C22_server_sees_parameters_partial, C22_typed_null_false, C23_bad_length, C23_read, C23_round_trip_iff, C23_round_trip_partial, C23_timestamp_false, C24_decode, C24_no_panic_partial, C24_panic_iff, C24_shape, C25_decode, C25_no_panic, C26_binary_collect, C26_binary_next_row, C26_map_rows, C26_query_all, C26_text_collect, C26_text_next_row, C27_binary_false, C27_text_err_partial, C28_event_length, C28_no_panic_partial, C28_parse_extent, C28_short_length_false, C28_skip, C29_file, C29_parse_event, C29_skip_same, C29_walk, C30_checksum_event, C30_parse_event, C31_burst_detected_partial, C31_stored_checksum, C32_decode, C32_no_panic_partial, C32_parser, C33_accepted_range, C33_accepted_set, C33_decode_range, C33_decode_set, C33_huge_count_false, C33_rejects, C34_data, C34_table_map_partial, C35_data, C35_rows_partial, C35_update_rows_partial, C36_endless_iff, C36_panic_iff, C36_rows_partial, C36_update_endless_iff, C36_update_panic_iff, C36_update_rows_partial, C36_value, C36_value_iff, C37_decode_partial, C37_enum, C37_timestamp_fraction_false, C37_width_partial, C38_decode_iff, C38_decode_partial, C38_display_iff, C38_display_partial, C38_fraction_exact, C38_nine_digits_exact, C39_datetime, C39_negative_exact, C39_old_time, C39_time_iff, C39_time_partial, C40_delete_exact, C40_delete_iff, C40_delete_partial, C40_delete_total, C40_insert_exact, C40_insert_false, C40_insert_iff, C40_insert_partial, C40_insert_placeholders, C40_insert_total, C40_update_exact, C40_update_iff, C40_update_partial, C40_update_total, C41_one_per_row, C41_sql_list, C42_backslash_false, C42_blob, C42_not_text_false, C42_panic_iff, C42_quote_false, C42_string_iff, C42_string_partial, C43_at_most, C43_first_file_partial, C43_key_false, C43_limit, C43_prints_partial, C43_remap_false, C43_rotation, C43_unwanted_false, C43_version1_false, C44_native, C44_native_bare, C45_false, C45_nonce_ignored_false, C45_rejected_false, C45_response_partial, C46_by_name, C46_never_wrong, C47_no_panic, C47_query, C47_status_vars_iff, C47_status_vars_partial, C48_begin_load_query, C48_execute_load_query, C48_file_block_false, C48_file_block_never_false, C48_file_block_partial, C48_file_id, C48_gtid, C48_incident, C48_intvar, C48_load, C48_new_load, C48_rand, C48_rotate, C48_user_var, C48_user_var_value, C48_xid, C49_column_def_default_partial, C49_column_def_partial, C49_definitions_partial, C49_no_panic, C49_unsigned, C49_unsupported_false, C50_prepare_err, C50_prepare_partial, C51_empty_message_false, C51_more_results_false, C51_query_exec_partial, C51_result_set_false, C51_stmt_exec_partial, C52_exec_close, C52_result_set_close, C53_after_end_error, C53_after_end_false, C53_end_partial, C53_events, C53_other_message, C54_delete_iff, C54_delete_partial, C54_forms, C54_insert_false, C54_insert_iff, C54_insert_partial, C54_insert_repeated, C54_rows_exact, C54_update_exact, C54_update_iff, C54_update_partial, C55_binlog_json, C55_binlog_sql, C55_column, C55_enum, C55_int24_param, C55_param_json, C55_param_sql, C56_caching_partial, C56_native, C56_refused, C56_unknown_method, C57_iff, C57_no_plugin, C57_offered_partial, C57_unoffered_false, C58_switch_panics_false, C59_change_user, C59_handshake, C60_extra_message_false, C60_more_data_false, C60_native_partial, C60_ok, C60_refused, C60_unknown_method, C61_create_drop_db, C61_init_db, C61_no_panic, C61_process_kill, C61_refresh, C61_register_slave, C61_reset_connection, C62_closed, C62_err_false, C62_ping_partial, C63_statistics, C64_err, C64_field_list_partial, C64_no_panic, C64_null_default_false, C65_debug, C65_set_multi_stmts_false, C65_set_multi_stmts_partial, C66_bool_partial, C66_column, C66_signed, C67_bool_false, C67_medium_partial, C67_same_sign_partial, C67_sign_false, C68_fraction_false, C68_panic_iff, C68_sign_false, C68_time_iff, C68_time_text_partial, C69_dates_partial, C69_datetime_iff, C69_zero_date_false, C70_get_user_var, C70_get_var, C70_injection_false, C70_pattern_iff, C70_pattern_partial, C71_set_var, C72_binlog_files, C73_after_all_partial, C73_dropped_false, C74_description_checksum_false, C74_description_type_false, C74_dump_refused, C74_events_partial, C74_gtids_false, C74_no_gtid_mode_false, C74_no_server_id, C74_position_false, C74_request_partial, C74_setup, C74_short_rotate_false, C75_receive, C75_receive_completes, C75_truncated, C76_overflow, C76_send, C77_drop_anywhere_false, C77_drop_partial, C77_drop_recv_false, C77_drop_send_false, C77_drop_send_partial, C78_binary_rows_iff, C78_binary_rows_partial, C78_change_user_partial, C78_commands, C78_exec_partial, C78_greeting, C78_handshake_partial, C78_lists_partial, C78_packet_number_false, C78_prepare, C78_query_partial, C78_stmt_partial, C78_text_rows, C78_variables_partial, C79_bit_false, C79_datetime_fraction_false, C79_null, C79_value_partial, C80_column_name_false, C80_delete_partial, C80_insert_partial, C80_name_false, C80_no_key_false, C80_update_partial, C81_delete_partial, C81_insert_partial, C81_log_partial, C81_no_key_false, C81_null_key_false, C81_update_partial, C82_event_type, C82_file, C82_peek, C82_select, C82_wanted, C83_decoded, C83_delete_partial, C83_insert_partial, C83_json_partial, C83_json_update_partial, C83_json_value, C83_sql_value, C83_update_partial, C84_calls_partial, C84_more_results_false, C84_session_partial, C85_bit_false, C85_datetime_text, C85_delete_partial, C85_fraction_false, C85_insert_partial, C85_text_delete_partial, C85_text_insert_partial, C85_text_update_partial, C85_time_text, C85_update_partial, C85_value_partial, C85_zero_date_false, C86_binlog_file, C86_checksum_event, C86_description, C86_from_description, C86_gtid_set, C86_load, C86_next_event, C86_parse_event, C86_payloads, C86_skip_event, C86_table_map, C87_bad_filter_partial, C87_dml_partial, C87_limit, C87_list_partial, C87_mybinmsg_end, C87_mybinmsg_partial, C87_refused, C87_unix_socket_false, C87_unreachable, C88_call, C88_change_user, C88_dml, C88_list, C88_login, C88_mybinmsg, C88_request, C88_sent_known, C88_session, C88_set_multi_stmts, C89_any_text, C89_date, C89_datetime, C89_no_such_date, C90_decimal, C90_exponent_panics, C90_not_a_number, C91_heard_partial, C92_binary, C92_field, C92_leading_space, C92_text, C93_mybinlog, C93_mybinmsg, C93_settled, C94_block_false, C94_log_partial, C95_arrives_iff, C95_unbuffered_partial, C96_after_end_false, C96_change_user_partial, C96_exec_rows_false, C96_login_caching_partial, C96_login_native, C96_owed_partial, C96_same, C96_served_partial, C96_stream_partial, C96_stream_same, C97_defined, C97_named_partial, C97_swapped_false, C98_closed, C98_events, C98_goes_on, C98_log, C98_one_reading, C99_echo_partial, C99_my_date_time_false, C99_negative_zero_false, C99_text_251_false, C99_year_false
