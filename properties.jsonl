{"id": "C01", "title": "Fixed-width integers round-trip", "statement": "Writing an integer with any write_* method and reading it back with the matching read_* method returns the same integer and leaves exactly the bytes that followed it; the write method returns the number of bytes it appended and leaves what was already in the buffer untouched.", "quantifier": "every width (8,16,24,32,48,64,128 bit, signed and unsigned), every value of that width, every previous buffer content and every trailing input", "why_tests_cant": "the value space is up to 2^128 per width; tests only sample it", "anchors": ["bytes-parser/src/lib.rs: ReadBytesExt, WriteBytesExt"]}
{"id": "C02", "title": "Fixed-width reads: positional value, exact consumption, failure leaves input intact", "statement": "A fixed-width read either consumes exactly its width and returns the little/big-endian positional value of those bytes, or - when fewer bytes remain - returns InputIncomplete naming the exact number of missing bytes and leaves the input unchanged; it never panics.", "quantifier": "every read_* integer/float method and every input byte string of any length", "why_tests_cant": "ranges over all byte strings; the short-input error paths of every width are not enumerated by tests", "anchors": ["bytes-parser/src/lib.rs: ReadBytesExt for Bytes, read_le_f64"]}
{"id": "C03", "title": "Signed reads are two's complement of the named byte order", "statement": "Each read_le_iN/read_be_iN returns the two's-complement value of the N-bit big/little-endian unsigned value at the head of the input.", "quantifier": "every signed reader and every input", "why_tests_cant": "needs all 2^N bit patterns for N up to 128", "anchors": ["bytes-parser/src/lib.rs: read_be_i24, read_be_i40, read_le_i24, read_le_i48"]}
{"id": "C04", "title": "Length-encoded integers round-trip", "statement": "For every u64 n, encoding LenEncInt::from(n) and decoding it yields an integer whose to_u64 is n, never the NULL or ERR marker, with exactly the encoded bytes consumed.", "quantifier": "all u64 values and all trailing inputs", "why_tests_cant": "2^64 values with boundaries between encodings", "anchors": ["bytes-parser/src/my.rs: LenEncInt, From<u64> for LenEncInt, read_len_enc_int"]}
{"id": "C05", "title": "Length-encoded integer decoding agrees with the MySQL protocol definition", "statement": "Decoding any input classifies its first byte as the protocol does (0..0xfa one-byte value, 0xfb NULL, 0xfc/0xfd/0xfe 2/3/8-byte little-endian value, 0xff error marker), consumes 1/3/4/9 bytes, and reports InputIncomplete exactly when the bytes are missing.", "quantifier": "every input byte string", "why_tests_cant": "all byte strings of every length", "anchors": ["bytes-parser/src/my.rs: read_len_enc_int, LenEncInt::to_u64, LenEncInt::to_u32"]}
{"id": "C06", "title": "Length-encoded strings round-trip", "statement": "For every byte string, writing it as LenEncStr::Bytes and reading it back returns the same bytes and leaves the trailing input; NULL and ERR markers round-trip too; the returned length equals the number of bytes appended.", "quantifier": "every byte string of any length and every trailing input", "why_tests_cant": "string lengths are unbounded; the encoding changes at 251, 65536 and 2^24", "anchors": ["bytes-parser/src/my.rs: LenEncStr, read_len_enc_str"]}
{"id": "C07", "title": "read_len and read_until split the input without loss", "statement": "read_len(n) returns the first n bytes and leaves the rest or fails unchanged; read_until(b) returns the bytes before the first b (optionally with it), leaves what follows the first b, and fails exactly when b does not occur, leaving the input unchanged.", "quantifier": "every input, length, delimiter and inclusive flag", "why_tests_cant": "all byte strings", "anchors": ["bytes-parser/src/lib.rs: read_len, read_until"]}
{"id": "C08", "title": "Async integer reads do not depend on how the stream is chunked", "statement": "An async integer read over a stream completes with the value of the next k bytes, having consumed exactly those k bytes, for every way the transport splits the bytes into partial reads and interleaves Pending results; end of stream before k bytes gives InputIncomplete naming the missing byte count.", "quantifier": "every schedule of partial reads, Pending results and stream contents, every width", "why_tests_cant": "schedules are unbounded; tests use in-memory cursors that deliver everything at once", "anchors": ["bytes-parser/src/util.rs: read_number_future!"]}
{"id": "C09", "title": "Async integer writes put exactly the encoding on the wire", "statement": "An async integer write completes only after the stream received exactly the k encoded bytes, in order and once, for every way the transport accepts partial writes and returns Pending.", "quantifier": "every schedule of partial writes and Pending results and every value", "why_tests_cant": "schedules are unbounded", "anchors": ["bytes-parser/src/util.rs: write_number_future!"]}
{"id": "C10", "title": "Bitmap indexing, marking and construction agree", "statement": "Marking bit i changes bit i to the given value and no other; iterating a bitmap from an offset yields bit offset, offset+1, ... in order; building a bitmap from booleans with an offset and iterating it from the same offset gives back the booleans followed by false padding; reads inside the bitmap never panic.", "quantifier": "every bitmap, index, offset and boolean sequence", "why_tests_cant": "unbounded bitmaps and offsets", "anchors": ["mybin-core/src/bitmap.rs: index, mark, from_iter, to_iter"]}
{"id": "C11", "title": "Message framing round-trips for every payload size", "statement": "Whatever message a peer sends with send_msg (including lengths that are exact multiples of 0xffffff), recv_msg on the other side returns exactly that payload and leaves the following stream bytes unread.", "quantifier": "every payload of every length, every starting sequence number that does not overflow, every following stream", "why_tests_cant": "payloads above 16 MiB are split in packets; the boundary multiples cannot be covered by tests for all k", "anchors": ["mybin-async/src/conn.rs: Conn::send_msg, Conn::send_packet, Conn::recv_msg"]}
{"id": "C12", "title": "Packets on the wire are well formed and consecutively numbered", "statement": "send_msg emits packets of at most 0xffffff bytes, all but the last exactly 0xffffff and the last shorter, numbered consecutively from the connection's current packet number (from 0 for a new command); after recv_msg the next packet number is one more than the last received, modulo 256.", "quantifier": "every payload, starting number and received stream", "why_tests_cant": "payload length and packet count are unbounded", "anchors": ["mybin-async/src/conn.rs: send_msg, send_packet, recv_msg, reset_pkt_nr"]}
{"id": "C13", "title": "A stream of messages is received message by message", "statement": "If the stream is the concatenation of any sequence of messages, successive recv_msg calls return precisely those messages in order and then report end of stream.", "quantifier": "every finite sequence of messages", "why_tests_cant": "sequences and sizes are unbounded", "anchors": ["mybin-async/src/conn.rs: recv_msg, send_msg"]}
{"id": "C14", "title": "OK packet decoding", "statement": "For every combination of capability flags, an OK packet laid out by the protocol decodes to the same affected rows, insert id, status, warnings, info and session-state fields.", "quantifier": "all field values and all capability flag sets", "why_tests_cant": "2^32 flag sets and unbounded strings", "anchors": ["mybin-core/src/packet.rs: OkPacket::read_from"]}
{"id": "C15", "title": "ERR and EOF packet decoding", "statement": "For every combination of capability flags, ERR and EOF packets laid out by the protocol decode to the same error code, sql state, message, warnings and status; anything the ERR decoder returns has the error code at its fixed position.", "quantifier": "all field values and capability flag sets", "why_tests_cant": "unbounded messages times flag sets", "anchors": ["mybin-core/src/packet.rs: ErrPacket::read_from, EofPacket::read_from"]}
{"id": "C16", "title": "Response dispatch is decided by the header byte", "statement": "Handshake and command responses are classified by their first byte only (OK, ERR, EOF, auth switch, more data), an unknown first byte is an error, and a well-formed packet of each kind is never mistaken for another.", "quantifier": "every message and capability set", "why_tests_cant": "all byte strings", "anchors": ["mybin-core/src/packet.rs: HandshakeMessage::read_from", "mybin-core/src/resp.rs: ComResponse::read_from", "mybin-core/src/cmd/*.rs: *Response::read_from"]}
{"id": "C17", "title": "Initial handshake decoding", "statement": "A protocol-10 initial handshake laid out by the protocol decodes to its server version, connection id, capability flags, charset, status, auth plugin data and plugin name for every capability set; malformed input yields an error rather than a panic.", "quantifier": "all field values and capability sets", "why_tests_cant": "unbounded strings times flag sets", "anchors": ["mybin-core/src/handshake.rs: InitialHandshake::read_from"]}
{"id": "C18", "title": "Handshake response is decodable by the server under the flags it announces", "statement": "The bytes of HandshakeClientResponse41, read by the protocol grammar under the capability flags they announce, give back the same username, auth response, database, plugin name and connection attributes.", "quantifier": "all usernames without NUL, auth responses, databases, plugins, attributes and capability sets", "why_tests_cant": "unbounded strings, flag combinations", "anchors": ["mybin-core/src/handshake.rs: HandshakeClientResponse41::write_to"]}
{"id": "C19", "title": "Command packets decode to what the caller asked", "statement": "Each Com* command starts with its own command code and a server reading the protocol grammar recovers exactly the caller's arguments (query text, database, statement id, flags, ids).", "quantifier": "all commands and all argument values", "why_tests_cant": "arguments are unbounded strings/integers", "anchors": ["mybin-core/src/cmd/*.rs: write_to", "mybin-core/src/lib.rs: Command"]}
{"id": "C20", "title": "Command and column-type and event-type codes are one-to-one", "statement": "Converting a command / column type / log event type to its byte and back is the identity, distinct values have distinct bytes, and bytes outside the table are rejected.", "quantifier": "every enum value and every byte", "why_tests_cant": "a missing or duplicated row in a 30-40 row table escapes sampling", "anchors": ["mybin-core/src/lib.rs: Command", "mybin-core/src/col.rs: ColumnType", "mybin-core/src/binlog/mod.rs: LogEventType"]}
{"id": "C21", "title": "COM_BINLOG_DUMP and COM_BINLOG_DUMP_GTID round-trip", "statement": "Writing a dump request and reading it back yields the same position, flags, server id, file name and gtid ranges.", "quantifier": "all positions, flags, file names and lists of sid ranges", "why_tests_cant": "unbounded lists of ranges and strings", "anchors": ["mybin-core/src/cmd/binlog_dump.rs: ComBinlogDump, ComBinlogDumpGtid, SidData, SidRange"]}
{"id": "C22", "title": "COM_STMT_EXECUTE carries every parameter", "statement": "A server that decodes COM_STMT_EXECUTE by the protocol grammar recovers, for every parameter, its type, signedness and value, and sees NULL exactly for the parameters whose value is NULL.", "quantifier": "all parameter lists of any length and values", "why_tests_cant": "parameter count and value space unbounded; null-bitmap width changes every 8 parameters", "anchors": ["mybin-core/src/cmd/stmt_execute.rs: ComStmtExecute::write_to", "mybin-core/src/stmt.rs: StmtColumnValue", "mybin-core/src/bitmap.rs: from_iter"]}
{"id": "C23", "title": "Binary protocol values round-trip", "statement": "Writing a BinaryColumnValue and reading it back with its column type gives the same value and consumes exactly its bytes.", "quantifier": "every value of every column type", "why_tests_cant": "values are unbounded strings, 64-bit ints, times with optional microseconds", "anchors": ["mybin-core/src/col.rs: BinaryColumnValue::read_from, BinaryColumnValue::write_to"]}
{"id": "C24", "title": "Binary rows: NULL bitmap and values line up", "statement": "For every row of column values, the binary-row decoder applied to the protocol encoding (bitmap with offset 2, values of the non-null columns in order) returns the same row, with NULL at exactly the marked positions.", "quantifier": "all column lists of any length and all rows", "why_tests_cant": "row width unbounded; off-by-one in the bitmap only shows at particular widths", "anchors": ["mybin-core/src/row.rs: BinaryRow::read_from", "mybin-core/src/bitmap.rs"]}
{"id": "C25", "title": "Text rows decode column by column", "statement": "A text row made of n optional byte strings decodes to the same n values; NULL and the empty string stay distinct; the decoder never reads beyond n columns.", "quantifier": "all n and all optional byte strings", "why_tests_cant": "unbounded rows and strings", "anchors": ["mybin-core/src/row.rs: TextRow::read_from"]}
{"id": "C26", "title": "Result set iteration is complete, ordered and final", "statement": "For every server response consisting of any number of rows followed by the terminator, next_row yields exactly those rows in order then None, further calls keep returning None without touching the connection, and all/first/first_or_none/count agree with that sequence and leave the connection positioned after the terminator.", "quantifier": "every sequence of rows and every number of further calls", "why_tests_cant": "histories are unbounded", "anchors": ["mybin-async/src/resultset.rs: ResultSet::next_row, all, first, first_or_none, count, new_result_set"]}
{"id": "C27", "title": "Errors sent by the server in place of a row are reported as errors", "statement": "If the server sends an ERR packet where a row is expected, next_row returns an error rather than a row.", "quantifier": "every ERR packet and every column list", "why_tests_cant": "all ERR contents x row shapes", "anchors": ["mybin-async/src/resultset.rs: ResultSet::next_row"]}
{"id": "C28", "title": "Event header decoding and event extents", "statement": "parse_event and skip_event consume exactly the event_len bytes announced by the header (19-byte header included) and fail without panicking when fewer are available or event_len is impossible.", "quantifier": "every input byte string and both checksum settings", "why_tests_cant": "all byte strings", "anchors": ["mybin-core/src/binlog/header.rs: EventHeader::read_from", "mybin-core/src/binlog/parser.rs: ParserV4::parse_event, ParserV4::skip_event"]}
{"id": "C29", "title": "A binlog file is walked event by event", "statement": "For every binlog made of the magic, a format description event and any sequence of events, with or without checksums, repeated parse_event returns those events in order, each with its type and its payload without the checksum; unsupported types yield None yet still consume their bytes; skipping an event leaves the parser at the same position as parsing it.", "quantifier": "every finite sequence of events, any payload", "why_tests_cant": "event sequences and payloads are unbounded", "anchors": ["mybin-core/src/binlog/parser.rs: ParserV4::from_binlog_file, parse_event, skip_event"]}
{"id": "C30", "title": "Checksum validation accepts exactly the matching events", "statement": "With checksum validation on, parse_event and checksum_event succeed past the checksum step only when the last 4 bytes are the CRC-32 of the preceding event bytes; otherwise they return BinlogChecksumMismatch and consume nothing.", "quantifier": "every event and every corruption", "why_tests_cant": "all byte strings", "anchors": ["mybin-core/src/binlog/parser.rs: parse_event, checksum_event", "mybin-core/src/util.rs: checksum_crc32"]}
{"id": "C31", "title": "Checksum validation detects every short burst of corruption", "statement": "Changing any non-empty set of bits within any 32 consecutive bits of the checksummed part of an event makes validation fail.", "quantifier": "every event, every position and every burst pattern up to 32 bits", "why_tests_cant": "exponentially many corruptions of unbounded events", "anchors": ["mybin-core/src/binlog/parser.rs: parse_event", "mybin-core/src/util.rs: checksum_crc32"]}
{"id": "C32", "title": "Format description event decoding", "statement": "The format description event yields the server's post-header lengths, and the parser treats later events as checksummed exactly when the FDE's checksum flag is 1; malformed FDEs are errors, not panics.", "quantifier": "every FDE and every input", "why_tests_cant": "all byte strings", "anchors": ["mybin-core/src/binlog/fde.rs: FormatDescriptionData::read_from", "mybin-core/src/binlog/parser.rs: from_fde_bytes"]}
{"id": "C33", "title": "Decoded GTID sets are well formed", "statement": "Every GTID range the decoder accepts has strictly increasing, non-empty, non-touching intervals, and any such set encoded by the server decodes to the same intervals (with inclusive ends).", "quantifier": "every input and every list of intervals", "why_tests_cant": "unbounded lists", "anchors": ["mybin-core/src/binlog/gtid.rs: GtidSet::read_from, GtidRange::read_from"]}
{"id": "C34", "title": "Table map decoding", "statement": "A table map event laid out by the protocol decodes to its schema, table name, null bitmap and one column metadata entry per column, in column order.", "quantifier": "all schemas, names, column counts and supported column types", "why_tests_cant": "unbounded columns; the metadata width varies per type so one wrong width shifts everything after it", "anchors": ["mybin-core/src/binlog/table_map.rs", "mybin-core/src/col.rs: ColumnMeta::read_from, ColumnMetas::read_from"]}
{"id": "C35", "title": "Row events: every present column gets its own value", "statement": "For every rows event laid out by the protocol with any present-bitmap and per-row null-bitmaps, the decoder returns each row with, at every column index, the logged value when present and non-null and NULL otherwise.", "quantifier": "all tables, present bitmaps, null bitmaps and row counts", "why_tests_cant": "exponentially many bitmap combinations, unbounded rows", "anchors": ["mybin-core/src/binlog/rows_v2.rs: RowsV2::read_from, UpdateRowsV2::read_from", "mybin-core/src/row.rs: LogRow::read_from"]}
{"id": "C36", "title": "Row event decoding always terminates without panicking", "statement": "Decoding the payload of any rows event ends with rows or an error, for any bytes a server may send.", "quantifier": "every payload, extra-data length and column metadata", "why_tests_cant": "all byte strings", "anchors": ["mybin-core/src/binlog/rows_v2.rs", "mybin-core/src/row.rs", "mybin-core/src/col.rs: BinlogColumnValue::read_from"]}
{"id": "C37", "title": "Binlog column values are decoded at their exact width", "statement": "For every column type and metadata, the value decoder consumes exactly the bytes the server wrote for that value, so following columns stay aligned, and integer/blob/string values are returned unchanged.", "quantifier": "all types, metadata and values", "why_tests_cant": "type x metadata x value space", "anchors": ["mybin-core/src/col.rs: BinlogColumnValue::read_from"]}
{"id": "C38", "title": "DECIMAL decoding preserves the value", "statement": "A DECIMAL(p,s) value in the binlog decodes to a decimal with the same numeric value and its text form denotes that value.", "quantifier": "all precisions, scales, signs and digits", "why_tests_cant": "65-digit values in every precision/scale", "anchors": ["mybin-core/src/decimal.rs", "mybin-core/src/col.rs: NewDecimal"]}
{"id": "C39", "title": "TIME/DATETIME binlog decoding preserves the value", "statement": "A TIME2/DATETIME2 value stored by the server with any fractional precision decodes to the same sign, hours, minutes, seconds and microseconds.", "quantifier": "all times and precisions", "why_tests_cant": "value space x precision", "anchors": ["mybin-core/src/time.rs: MyTime::from_binlog, MyDateTime::from_binlog"]}
{"id": "C40", "title": "Generated INSERT/UPDATE/DELETE SQL assigns each column its own value", "statement": "The statement generated from a rows event has one placeholder per parameter, and the parameter bound to a column's placeholder is that column's value in the event.", "quantifier": "all column lists, present bitmaps and rows", "why_tests_cant": "exponentially many bitmap combinations", "anchors": ["mybin-core/src/binlog/transform/sql.rs: PreparedSql::from_insert/from_delete/from_update", "mybin-core/src/binlog/transform/mod.rs: filter_col_defs"]}
{"id": "C41", "title": "sql_list renders exactly one statement per row with each placeholder substituted", "statement": "sql_list returns one statement per parameter row; each statement is the fragment text with the i-th placeholder replaced by the i-th parameter's literal and no other change.", "quantifier": "all fragment lists and parameter lists", "why_tests_cant": "unbounded lists", "anchors": ["mybin-core/src/binlog/transform/sql.rs: SqlCollection for PreparedSql"]}
{"id": "C42", "title": "String literals in generated SQL denote the original string", "statement": "For every text value, the quoted literal produced for SQL, read by MySQL's string-literal rules, denotes exactly the original bytes and ends where the literal ends.", "quantifier": "every byte string", "why_tests_cant": "all byte strings, including quotes and backslashes", "anchors": ["mybin-core/src/stmt.rs: to_sql_literal", "mybin-core/src/binlog/transform/sql.rs: sql_list"]}
{"id": "C43", "title": "The DML printer prints at most the requested number of statements, only for matching tables", "statement": "print_dmls prints the statements of the rows of matching tables in stream order and stops after limit statements when limit is non-zero; table metadata is never reused across log rotation.", "quantifier": "every event stream, filter and limit", "why_tests_cant": "unbounded event histories", "anchors": ["mybinlog/src/mybinlog.rs: print_dmls"]}
{"id": "C44", "title": "mysql_native_password responses verify", "statement": "For every password and nonce, the response computed by the native plugin is accepted by the server's check (which knows only SHA1(SHA1(password))), and the password bytes are used only through the hash.", "quantifier": "every password and nonce", "why_tests_cant": "all byte strings", "anchors": ["mybin-async/src/auth_plugin.rs: scramble411, MysqlNativePassword::next", "mybin-async/src/conn.rs: gen_init_auth_resp"]}
{"id": "C45", "title": "caching_sha2_password responses depend on the server nonce and verify", "statement": "For every password and nonce, the response computed by the caching_sha2 plugin is accepted by the server's fast-auth check for that nonce.", "quantifier": "every password and nonce", "why_tests_cant": "all byte strings", "anchors": ["mybin-async/src/auth_plugin.rs: CachingSha2Password::next, scramble_caching_sha2"]}
{"id": "C46", "title": "Column lookup by name", "statement": "get_named_col finds the column with exactly that name when one exists, otherwise one whose lower-cased name matches; a missing name or an out-of-range index is an error, never a wrong column.", "quantifier": "all column lists and names", "why_tests_cant": "unbounded lists with duplicates and case variants", "anchors": ["mybin-core/src/resultset.rs: ColumnExtractor"]}
{"id": "C47", "title": "Query event and status variables decode", "statement": "A query event laid out by the protocol decodes to the same fields, schema and query text, and its status-variable block decodes to the same list of variables.", "quantifier": "all lists of status variables and strings", "why_tests_cant": "unbounded lists of heterogeneous variables", "anchors": ["mybin-core/src/binlog/query.rs: QueryData, QueryStatusVars"]}
{"id": "C48", "title": "Other event payloads decode", "statement": "Rotate, xid, intvar, rand, user-var, incident, gtid and load event payloads laid out by the protocol decode to the same fields.", "quantifier": "all field values", "why_tests_cant": "unbounded strings and 64-bit integers", "anchors": ["mybin-core/src/binlog/rotate.rs", "mybin-core/src/binlog/xid.rs", "mybin-core/src/binlog/intvar.rs", "mybin-core/src/binlog/rand.rs", "mybin-core/src/binlog/user_var.rs", "mybin-core/src/binlog/incident.rs", "mybin-core/src/binlog/gtid.rs: GtidLogData", "mybin-core/src/binlog/load.rs"]}
{"id": "C49", "title": "Column definitions decode", "statement": "A column definition packet laid out by the protocol decodes to the same catalog, names, charset, length, type, flags and decimals.", "quantifier": "all field values", "why_tests_cant": "unbounded strings", "anchors": ["mybin-core/src/col.rs: ColumnDefinition::read_from"]}
{"id": "C50", "title": "Preparing a statement consumes the whole response", "statement": "prepare reads exactly the response of the server - the prepare-OK packet, then n_params parameter definitions and n_cols column definitions, each group followed by EOF unless EOF is deprecated - and returns definitions in order with the statement id.", "quantifier": "every n_params, n_cols, definitions and capability set", "why_tests_cant": "unbounded counts", "anchors": ["mybin-async/src/stmt.rs: Stmt::prepare", "mybin-core/src/cmd/stmt_prepare.rs: StmtPrepareOk"]}
{"id": "C51", "title": "exec consumes the whole response", "statement": "exec on a text or prepared statement leaves the connection at the end of that command's response, so the next command's response is not confused with it, whatever the server answered (OK, ERR or a result set).", "quantifier": "every server response", "why_tests_cant": "unbounded responses", "anchors": ["mybin-async/src/query.rs: Query::exec", "mybin-async/src/stmt.rs: PreparedStmt::exec"]}
{"id": "C52", "title": "exec_close always releases the statement", "statement": "exec_close sends COM_STMT_CLOSE with the statement's id after the execution whether the execution succeeded or failed, and returns the execution's outcome.", "quantifier": "every server response and parameter list", "why_tests_cant": "all responses including failures", "anchors": ["mybin-async/src/stmt.rs: PreparedStmt::exec_close, close"]}
{"id": "C53", "title": "Binlog stream iteration", "statement": "next_event returns the supported events of the stream in order, silently skipping unsupported ones, and returns None at the end of a non-blocking stream; once it reported the end every later call reports the end.", "quantifier": "every packet sequence and every number of calls", "why_tests_cant": "unbounded histories", "anchors": ["mybin-async/src/binlog.rs: BinlogStream::next_event, recv_and_parse_event"]}
{"id": "C54", "title": "JSON change records carry every column once", "statement": "The JSON record for a row has, under each present column's name, the JSON form of that column's value, and lists as base64-encoded exactly the columns whose value was base64-encoded.", "quantifier": "all column lists, bitmaps and rows", "why_tests_cant": "exponentially many combinations", "anchors": ["mybin-core/src/binlog/transform/json.rs: JsonRows::from_insert/from_delete/from_update"]}
{"id": "C55", "title": "Signed and unsigned integers render with the right sign", "statement": "The SQL and JSON text of an integer column value is the decimal numeral of its value, interpreted as unsigned exactly when the column is unsigned.", "quantifier": "all integer types, values and both signs", "why_tests_cant": "2^64 values per type", "anchors": ["mybin-core/src/stmt.rs: to_sql_literal", "mybin-core/src/binlog/transform/json.rs: to_json_value", "mybin-core/src/stmt.rs: From<(BinlogColumnValue,bool)>"]}
{"id": "C56", "title": "Connecting", "statement": "Connecting to a server that uses mysql_native_password sends one response, in which the server reads the user, the database and a password proof it accepts; after the server's OK the connection is ready and nothing beyond the OK has been read. An ERR answer or an unknown method is an error.", "quantifier": "every account, nonce, greeting and server status", "why_tests_cant": "unbounded strings and nonces", "anchors": ["mybin-async/src/conn.rs: Conn::handshake, connect, gen_init_auth_resp, new_auth_plugin"]}
{"id": "C57", "title": "Only capabilities the server offers are announced", "statement": "Every capability flag in the client's handshake response is one the server offered in its greeting.", "quantifier": "every greeting", "why_tests_cant": "2^32 flag sets", "anchors": ["mybin-async/src/conn.rs: Conn::handshake"]}
{"id": "C58", "title": "A request to switch the authentication method is followed", "statement": "When the server asks for another authentication method while connecting, the client continues with that method if it knows it and otherwise reports an error.", "quantifier": "every switch request at every point of the exchange", "why_tests_cant": "all method names and nonces", "anchors": ["mybin-async/src/conn.rs: Conn::handshake", "mybin-core/src/packet.rs: AuthSwitchRequest"]}
{"id": "C59", "title": "The password is used only through its hashes", "statement": "Whatever a server answers while connecting or changing the user, the bytes sent and the outcome are the same for any two non-empty passwords with equal SHA-1 and SHA-256: the password itself is never put on the wire.", "quantifier": "every server behaviour and every pair of passwords", "why_tests_cant": "unbounded adversarial server histories", "anchors": ["mybin-async/src/conn.rs: handshake, change_user", "mybin-async/src/auth_plugin.rs"]}
{"id": "C60", "title": "Changing the user", "statement": "change_user sends the user, schema and attributes, answers the server's method switch with a proof it accepts, and ends in success exactly when the server says OK; the session stays synchronised, one message sent for each one the server expects.", "quantifier": "every account, nonce and attribute list", "why_tests_cant": "unbounded strings", "anchors": ["mybin-async/src/conn.rs: change_user", "mybin-core/src/cmd/change_user.rs"]}
{"id": "C61", "title": "Commands answered by OK or ERR", "statement": "init_db, create_db, drop_db, refresh, process_kill, reset_connection and register_slave each send exactly their command with its parameters, succeed exactly when the server answers OK, return the code, state and text of the server's error otherwise, and read one message.", "quantifier": "every parameter, capability set and answer", "why_tests_cant": "unbounded strings and answers", "anchors": ["mybin-async/src/conn.rs: init_db, create_db, drop_db, refresh, process_kill, reset_connection, register_slave"]}
{"id": "C62", "title": "Ping tells whether the server is alive", "statement": "ping sends COM_PING, succeeds when the server answers OK, and fails when it answers ERR or the connection is closed.", "quantifier": "every answer and capability set", "why_tests_cant": "all error codes and texts", "anchors": ["mybin-async/src/conn.rs: ping", "mybin-core/src/packet.rs: OkPacket::read_from"]}
{"id": "C63", "title": "Server statistics", "statement": "statistics sends COM_STATISTICS and returns exactly the text the server sends; an ERR packet is an error.", "quantifier": "every text of any length", "why_tests_cant": "unbounded text", "anchors": ["mybin-async/src/conn.rs: statistics"]}
{"id": "C64", "title": "Listing the fields of a table", "statement": "field_list returns one definition per column in the server's order, with names, type, flags and default value (NULL apart from the empty string), stops at the end marker of the negotiated protocol, and reports an error sent before or between the definitions.", "quantifier": "every table, pattern, number of columns and capability set", "why_tests_cant": "unbounded column lists", "anchors": ["mybin-async/src/conn.rs: field_list", "mybin-core/src/cmd/field_list.rs", "mybin-core/src/col.rs: ColumnDefinition::read_from"]}
{"id": "C65", "title": "Session options", "statement": "debug succeeds exactly when the server ends the command. set_multi_stmts(b) makes the server accept several statements per query exactly if b, records that in the client's capabilities and changes nothing if the server reports an error.", "quantifier": "both options, every capability set and answer", "why_tests_cant": "2^32 capability sets, all answers", "anchors": ["mybin-async/src/conn.rs: debug, set_multi_stmts", "mybin-core/src/cmd/set_option.rs: ComSetOption"]}
{"id": "C66", "title": "Reading text values as Rust types", "statement": "Reading a text value as an integer type gives the number the text stands for exactly when it stands for one in the range of the type and an error otherwise; a string gives its text, or an error if it is not UTF-8; a boolean is true exactly when the number is not 0; NULL is None for an optional type and an error otherwise.", "quantifier": "every text and every integer width", "why_tests_cant": "unbounded texts", "anchors": ["mybin-core/src/resultset.rs: FromColumnValue<TextColumnValue>"]}
{"id": "C67", "title": "Reading binary values as Rust types", "statement": "Reading an integer column of the binary protocol as an integer type gives the value of the column or an error; a boolean is true exactly when the value is not 0; strings and bytes are returned unchanged.", "quantifier": "every column width and sign, every target width and sign, every value", "why_tests_cant": "2^64 values per pair of types", "anchors": ["mybin-core/src/resultset.rs: FromColumnValue<BinaryColumnValue>"]}
{"id": "C68", "title": "Reading TIME values sent as text", "statement": "A TIME value sent as text, of any sign, number of hours and number of fractional digits, is read as that time.", "quantifier": "every TIME value and 0 to 6 fractional digits", "why_tests_cant": "7*10^12 values", "anchors": ["mybin-core/src/time.rs: FromColumnValue<TextColumnValue> for MyTime"]}
{"id": "C69", "title": "Reading dates of the binary protocol", "statement": "DATE, DATETIME and TIMESTAMP values of the binary protocol are read as the same calendar date and time; a value that is not a calendar date is an error.", "quantifier": "every date and time", "why_tests_cant": "all dates and microseconds", "anchors": ["mybin-core/src/resultset.rs: FromColumnValue for NaiveDate, NaiveDateTime", "mybin-core/src/time.rs: FromColumnValue for MyDateTime"]}
{"id": "C70", "title": "Reading server and user variables", "statement": "get_var and get_user_var ask the server for the variable of that name, return its converted value, None when the server has no such variable, the error of the conversion when it fails, and leave exactly what follows the answer.", "quantifier": "every name, type, answer and capability set", "why_tests_cant": "unbounded names and answers", "anchors": ["mybin-async/src/conn.rs: get_var, get_user_var"]}
{"id": "C71", "title": "Setting server and user variables", "statement": "set_var and set_user_var send a statement that sets the variable to exactly the given value, release the statement, succeed when the server does and otherwise return its error, and leave nothing unread.", "quantifier": "every name, value and server answer", "why_tests_cant": "unbounded names, values and answers", "anchors": ["mybin-async/src/conn.rs: set_var, set_user_var"]}
{"id": "C72", "title": "Listing binlog files", "statement": "binlog_files returns the name and size of every log file of the server, in the order of the server, and leaves what follows the answer.", "quantifier": "any number of files and extra columns", "why_tests_cant": "unbounded answers", "anchors": ["mybin-async/src/conn.rs: binlog_files"]}
{"id": "C73", "title": "Commands after a result set", "statement": "A command sent after a result set gets its own answer, whether or not all rows of the result set have been read.", "quantifier": "every result set, number of rows read and next command", "why_tests_cant": "unbounded histories", "anchors": ["mybin-async/src/resultset.rs: ResultSet", "mybin-async/src/query.rs: Query::qry, exec"]}
{"id": "C74", "title": "Requesting a binlog stream", "statement": "Requesting a stream asks the master for its settings, announces the heartbeat period, checksum setting and a UUID, registers the requested server id, and then asks for exactly the requested file, position, GTIDs and wait mode; it returns a stream of the master's events, or the master's error, and reads nothing beyond the first description event.", "quantifier": "every request, every master (id, checksum setting, GTID mode, statement ids), every capability set and every sequence of events", "why_tests_cant": "unbounded requests, answers and event sequences", "anchors": ["mybin-async/src/binlog.rs: BinlogRequest::request_stream, BinlogStream::next_event"]}
{"id": "C75", "title": "Receiving messages in pieces", "statement": "However the transport splits the bytes of a message, delays them or reports not being ready, receiving returns exactly the message and reads nothing after it; it fails only when the transport fails or ends, and a message that was cut short is never returned.", "quantifier": "every message and every behaviour of the transport (any sizes of reads, any number of times not ready, failure at any point)", "why_tests_cant": "unbounded messages and schedules", "anchors": ["mybin-async/src/conn.rs: Conn::recv_msg"]}
{"id": "C76", "title": "Sending messages in pieces", "statement": "However the transport accepts the bytes of a message, a successful send has put exactly the packets of the message on the wire, correctly numbered; a send fails only when the transport does, and what was accepted until then is a proper beginning of the packets.", "quantifier": "every message of up to 254 packets and every behaviour of the transport", "why_tests_cant": "unbounded messages and schedules", "anchors": ["mybin-async/src/conn.rs: Conn::send_msg, send_packet"]}
{"id": "C77", "title": "Abandoned operations", "statement": "When a receive or a send is abandoned (its future dropped, for instance by a time limit), the next operation on the connection still reads or sends whole messages.", "quantifier": "every point at which an operation is dropped", "why_tests_cant": "all interleavings of polls and drops", "anchors": ["mybin-async/src/conn.rs: Conn::recv_msg, send_msg"]}
{"id": "C78", "title": "Malformed answers", "statement": "Whatever bytes the server sends, and wherever the stream ends, connecting, changing the user, queries, prepared statements, reading rows and the other commands end with a result or an error: they do not panic and do not loop forever.", "quantifier": "every stream of bytes, every cut of it, every command and every statement", "why_tests_cant": "all byte streams, most of which no test server produces", "anchors": ["mybin-async/src/conn.rs: Conn::handshake, change_user, statistics, debug, ping, set_multi_stmts, get_var, binlog_files, process_info", "mybin-async/src/query.rs: Query::qry, exec", "mybin-async/src/stmt.rs: Stmt::prepare, PreparedStmt::exec, qry", "mybin-async/src/resultset.rs: ResultSet"]}
{"id": "C79", "title": "Values in generated statements", "statement": "The text of every row value in a generated statement, read by a server as a literal and stored into the column, gives the value of the row.", "quantifier": "every column kind, every value of it, signed and unsigned columns", "why_tests_cant": "unbounded values; round trip through another program's reader", "anchors": ["mybin-core/src/stmt.rs: StmtColumnValue, to_sql_literal", "mybin-core/src/binlog/transform/sql.rs: PreparedSql::sql_list"]}
{"id": "C80", "title": "Generated statements are well formed", "statement": "A server reads every generated statement without a syntax error as an INSERT, DELETE or UPDATE of the table of the event, with the names of the columns and, for each, the literal of that row's value.", "quantifier": "every table name, column list and number of rows and columns", "why_tests_cant": "unbounded rows and names", "anchors": ["mybin-core/src/binlog/transform/sql.rs: PreparedSql::from_insert, from_delete, from_update, sql_list"]}
{"id": "C81", "title": "Replaying a log", "statement": "Running the statements made from row events on a copy of the tables makes exactly the changes of the events to its rows, in order, and changes no other table.", "quantifier": "every history of inserted, deleted and updated rows over any tables, and every state of the copy", "why_tests_cant": "unbounded histories and states of two programs", "anchors": ["mybin-core/src/binlog/transform/sql.rs: PreparedSql", "mybinlog/src/mybinlog.rs"]}
{"id": "C82", "title": "Choosing events by type", "statement": "Looking at the type of the next event of a log and then reading it or passing over it gives exactly the events of the wanted types, in the order of the log, and always continues at the next event.", "quantifier": "every binlog file and stream of events, every choice of types", "why_tests_cant": "unbounded logs and choices", "anchors": ["mybin-core/src/binlog/header.rs: LogEventType", "mybin-core/src/binlog/parser.rs: ParserV2::parse_event, skip_event"]}
{"id": "C83", "title": "Values that cannot be written", "statement": "Making statements or JSON from the decoded rows of an event does not panic.", "quantifier": "every value of every column kind, every row event", "why_tests_cant": "all values, most of which no test log contains", "anchors": ["mybin-core/src/stmt.rs: StmtColumnValue, to_sql_literal", "mybin-core/src/binlog/transform/sql.rs: PreparedSql", "mybin-core/src/binlog/transform/json.rs"]}
{"id": "C84", "title": "A whole session", "statement": "Whatever calls an application makes on one connection, each chosen from the results of the earlier ones, every call gets the server's answer to that call (rows, values, prepared statements, errors), the server hears exactly the messages of the calls in their order, and an error of one call does not disturb the next.", "quantifier": "every application (a function from the results so far to the next call), every history of answers of a protocol-following server, every way the answers are cut into packets", "why_tests_cant": "unbounded adaptive sequences of calls and answers", "anchors": ["mybin-async/src/conn.rs: Conn", "mybin-async/src/query.rs: Query::qry, exec", "mybin-async/src/stmt.rs: Stmt::prepare, PreparedStmt::exec, qry, close", "mybin-async/src/resultset.rs: ResultSet::all"]}
{"id": "C85", "title": "JSON change records", "statement": "A consumer that knows the columns of the tables reads in the JSON records made from a row event exactly the changes of the event: the table, the kind of change, and every value of the rows before and after, with base64 exactly for the columns listed as such.", "quantifier": "every table, every number of rows, every value of every column kind, inserts, deletes and updates", "why_tests_cant": "unbounded rows and values; round trip through another program's reader", "anchors": ["mybin-core/src/binlog/transform/json.rs: JsonRows::from_insert, from_delete, from_update", "mybin-core/src/binlog/transform/json.rs: to_json_value"]}
{"id": "C86", "title": "Malformed log events", "statement": "Whatever bytes a decoder of log events is given (the event, the format description, a binlog file, a payload, a GTID set, a table map, what a server sends on a stream), it returns a value or an error and never loops forever; it panics exactly on these inputs: an announced event length too short for the header and checksum, post-header lengths that do not fit their list, field names of LOAD events of 4 GiB or more, counts of GTIDs that exceed the address space, and columns of types it does not support.", "quantifier": "every sequence of bytes, every parser state, every state of a connection", "why_tests_cant": "all byte strings, almost none of which a test contains", "anchors": ["mybin-core/src/binlog/parser.rs: ParserV4::parse_event, skip_event, checksum_event, from_fde_bytes, from_binlog_file", "mybin-core/src/binlog/fde.rs: FormatDescriptionData", "mybin-core/src/binlog/load.rs", "mybin-core/src/binlog/gtid.rs: GtidSet", "mybin-core/src/binlog/table_map.rs: TableMap", "mybin-async/src/binlog.rs: BinlogStream::next_event"]}
{"id": "C87", "title": "The programs, from connection to end", "statement": "`mybinlog list` prints exactly the server's log files; `mybinlog dml` logs in on two connections and prints exactly the statements of the rows of the wanted tables up to the limit; `mybinmsg` logs the files and then every event; each ends with an error when the server cannot be reached, turns the login away, or a filter is not a regular expression.", "quantifier": "every server, log, filter and set of arguments", "why_tests_cant": "whole runs over unbounded logs, two connections and every server", "anchors": ["mybinlog/src/mybinlog.rs: main, exec, connect, print_dmls", "mybinlog/src/opts.rs", "mybinmsg/src/mybinmsg.rs: main, connect", "mybinmsg/src/config.rs"]}
{"id": "C88", "title": "What is said does not depend on the server", "statement": "Whatever bytes the server sends, and whether a call returns a value or an error, the server has heard exactly the messages of the call, whole and numbered from 0; logging in and changing the user say the account once and after that nothing but proofs of the password (or empty answers), in whole messages; a prepared statement used to set a variable is always closed; and the two programs, after logging in, say nothing but what is needed to list files, to get a stream of events, and to ask for the columns of tables that pass the filters.", "quantifier": "every application, every call and argument, every sequence of bytes from the servers", "why_tests_cant": "all servers, also ones that do not follow the protocol, and unbounded sessions", "anchors": ["mybin-async/src/conn.rs: Conn", "mybin-async/src/query.rs: Query", "mybin-async/src/stmt.rs: Stmt, PreparedStmt", "mybin-async/src/binlog.rs: Binlog::request_stream", "mybinlog/src/mybinlog.rs: exec, print_dmls", "mybinmsg/src/mybinmsg.rs: main"]}
{"id": "C89", "title": "Reading dates and datetimes sent as text", "statement": "Reading a DATE, DATETIME or TIMESTAMP column of a text answer as a date or datetime gives exactly the value, with every digit of its fraction; a date the calendar does not have, such as the zero date, is an error, NULL is None, and whatever the server sends, reading does not panic and never gives a date or time that does not exist.", "quantifier": "every value and number of digits of fraction, every sequence of bytes", "why_tests_cant": "all dates and all byte strings", "anchors": ["mybin-core/src/resultset.rs: FromColumnValue<TextColumnValue> for NaiveDateTime, NaiveDate", "mybin-core/src/time.rs: FromColumnValue<TextColumnValue> for MyDateTime", "mybin-core/src/time.rs: From<NaiveDateTime> for MyDateTime"]}
{"id": "C90", "title": "Reading decimals", "statement": "Reading a DECIMAL column, of a text or a binary answer, gives exactly the number with the scale that was sent; NULL is None and a column of another type is an error.", "quantifier": "every number of digits before and after the point, every sign", "why_tests_cant": "unbounded digits", "anchors": ["mybin-core/src/resultset.rs: FromColumnValue for BigDecimal", "mybin-core/src/util.rs: try_from_text_column_value"]}
{"id": "C91", "title": "Setting up a request for a stream", "statement": "Whatever setting methods of a stream request or a dump command are called, in whatever order and however often, every setting has the value given last or its documented default, GTIDs accumulate in the order given, a dump command asks for exactly one of a position and GTIDs, and the server hears exactly these settings.", "quantifier": "every sequence of calls of the setting methods", "why_tests_cant": "unbounded sequences of calls", "anchors": ["mybin-async/src/binlog.rs: Binlog::new, binlog_pos, binlog_filename, server_id, sid, sids, non_block, validate_checksum, heartbeat_interval, request_stream", "mybin-core/src/cmd/binlog_dump.rs: ComBinlogDump, ComBinlogDumpGtid: Default and the setting methods"]}
{"id": "C92", "title": "Text is UTF-8, exactly", "statement": "Bytes of a column, a packet or an event are taken as text exactly when they are the UTF-8 form of some string, and then the text is that string; any other bytes are an error, never altered text. The white space left out before a time is what Unicode calls white space.", "quantifier": "every sequence of bytes, every string", "why_tests_cant": "all byte strings; the shapes of well-formed UTF-8 with their exceptions", "anchors": ["mybin-core/src/resultset.rs: FromColumnValue for String", "mybin-core/src/time.rs: FromColumnValue<TextColumnValue> for MyTime", "mybin-core/src/binlog/table_map.rs: TableMap::try_from (and every String::from_utf8 of the decoders)"]}
{"id": "C93", "title": "What arrives later changes nothing", "statement": "If an application built from the operations of the API (with decisions on the values it gets and errors it handles) came to its end with the bytes that had arrived, it comes to the same end however the stream goes on: the same value, error or panic, the same messages sent, and every later byte left unread for the next operation. If it failed because the stream ended, what it had sent is a beginning of what it sends with more bytes. The two programs print the same lines in the same way: a run that was not cut off is unchanged by more bytes, and the lines of a run that was cut off are the first lines of the longer run.", "quantifier": "every application, every state of a connection, every sequence of bytes before and after", "why_tests_cant": "all cut points of all streams, and all continuations", "anchors": ["mybin-async/src/conn.rs: Conn, RecvMsgFuture", "mybin-async/src/resultset.rs: ResultSet", "mybin-async/src/stmt.rs: Stmt, PreparedStmt", "mybin-async/src/binlog.rs: Binlog::request_stream, BinlogStream::next_event", "mybinlog/src/mybinlog.rs: main, print_dmls", "mybinmsg/src/mybinmsg.rs: main"]}
{"id": "C94", "title": "From an event to what it says", "statement": "Reading a log event by event, and reading each event as its type, gives for every event exactly what the server wrote: its time, server, position, flags and contents, for all 27 types of events the library knows; and no event can be read as another type than its own: the conversion fails, it does not misinterpret the bytes.", "quantifier": "every log of events of the known types, every event", "why_tests_cant": "unbounded logs and all contents of all event types together", "anchors": ["mybin-core/src/binlog/mod.rs: Event, RawEvent, RawEvent::into_data", "mybin-core/src/binlog/util.rs: try_from_event", "mybin-core/src/binlog/parser.rs: ParserV4::parse_event", "mybin-core/src/binlog/header.rs: EventHeader"]}
{"id": "C95", "title": "Sent means on its way", "statement": "When a message has been sent, and the client goes on to wait for the answer, every byte of the message has been handed to the server, whatever transport the connection was made of; nothing stays in a buffer of the transport.", "quantifier": "every message, every transport with a write buffer of any size and fill", "why_tests_cant": "all buffer sizes against all message lengths", "anchors": ["mybin-async/src/conn.rs: Conn::send_msg, Conn::send_packet, Conn::new"]}
{"id": "C96", "title": "Nobody waits for nothing", "statement": "Whenever a call waits for the server, the server has heard a whole message it has not yet wholly answered: client and server never wait for each other. With a server that goes on answering as long as it owes something every session comes to its end, with the outcomes the protocol asks for.", "quantifier": "all programs over the client API, all servers, all ways the answers arrive in pieces", "why_tests_cant": "all interleavings of sending, answering and waiting", "anchors": ["mybin-async/src/conn.rs: Conn::recv_msg, Conn::send_msg, Conn commands", "mybin-async/src/query.rs: Query", "mybin-async/src/stmt.rs: Stmt, PreparedStmt", "mybin-async/src/resultset.rs: ResultSet"]}
{"id": "C97", "title": "Named flags mean what the server means", "statement": "Every named flag of the library (capabilities, server status, column flags, refresh, cursor, dump, event header, user variable, integer variable, session options, SQL modes) stands for the bit the server has under that name: a test on a value from the server tests that bit, and of a set put together from names the server sees exactly these.", "quantifier": "all names, all values and all sets of flags", "why_tests_cant": "all 2^64 values and all subsets of the names", "anchors": ["mybin-core/src/flag.rs: CapabilityFlags, StatusFlags", "mybin-core/src/col.rs: ColumnFlags", "mybin-core/src/cmd/refresh.rs: RefreshFlags", "mybin-core/src/cmd/stmt_execute.rs: CursorTypeFlags", "mybin-core/src/cmd/binlog_dump.rs: BinlogDumpGtidFlags", "mybin-core/src/binlog/header.rs: EventHeaderFlags", "mybin-core/src/binlog/query.rs: Flags2Code, SqlModeCode", "mybin-core/src/binlog/user_var.rs: UserVarFlags", "mybin-core/src/binlog/intvar.rs: IntvarKey"]}
{"id": "C98", "title": "A log reads the same from a file and from the server", "statement": "Reading a binlog file event by event and reading the same log from the server as a non-blocking stream give the same events in the same order and come to the same end: the end of the log, or the same error (wrong checksum, unknown type, unreadable description) at the same event. Every sequence of bytes has exactly one reading. A stream that goes on, blocking or not, gives up to every moment what the file gives up to there; if its connection is closed there, it ends with an error of the transport.", "quantifier": "all logs of events whose length fields are right and that are otherwise arbitrary bytes, all packet splittings of the stream, with and without checksums and their verification", "why_tests_cant": "arbitrary damaged events and packet splittings", "anchors": ["mybin-core/src/binlog/parser.rs: ParserV4::from_binlog_file, from_fde_bytes, parse_event", "mybin-async/src/binlog.rs: RequestStream::request_stream, BinlogStream::next_event"]}
{"id": "C99", "title": "A parameter read back is the value that was given", "statement": "If the values given as parameters of a prepared statement come back in a row of its result, each column read as the Rust type of its parameter is the value that was given; None comes back as None.", "quantifier": "all lists of values of the Rust types that can be parameters, all encodings the server may pick for the row", "why_tests_cant": "all values of twenty types", "anchors": ["mybin-core/src/stmt.rs: ToColumnValue, StmtColumnValue", "mybin-core/src/cmd/stmt_execute.rs: ComStmtExecute", "mybin-core/src/resultset.rs: FromColumnValue<BinaryColumnValue>", "mybin-core/src/time.rs: MyDateTime"]}
{"id": "C100", "title": "The text of JSON change records", "statement": "Serialised with serde_json, the change records of every row event are one line of UTF-8 text that is a JSON text (RFC 8259); a consumer reads in it exactly the records that were made, in their order, with every name once; the number written for a FLOAT has the value of the float.", "quantifier": "all row events, table definitions and values for which records are made", "why_tests_cant": "all strings, all numbers and all orders of columns; no test covers every character and every float", "anchors": ["mybin-core/src/binlog/transform/json.rs: JsonRows, JsonRow, to_json_value"]}
{"id": "C101", "title": "Room is asked for only for what has arrived", "statement": "Decoding or receiving bytes never asks in advance for room for more elements than a fixed multiple of the bytes received: a count in a message or an event does not by itself make the client allocate.", "quantifier": "all byte strings given to the decoders of log events, GTID sets, rows and messages, all numbers of columns", "why_tests_cant": "all inputs, including ones crafted to make the client run out of memory; tests decode small well-formed input and do not see allocations", "anchors": ["mybin-core/src/binlog/gtid.rs: GtidSet, GtidRange", "mybin-core/src/cmd/binlog_dump.rs: SidData, SidRange", "mybin-core/src/col.rs: ColumnMetas", "mybin-core/src/row.rs: TextRow, BinaryRow, LogRow", "mybin-core/src/binlog/rows_v2.rs: RowsV2, UpdateRowsV2", "mybin-async/src/conn.rs: recv_msg", "mybin-async/src/resultset.rs: new_result_set"]}
{"id": "C102", "title": "The configuration of the messenger program is followed", "statement": "mybinmsg connects to the server its configuration names, and passes the events of the tables the configuration subscribes to, and no others, on to the place it names: standard output or a URL.", "quantifier": "all configurations, all servers that accept the login and open the stream, all sequences of events", "why_tests_cant": "all configurations and logs: the only test of the configuration prints what was read", "anchors": ["mybinmsg/src/mybinmsg.rs: main, connect_tcp", "mybinmsg/src/config.rs: Config, Subscribe, Notify"]}
{"id": "C103", "title": "Reading can go on where it stopped", "statement": "A reader of a binlog stream that stops at any moment can go on later: the file and position it gets from the rotate events and the next positions of the events returned, used in a new request, make the master send exactly the events after those already returned. Nothing that happened at the master is lost and nothing is seen twice.", "quantifier": "all logs of any number of files, all places a reader starts from, all moments it stops at, all masters that serve the log, with heartbeats and unknown events anywhere", "why_tests_cant": "all histories of a log and all stopping points: a test would need a server and two connections", "anchors": ["mybin-async/src/binlog.rs: Binlog::request_stream, BinlogStream::next_event", "mybin-core/src/binlog/header.rs: EventHeader::next_position", "mybin-core/src/binlog/rotate.rs: RotateData"]}
{"id": "C104", "title": "Transactions a reader names are not sent again", "statement": "A request to a master in GTID mode that names transactions makes the master send exactly the transactions not named. So a reader that stops at any moment can name, in a new request, the transactions whose GTID events were returned before the last one: the two readers together see every transaction of the log not named at first, event by event, and no transaction twice as a whole. The set in a PREVIOUS_GTIDS event can be used the same way.", "quantifier": "all logs of transactions with different GTIDs, all sets named, all moments a reader stops at, with events between transactions and unknown events anywhere", "why_tests_cant": "all histories of a log, all sets of GTIDs and all stopping points: a test would need a server in GTID mode and two connections", "anchors": ["mybin-async/src/binlog.rs: Binlog::request_stream, RequestStream::sids, BinlogStream::next_event", "mybin-core/src/cmd/binlog_dump.rs: ComBinlogDumpGtid, SidData, SidRange", "mybin-core/src/binlog/gtid.rs: GtidLogData, PreviousGtidsLogData, GtidInterval"]}
{"id": "C105", "title": "A stream follows the log from file to file", "statement": "The events of a stream that goes on from one file of the log to the next are handed out as they are in the log, also when the checksum setting was changed between two files. (Found false: the setting of the first file is used for all others. After a change to no checksums each event loses the last four bytes of its payload or is refused, and short events make the reader panic; after the opposite change the checksum is handed out as part of the payload.)", "quantifier": "all sequences of files, each with or without checksums, and all events in them", "why_tests_cant": "all histories of a log with changes of a server setting in them: a test would need a server and a change of its settings while a stream is open", "anchors": ["mybin-async/src/binlog.rs: BinlogStream::next_event, BinlogStream::recv_and_parse", "mybin-core/src/binlog/parser.rs: ParserV4::parse_event, ParserV4::from_fde"]}
{"id": "C106", "title": "What is printed for a log does not depend on later changes to the tables", "statement": "The statements the dml command of mybinlog prints for a log are those for the tables as they were when the log was written, whatever was done to the tables since. (Found false: the columns are asked for when the log is read. Renamed or reordered columns give statements for other columns; dropped columns lose values; added columns are named without a value, which is no SQL, when the server sets the unused bits of its bitmaps; a table that was dropped ends the run with an error.)", "quantifier": "all logs, all catalogues at the time of the log and at the time of the reading, all options", "why_tests_cant": "all histories of a schema between the writing and the reading of a log: a test would need a server and would fix one change", "anchors": ["mybinlog/src/mybinlog.rs: print_dmls", "mybin-core/src/binlog/transform/mod.rs: filter_col_defs", "mybin-core/src/binlog/transform/sql.rs: from_insert, from_delete, from_update, sql_list"]}
{"id": "C107", "title": "How row changes are grouped into events does not matter for what is printed", "statement": "Two logs with the same row changes in the same order, in which rows that one log has in one rows event are spread over several events of the same table in the other, give the same output of the dml command of mybinlog, with every limit on the number of statements. (Found false in two cases: an update of a table without a key gives one note for each event and not for each row; and a row that cannot be written takes the statements of the rows before it in the same event with it.)", "quantifier": "all logs, all ways to split and join the rows events in it, any number of times, all filters, all limits, all tables", "why_tests_cant": "all groupings of the rows of a log into events: a server chooses them by the size of its buffers, which a test does not control", "anchors": ["mybinlog/src/mybinlog.rs: print_dmls", "mybin-core/src/binlog/rows_v2.rs: rows_v2, update_rows_v2", "mybin-core/src/binlog/transform/sql.rs: from_insert, from_delete, from_update, sql_list"]}
{"id": "C108", "title": "Events of other types do not disturb a reader", "statement": "Events of types a reader has no use for are passed over, whatever their type, also those of servers newer than the library: parse_event returns None for them, skip_event leaves the parser at the next event, the stream goes on with the next event, and the dml command of mybinlog prints what it prints without them. (Found false for types above 38, such as the compressed transactions of version 8.0: parsing and skipping are errors that leave the parser inside the event, next_event is an error, though the call after it goes on, and the dml command ends with an error.)", "quantifier": "all logs, all events in between, all event types, all parsers, options and filters", "why_tests_cant": "all mixtures of event types, including types that did not exist when the tests were written", "anchors": ["mybin-core/src/binlog/parser.rs: parse_event, skip_event", "mybin-core/src/binlog/header.rs: EventHeader, EventHeaderV1", "mybin-core/src/binlog/mod.rs: LogEventType", "mybin-async/src/binlog.rs: next_event", "mybinlog/src/mybinlog.rs: print_dmls"]}
{"id": "C109", "title": "Builds with and without overflow checks behave alike", "statement": "Compiled with overflow checks and debug assertions (cargo build) and without them (cargo build --release), the library returns the same values, errors and unread bytes and sends the same bytes; and where the first panics over an overflow the second reports an error rather than a result it made up. (Found false in its second half: the build without the checks hands out events too short for their checksum, takes a malformed format description for one with up to 255 entries, prints other times for TIME values of more than 2^31 hours, and other digits for malformed DECIMAL and BIT values. In its favour: it can send messages of more than 255 packets, which the other cannot.)", "quantifier": "all inputs of the event parser, the payload and row decoders, the greeting and the text forms of values, and all messages, packet numbers and sizes", "why_tests_cant": "tests run in one of the two builds; the inputs where they part are at the ends of the integer ranges", "anchors": ["bytes-parser/src/lib.rs: read_le_f64", "mybin-core/src/binlog/parser.rs: parse_event, skip_event, from_fde_bytes", "mybin-core/src/binlog/header.rs: data_len", "mybin-core/src/binlog/fde.rs: FormatDescriptionData", "mybin-core/src/binlog/load.rs: LoadData, NewLoadData", "mybin-core/src/binlog/rows_v2.rs: RowsV2, UpdateRowsV2", "mybin-core/src/col.rs: BinlogColumnValue", "mybin-core/src/decimal.rs: MyDecimal", "mybin-core/src/stmt.rs: to_sql_literal", "mybin-core/src/handshake.rs: InitialHandshake", "mybin-async/src/conn.rs: send_msg"]}
{"id": "C110", "title": "The printed statements mean the same in whatever session executes them", "statement": "A statement printed for a row event has the same effect in every session that executes it, whatever its time zone and sql_mode. (Found false: TIMESTAMP values are printed in UTC without saying so, and are other instants in every session with another time zone; strings with a backslash depend on NO_BACKSLASH_ESCAPES; 0 in an AUTO_INCREMENT column becomes another number without NO_AUTO_VALUE_ON_ZERO. True for all other values.)", "quantifier": "all values of all column kinds, all time zone offsets, both settings of the modes", "why_tests_cant": "a test has the time zone and the modes of one server, usually UTC and the defaults", "anchors": ["mybin-core/src/stmt.rs: to_sql_literal, new_timestamp", "mybin-core/src/binlog/transform/sql.rs: sql_list", "mybinlog/src/mybinlog.rs: printing of dml"]}
{"id": "C111", "title": "Lost, repeated and reordered packets are noticed", "statement": "When a packet of a message is lost, comes twice or comes out of order, or an answer belongs to another command, receiving reports an error rather than a message. (Found false: the numbers of packets are read and not compared with anything, so what is left of the packets is received as a message.)", "quantifier": "all messages of any number of packets, all ways to lose, repeat and exchange them, all numbers", "why_tests_cant": "tests run against servers and streams that deliver every packet once and in order", "anchors": ["mybin-async/src/conn.rs: recv_msg", "mybin-async/src/conn.rs: ping"]}
{"id": "C112", "title": "Every text can be exchanged", "statement": "Every text a caller can give (a Rust string) can be represented in the character set that the client announces when it logs in, so that the server takes and returns it unchanged. (Found false: character set 33, utf8mb3, is announced whatever the greeting says, which lacks the characters of four bytes; exactly the texts without those are representable.)", "quantifier": "all texts, all greetings", "why_tests_cant": "tests use ASCII", "anchors": ["mybin-core/src/handshake.rs: HandshakeClientResponse41", "mybin-core/src/cmd/change_user.rs: ComChangeUser"]}
{"id": "C113", "title": "A prepared statement is executed with as many values as it has placeholders", "statement": "exec, exec_close and qry of a prepared statement refuse a number of values other than the number of its placeholders, and with the right number the server sees the values given. (First half found false: nothing is compared; no values at all make a request the server cannot read, and one value too many makes one that it reads as another value.)", "quantifier": "all statements, all numbers and kinds of values", "why_tests_cant": "tests give the right number", "anchors": ["mybin-async/src/stmt.rs: exec, exec_close, qry", "mybin-core/src/cmd/stmt_execute.rs: ComStmtExecute"]}
{"id": "C114", "title": "What is printed for a log can be read back and executed", "statement": "The output of the dml command can be given to a program that executes it: read line by line, or by the mysql client, it is taken apart into exactly the statements printed; and what is printed as a comment is never executed. (True for a reader of lines exactly if no name and no value has a newline in it, and for the client only for an output of a single statement. Found false otherwise: newlines are printed as they are; no statement is ended by a semicolon, so two or more are sent as a single one, which a server refuses; a table name with a newline gets out of its comment and what follows in it is executed.)", "quantifier": "all row events, all rows and values, all names, all outputs of any number of statements and notes", "why_tests_cant": "tests look at single statements, not at the output as a whole as another program reads it", "anchors": ["mybinlog/src/mybinlog.rs: printing of dml", "mybin-core/src/binlog/transform/sql.rs: sql_list", "mybin-core/src/stmt.rs: to_sql_literal"]}
{"id": "C115", "title": "An output cut short holds no change that was not logged", "statement": "If the output of the dml command is cut off at any byte (the command is killed, the disk is full, the pipe is closed), then what is there, executed line by line, does the first of the logged changes and nothing else. (True for inserted rows: every piece of an INSERT is refused. Found false for deleted and updated rows: a piece of the last statement can be a statement that deletes or updates other rows, or more rows, of the same table, since the condition comes last and nothing ends the statement; another table or another kind of change is never the outcome.)", "quantifier": "all row events, all rows, values and names, all places to cut at", "why_tests_cant": "a crash can come at any byte of any output; tests look at complete output", "anchors": ["mybinlog/src/mybinlog.rs: printing of dml", "mybin-core/src/binlog/transform/sql.rs: from_insert, from_delete, from_update, sql_list"]}
{"id": "C116", "title": "What is printed is what was committed, transaction by transaction", "statement": "For a log of transactions the dml command prints the changes of the committed ones, in the order of the log, the lines of one transaction together, and nothing that was rolled back; it does not stop inside a transaction. (Found false in three ways: a transaction that ends with ROLLBACK is printed just as if it were committed; a limit can stop the output inside a transaction; changes that are logged as statements are not printed at all, without a word. True: the lines of a transaction depend on its own changes only, stay together and keep the order of the log.)", "quantifier": "all logs of any number of transactions, all endings, tables, rows and options", "why_tests_cant": "the order and the endings of transactions in a log are endless; tests use one transaction", "anchors": ["mybinlog/src/mybinlog.rs: printing of dml", "mybin-async/src/binlog.rs: next_event"]}
{"id": "C117", "title": "The list of files tells every name and size", "statement": "From what mybinlog list prints, the names and sizes of the files of the server can be read back exactly, in order, whatever characters the names consist of (quotes, braces, newlines, control characters, any script): read with the rules of Rust for string literals and numbers, the text is the list of the files; two different lists never print the same, and no name can end a line or send a control character to the terminal.", "quantifier": "all lists of files, all names, all sizes, all tables of printable characters", "why_tests_cant": "names are free text and the escapes depend on every character; tests print one ordinary name", "anchors": ["mybinlog/src/mybinlog.rs: exec (list)", "mybin-async/src/binlog.rs: BinlogFile", "mybin-async/src/conn.rs: binlog_files"]}
{"id": "C118", "title": "A connection that is lost is reported", "statement": "Whatever an application does with the API, if the connection is lost at any byte before the last one it would have read, it gets the error for the end of a stream: not a result made from half an answer, not the end of a result set or of a log, not another error and not a panic. The two programs print a beginning of what they would have printed and fail, unless nothing was missing.", "quantifier": "all uses of the API, all answers, all places where the connection is lost", "why_tests_cant": "a connection can be lost at every byte of every answer; tests end their streams between messages", "anchors": ["mybin-async/src/conn.rs: recv_msg and all operations", "mybin-async/src/resultset.rs", "mybin-async/src/binlog.rs", "mybinlog/src/mybinlog.rs", "mybinmsg/src/mybinmsg.rs"]}
{"id": "C119", "title": "An error of the server reaches the caller", "statement": "Whenever the server answers with an error, whichever call it answers, the caller gets this error: its code, its state and its text.", "quantifier": "all calls, arguments and errors", "why_tests_cant": "a server can refuse every call at every stage with any code and text; tests provoke one or two errors", "anchors": ["mybin-async/src/error.rs: From<ErrPacket>", "mybin-async/src/conn.rs", "mybin-async/src/query.rs", "mybin-async/src/stmt.rs", "mybin-async/src/resultset.rs: next_row", "mybin-async/src/binlog.rs: recv_and_parse_event"]}
{"id": "C120", "title": "A reader has an identity of its own", "statement": "A reader of the log announces the server id it was given, when it registers and when it asks for the log. A reader that was given no id announces one that is not 0 and not the id of the master or of another reader, since the master ends the connection of a reader when another one with the same id appears.", "quantifier": "all requests, all master ids, all draws of the random number", "why_tests_cant": "the id is drawn at random: a collision shows once in 2^32 runs", "anchors": ["mybin-async/src/binlog.rs: request_stream, server_id"]}
{"id": "C121", "title": "Copies of a connection", "statement": "A connection can be copied, and the copies share its stream. Calls made one after another, each on whichever copy made after the login, return what they would return on one connection, and the server receives the same bytes.", "quantifier": "all applications: any number of copies, any calls in any order, going on in any way after values and errors; all answers of the server", "why_tests_cant": "each copy has its own packet number and flags, and the interleavings of calls on copies are unbounded", "anchors": ["mybin-async/src/conn.rs: Conn (derive Clone), recv_msg, send_msg, set_multi_stmts"]}
{"id": "C122", "title": "The variable that is named", "statement": "get_var returns the value of the variable of the server that has the given name, and of no other, and None when there is none. set_var and set_user_var change this variable only: the global one exactly if global is true.", "quantifier": "all names, all variables of a server, all types and values", "why_tests_cant": "names are put into the text of statements and read there as patterns and syntax; tests use a handful of ordinary names on one server", "anchors": ["mybin-async/src/conn.rs: get_var, set_var, set_user_var"]}
{"id": "C123", "title": "Filters choose and change nothing", "statement": "The dml command with a database or table filter prints the lines it would print without filters for the tables that pass them, unchanged and in the same order, and no others; if it gets to the end of the log without filters, it does so with them.", "quantifier": "all filters, logs, tables, contents of row events (readable or not) and limits", "why_tests_cant": "compares two runs over all logs", "anchors": ["mybinlog/src/mybinlog.rs: print_dmls"]}
{"id": "C124", "title": "Queries and prepared statements give the same values", "statement": "A value read from the result of a query and from the result of a prepared statement, as the same Rust type, is the same value, or is refused both times.", "quantifier": "all rows, values of the column types of the server, encodings of them the protocols allow, and Rust types made for the column (except floats)", "why_tests_cant": "compares two protocols over all values", "anchors": ["mybin-core/src/resultset.rs: FromColumnValue", "mybin-core/src/time.rs: MyTime, MyDateTime", "mybin-core/src/util.rs: try_from_text_column_value, try_number_from_binary_column_value"]}
{"id": "C125", "title": "Floating-point numbers survive as text", "statement": "A FLOAT or DOUBLE written into an SQL statement or a JSON record is read back from the text as the same number, and a number in the text of a query result is read as the float nearest to it, the same as a prepared statement gives.", "quantifier": "all bit patterns of 32 and 64 bits, all columns, rows and row events that contain them, all numerals of any length", "why_tests_cant": "2^64 values, rounding and shortest digits", "anchors": ["mybin-core/src/stmt.rs: to_sql_literal", "mybin-core/src/binlog/transform/json.rs: to_json_value", "mybin-core/src/resultset.rs: FromColumnValue for f32, f64", "mybin-core/src/util.rs: try_from_text_column_value"]}
{"id": "C126", "title": "Statements and records tell the same changes", "statement": "The SQL statements and the JSON change records made from a row event tell the same changes: the statements, run on a copy of the table, make exactly the changes that a consumer reads in the text of the records.", "quantifier": "all row events with their tables, rows and values, all contents of the copy", "why_tests_cant": "compares two outputs over all row events", "anchors": ["mybin-core/src/binlog/transform/sql.rs: FromRowsEvent for PreparedSql", "mybin-core/src/binlog/transform/json.rs: FromRowsEvent for JsonRows", "mybin-core/src/stmt.rs: to_sql_literal"]}
{"id": "C127", "title": "The log of mybinmsg tells every file and event", "statement": "Every message mybinmsg logs about a file or an event is one line, and read as the value of Rust it shows it gives back that file or event: names of any characters, sizes, types, every field of the header with the flags the library knows, and the data to the last byte. Different events never have the same message, and the messages of a run are readable one by one whatever the server sends. The first message tells the number of the files.", "quantifier": "all servers and runs, all files and events, all bytes of data, all characters of names", "why_tests_cant": "quantifies over all bytes an event can have, and over all runs", "anchors": ["mybinmsg/src/mybinmsg.rs: main", "mybin-core/src/binlog/mod.rs: Event, RawEvent, LogEventType", "mybin-core/src/binlog/header.rs: EventHeader, EventHeaderFlags", "mybin-async/src/binlog.rs: BinlogFile"]}
{"id": "C128", "title": "A connection that breaks while sending", "statement": "When the connection breaks while a call is sending, at any byte, the server has got exactly the bytes before the break: the messages of the calls before, whole, and of the message being sent a piece that cannot be taken for a message. The calls before have their usual outcomes; the call that was sending fails with the error of the stream, except that setting a variable succeeds if only the closing of its statement was lost; all later calls on the connection fail with that error and send nothing. Nobody is logged in, no user is changed and no stream of events is opened unless all of the messages for it were sent; the programs print the beginning of what they would print. A call that fails with the error of the stream was not carried out by the server.", "quantifier": "all calls, all applications that make calls depending on earlier outcomes, all server answers, and all bytes at which the stream breaks", "why_tests_cant": "quantifies over every byte of every message as the point of failure, and over all sessions", "anchors": ["mybin-async/src/conn.rs: send_msg, send_packet and the commands", "mybin-async/src/stmt.rs: prepare, exec, exec_close, close", "mybin-async/src/query.rs: exec, qry", "mybin-async/src/binlog.rs: request_stream", "mybinlog/src/mybinlog.rs: main", "mybinmsg/src/mybinmsg.rs: main"]}
{"id": "C129", "title": "A log of several files is printed like its files one after another", "statement": "The dml command, told to read until now, prints for a log of several files the lines it prints for each of the files in a run of its own, one file after another, and ends as the first run does that does not come to its end. With a limit, these lines are cut after that many statements.", "quantifier": "all logs of any number of files, with any rows, all filters and limits, whatever a master sends between two files", "why_tests_cant": "quantifies over all logs, and compares one run with any number of others", "anchors": ["mybinlog/src/mybinlog.rs: print_dmls", "mybin-async/src/binlog.rs: request_stream, next_event"]}
{"id": "C130", "title": "How row changes are grouped into events does not matter for their JSON records", "statement": "The JSON records made from rows events of a table depend on the rows and their order only: the same rows spread over events in two ways give, one event after another, the same records in the same order; and if some event of the one grouping gives no records because a row has none, then so does some event of the other. (Found false for the records of single rows: a row without a record takes those of the other rows of its event with it.)", "quantifier": "all tables, all inserted, updated and deleted rows, all ways to spread them over any number of events", "why_tests_cant": "quantifies over all rows and all pairs of groupings", "anchors": ["mybin-core/src/binlog/transform/json.rs: from_insert, from_update, from_delete", "mybin-core/src/binlog/rows_v2.rs: RowsV2, UpdateRowsV2"]}
{"id": "C131", "title": "A login proves the password for one challenge", "statement": "Whatever a server sends, logging in or changing the user gives out at most one proof of the password, the one for the challenge the server opened with: the client cannot be used to answer challenges of the server's choice. (Found false with mysql_native_password: every further message of the server is answered with a proof for its content, however many there are.)", "quantifier": "all accounts, passwords and greetings, all bytes a server may send, all lists of further challenges", "why_tests_cant": "quantifies over everything a server may send and over every number of challenges", "anchors": ["mybin-async/src/conn.rs: handshake, change_user", "mybin-async/src/auth_plugin.rs: NativePassword::next, CachingSha2Password::next"]}
{"id": "C132", "title": "Operations read whole messages", "statement": "Whatever an application does with the operations of the API and whatever the server sends, what has been read when an operation returns a value or an error is a series of whole messages from the front of the stream, so that the next operation begins where a message begins; the only exception is an error because the stream came to its end, after which nothing is left of it.", "quantifier": "all applications made of the operations of the API one after another, with handling of errors; all bytes a server may send", "why_tests_cant": "quantifies over every application, every server and every error", "anchors": ["mybin-async/src/conn.rs: recv_msg, send_msg and the commands of Conn", "mybin-async/src/query.rs", "mybin-async/src/stmt.rs", "mybin-async/src/resultset.rs", "mybin-async/src/binlog.rs"]}
{"id": "C133", "title": "No more is printed than has arrived", "statement": "Whatever the servers send and however a run ends, mybinlog prints no more statements, notes and files, and mybinmsg logs no more files and events, than there are bytes that came on the connection the log is read from: a server cannot make the programs print without end by sending little, for instance by announcing a number of rows or files it does not send.", "quantifier": "all options and configurations of the programs, all bytes the servers may send on the connections", "why_tests_cant": "quantifies over everything a server may send, with no bound on the number of events and rows", "anchors": ["mybinlog/src/mybinlog.rs: print_dmls", "mybinmsg/src/mybinmsg.rs: main", "mybin-core/src/binlog/rows_v2.rs", "mybin-async/src/binlog.rs: next_event"]}
{"id": "C134", "title": "What a program shows does not depend on the password", "statement": "With the same bytes from the servers, two runs that differ only in the password (both not empty) show the same: mybinlog and mybinmsg print the same lines and end the same way, and after a login or a change of the user every sequence of API calls returns the same values and errors and reads the same bytes. The password shows in nothing but the bytes sent to the server; it does not get into printed lines, error values, results or the later behaviour of the connection.", "quantifier": "all pairs of non-empty passwords, all users, databases and options, all bytes the servers may send, all sequences of API calls (also ones that choose by results and recover from errors), all hash functions with the sizes of SHA-1 and SHA-256", "why_tests_cant": "compares pairs of runs over all passwords and all servers", "anchors": ["mybin-async/src/conn.rs: handshake, change_user, gen_init_auth_resp", "mybin-async/src/auth_plugin.rs", "mybinlog/src/mybinlog.rs: main", "mybinmsg/src/mybinmsg.rs: main"]}
{"id": "C135", "title": "The random values of a run do not show", "statement": "With the same bytes from the servers, two runs of mybinlog or mybinmsg print the same lines and end the same way whatever UUID and server id they draw at random; and whatever an application does with a requested stream of binlog events, its results and errors and the bytes it reads are the same. The random values show in nothing but the bytes sent: the output is reproducible.", "quantifier": "all pairs of UUID texts of the same length and of random server ids, all options, all bytes the servers may send, all uses of the stream", "why_tests_cant": "compares pairs of runs over all random draws and all servers", "anchors": ["mybin-async/src/binlog.rs: request_stream", "mybinlog/src/mybinlog.rs: print_dmls", "mybinmsg/src/mybinmsg.rs: main"]}
{"id": "C136", "title": "What is printed comes from the servers", "statement": "With the same bytes from the servers, mybinlog and mybinmsg print the same lines and end the same way whatever user name, non-empty password, binlog file name and random values they run with: only the filters, the limit and whether to wait and to follow the log to the next file take part. In the API, two requests for a stream that agree on whether to wait and whether to check checksums differ in nothing but the bytes sent, whatever file, position, transactions, server id and heartbeat they ask for: the client itself never filters what the server chose to send.", "quantifier": "all pairs of user names, passwords, file names, positions, transaction sets, server ids, heartbeat periods and random values that are short enough for one packet, all filters and limits, all bytes the servers may send", "why_tests_cant": "compares pairs of runs over all requests and all servers", "anchors": ["mybin-async/src/binlog.rs: request_stream", "mybin-async/src/conn.rs: handshake", "mybinlog/src/mybinlog.rs: print_dmls", "mybinmsg/src/mybinmsg.rs: main"]}
{"id": "C137", "title": "Going further only adds to the output", "statement": "A run of mybinlog that is told to follow the log to the next file, to wait for more events or to print more statements prints everything the run without these options prints, in the same order, before anything else. Unless the shorter run stops by itself without an error, both print the same and end the same way. In the API, whatever events a stream that waits gives, the stream that does not wait gives too.", "quantifier": "all pairs of settings of until-now, block and limit in which the second goes at least as far, all other options, all bytes the servers may send, well formed or not", "why_tests_cant": "compares pairs of runs over all option settings and all servers", "anchors": ["mybinlog/src/mybinlog.rs: print_dmls", "mybin-async/src/binlog.rs: next_event, request_stream"]}
{"id": "C138", "title": "Requests for different things are different", "statement": "Two calls that ask for different things send different bytes: listing the fields of different tables or patterns, logging in as different users, with different answers to the challenge or to different databases, and asking for events of different files or from different positions. The server can therefore never take one request for another.", "quantifier": "all pairs of tables, patterns, users, authentication answers, databases, files, positions and transaction sets", "why_tests_cant": "compares pairs of calls over all arguments, and one pair that collides is enough to break it", "anchors": ["mybin-core/src/cmd/field_list.rs", "mybin-core/src/handshake.rs: HandshakeClientResponse41", "mybin-async/src/binlog.rs: request_stream"]}
{"id": "C139", "title": "Success is reported only for what has come to its end", "statement": "If mybinlog dml ends without an error, then it has printed exactly as many statements as the limit allows, or the last message it read from the server says that there are no more events (which is taken as the end only if the program does not wait for events, or in answer to the request itself, when nothing is printed), or the program was not told to go on to the next files and the last message is the rotation to another file. A connection that is cut before any of these is never reported as success. In the same way mybinlog list succeeds only if the last message it read ends the rows, or, when it lists no file, is an answer that is not an error, and mybinmsg, which waits for events, succeeds only if the server answers its request by the end of the events, and then it logs no event. For users of the library: reading all rows of a query, the answer that there are no more rows, and the answer that there are no more events are given only after a message of the server that says so. The same holds for the rows of prepared statements, and a statement without rows is reported as executed only if the last message read is an OK and none of the messages before it is an error.", "quantifier": "all bytes of all servers on both connections, all files, filters, limits and flags", "why_tests_cant": "a cut or a malformed answer can occur after any byte of any stream, and one that passes for the end is enough to break it", "anchors": ["mybinlog/src/mybinlog.rs: main, print_dmls", "mybinmsg/src/mybinmsg.rs: main", "mybin-async/src/binlog.rs: next_event, request_stream", "mybin-async/src/conn.rs: binlog_files"]}
