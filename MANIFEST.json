{
 "claims": [
  {
   "property": "C01",
   "status": "proved",
   "theorems": [
    "Mybin.C01_fixed_width_round_trip",
    "Mybin.C01_slice_write"
   ],
   "note": "all 16 fixed-width formats; f32/f64 as bit patterns"
  },
  {
   "property": "C02",
   "status": "partial",
   "theorems": [
    "Mybin.C02_unsigned_reads",
    "Mybin.C02_f64_short_panics_false",
    "Mybin.C02_f64_false",
    "Mybin.C02_f64_partial",
    "Mybin.C02_f64_panic_iff"
   ],
   "note": "all reads but read_le_f64, which panics on short input (C02_f64_false, exactly C02_f64_panic_iff)"
  },
  {
   "property": "C03",
   "status": "partial",
   "theorems": [
    "Mybin.C03_signed_reads_partial",
    "Mybin.C03_be_i24_false",
    "Mybin.C03_be_i24_actual",
    "Mybin.C03_be_i40_false",
    "Mybin.C03_be_i40_partial",
    "Mybin.C03_be_iff"
   ],
   "note": "all signed reads but read_be_i24 and read_be_i40, proved wrong (C03_be_i24_false, C03_be_i40_false; C03_be_iff says exactly for which bytes they are right)"
  },
  {
   "property": "C04",
   "status": "partial",
   "theorems": [
    "Mybin.C04_iff",
    "Mybin.C04_len_enc_int_round_trip_partial",
    "Mybin.C04_false",
    "Mybin.C04_markers",
    "Mybin.C04_variant"
   ],
   "note": "all n except 251, which is encoded as the NULL marker (C04_false, C04_iff)"
  },
  {
   "property": "C05",
   "status": "proved",
   "theorems": [
    "Mybin.C05_len_enc_int_decoding",
    "Mybin.C05_reencode"
   ],
   "note": ""
  },
  {
   "property": "C06",
   "status": "partial",
   "theorems": [
    "Mybin.C06_iff",
    "Mybin.C06_len_enc_str_round_trip_partial",
    "Mybin.C06_markers",
    "Mybin.C06_false"
   ],
   "note": "all lengths except 251 (C06_false, C06_iff)"
  },
  {
   "property": "C07",
   "status": "proved",
   "theorems": [
    "Mybin.C07_read_len",
    "Mybin.C07_read_until"
   ],
   "note": ""
  },
  {
   "property": "C08",
   "status": "proved",
   "theorems": [
    "Mybin.C08_async_read_any_chunking",
    "Mybin.C08_async_read_completes"
   ],
   "note": "every chunking of the source, including Pending and short reads"
  },
  {
   "property": "C09",
   "status": "partial",
   "theorems": [
    "Mybin.C09_false",
    "Mybin.C09_false_pending",
    "Mybin.C09_async_write_partial",
    "Mybin.C09_sent",
    "Mybin.C09_iff",
    "Mybin.C09_overshoot_false"
   ],
   "note": "holds for a sink that takes every byte at once; the future resends after a partial write (C09_false). C09_iff says exactly which transports get every integer, C09_sent what the others get"
  },
  {
   "property": "C10",
   "status": "proved",
   "theorems": [
    "Mybin.C10_index",
    "Mybin.C10_mark",
    "Mybin.C10_to_iter",
    "Mybin.C10_from_iter",
    "Mybin.C10_from_iter_to_iter"
   ],
   "note": ""
  },
  {
   "property": "C11",
   "status": "proved",
   "theorems": [
    "Mybin.C11_recv_message",
    "Mybin.C11_recv_sound",
    "Mybin.C11_round_trip"
   ],
   "note": "every message length and every packet size split"
  },
  {
   "property": "C12",
   "status": "partial",
   "theorems": [
    "Mybin.C12_sent_packets_partial",
    "Mybin.C12_false",
    "Mybin.C12_after_recv",
    "Mybin.C12_panic_iff"
   ],
   "note": "holds while the packet number does not pass 255; overflow panics (C12_false); C12_panic_iff says exactly when"
  },
  {
   "property": "C13",
   "status": "proved",
   "theorems": [
    "Mybin.C13_stream_of_messages",
    "Mybin.C13_truncated"
   ],
   "note": ""
  },
  {
   "property": "C14",
   "status": "proved",
   "theorems": [
    "Mybin.C14_ok_packet",
    "Mybin.C14_ok_no_panic",
    "Mybin.C14_without_info",
    "Mybin.C14_null_info"
   ],
   "note": "for the published layout; OK packets without the info string, as servers since 5.7 write them when it is empty, are errors on connections made with the default flags (C14_without_info); a login does not ask for that flag"
  },
  {
   "property": "C15",
   "status": "proved",
   "theorems": [
    "Mybin.C15_err_packet",
    "Mybin.C15_err_exact",
    "Mybin.C15_eof_packet",
    "Mybin.C15_no_panic"
   ],
   "note": ""
  },
  {
   "property": "C16",
   "status": "proved",
   "theorems": [
    "Mybin.C16_com_response",
    "Mybin.C16_handshake_message",
    "Mybin.C16_well_formed_recognised",
    "Mybin.C16_handshake_err_state_false",
    "Mybin.C16_change_user_response",
    "Mybin.C16_eof_response",
    "Mybin.C16_no_panic"
   ],
   "note": "the ERR state of a handshake answer is returned inside the message: C16_handshake_err_state_false"
  },
  {
   "property": "C17",
   "status": "partial",
   "theorems": [
    "Mybin.C17_panic_iff",
    "Mybin.C17_initial_handshake_partial",
    "Mybin.C17_short_auth_length_false"
   ],
   "note": "needs announced length >= 8 with SECURE_CONNECTION, panics otherwise (C17_short_auth_length_false, C17_panic_iff)"
  },
  {
   "property": "C18",
   "status": "partial",
   "theorems": [
    "Mybin.C18_handshake_response_partial",
    "Mybin.C18_server_reads_back_partial",
    "Mybin.C18_nul_terminated_auth_false",
    "Mybin.C18_len_251_false"
   ],
   "note": "needs PLUGIN_AUTH_LENENC, or SECURE_CONNECTION with short auth data, and no length 251; otherwise false (C18_nul_terminated_auth_false, C18_len_251_false)"
  },
  {
   "property": "C19",
   "status": "partial",
   "theorems": [
    "Mybin.C19_simple_commands",
    "Mybin.C19_string_commands",
    "Mybin.C19_integer_commands",
    "Mybin.C19_field_list",
    "Mybin.C19_table_dump_partial",
    "Mybin.C19_table_dump_false",
    "Mybin.C19_register_slave_partial",
    "Mybin.C19_register_slave_false",
    "Mybin.C19_change_user_partial",
    "Mybin.C19_change_user_false",
    "Mybin.C19_field_list_iff",
    "Mybin.C19_table_dump_iff",
    "Mybin.C19_register_slave_iff",
    "Mybin.C19_change_user_iff"
   ],
   "note": "all commands; length-prefixed strings need < 256 bytes, exactly which packets are read as meant: the _iff theorems (C19_table_dump_false, C19_register_slave_false, C19_change_user_false)"
  },
  {
   "property": "C20",
   "status": "proved",
   "theorems": [
    "Mybin.C20_command_codes",
    "Mybin.C20_column_types",
    "Mybin.C20_event_types"
   ],
   "note": "commands, column types and log event types"
  },
  {
   "property": "C21",
   "status": "proved",
   "theorems": [
    "Mybin.C21_binlog_dump",
    "Mybin.C21_binlog_dump_gtid",
    "Mybin.C21_builder_flags",
    "Mybin.C21_code_not_checked_false",
    "Mybin.C21_interval_count_false",
    "Mybin.C21_range_count_false"
   ],
   "note": "the readers accept any command code: C21_code_not_checked_false"
  },
  {
   "property": "C22",
   "status": "partial",
   "theorems": [
    "Mybin.C22_server_sees_parameters_partial",
    "Mybin.C22_constructors_sound",
    "Mybin.C22_constructor_values",
    "Mybin.C22_timestamp_micros_false",
    "Mybin.C22_typed_null_false"
   ],
   "note": "all parameter lists whose types match their values (every API constructor does); a NULL of another declared type is not sent as NULL (C22_typed_null_false), strings of 251 bytes are damaged (C23_blob_251_false)"
  },
  {
   "property": "C23",
   "status": "partial",
   "theorems": [
    "Mybin.C23_read",
    "Mybin.C23_write_partial",
    "Mybin.C23_round_trip_partial",
    "Mybin.C23_blob_251_false",
    "Mybin.C23_negative_zero_time_false",
    "Mybin.C23_timestamp_false",
    "Mybin.C23_bad_length",
    "Mybin.C23_write_iff",
    "Mybin.C23_round_trip_iff"
   ],
   "note": "decoding of every encoding proved; writing fails for 251-byte strings, negative zero time and timestamp read back as datetime (the _false theorems); C23_write_iff and C23_round_trip_iff say exactly which values are written and read back right"
  },
  {
   "property": "C24",
   "status": "partial",
   "theorems": [
    "Mybin.C24_decode",
    "Mybin.C24_shape",
    "Mybin.C24_no_panic_partial",
    "Mybin.C24_double_panics_false",
    "Mybin.C24_panic_iff"
   ],
   "note": "decoding and shape proved for all rows; no panic for rows without DOUBLE, which panics on 5-7 remaining bytes (C24_double_panics_false); C24_panic_iff says exactly which rows panic"
  },
  {
   "property": "C25",
   "status": "proved",
   "theorems": [
    "Mybin.C25_decode",
    "Mybin.C25_row_length",
    "Mybin.C25_no_panic"
   ],
   "note": ""
  },
  {
   "property": "C26",
   "status": "proved",
   "theorems": [
    "Mybin.C26_text_next_row",
    "Mybin.C26_binary_next_row",
    "Mybin.C26_text_collect",
    "Mybin.C26_binary_collect",
    "Mybin.C26_map_rows",
    "Mybin.C26_query_all"
   ],
   "note": "text, binary and mapped result sets; any number of rows and calls"
  },
  {
   "property": "C27",
   "status": "partial",
   "theorems": [
    "Mybin.C27_text_err_partial",
    "Mybin.C27_binary_false"
   ],
   "note": "text rows: an error, though not the one the server sent; binary rows: an ERR packet can be returned as a row (C27_binary_false)"
  },
  {
   "property": "C28",
   "status": "partial",
   "theorems": [
    "Mybin.C28_skip",
    "Mybin.C28_parse_extent",
    "Mybin.C28_no_panic_partial",
    "Mybin.C28_short_length_false",
    "Mybin.C28_event_length"
   ],
   "note": "consumption is exact for every input; an announced length below 19 (23 with checksums) panics (C28_short_length_false; exactly which inputs panic: C86)"
  },
  {
   "property": "C29",
   "status": "proved",
   "theorems": [
    "Mybin.C29_parse_event",
    "Mybin.C29_walk",
    "Mybin.C29_skip_same",
    "Mybin.C29_file"
   ],
   "note": ""
  },
  {
   "property": "C30",
   "status": "proved",
   "theorems": [
    "Mybin.C30_checksum_event",
    "Mybin.C30_parse_event",
    "Mybin.C30_not_enabled"
   ],
   "note": "for announced lengths of at least 4; smaller ones panic, see C28"
  },
  {
   "property": "C31",
   "status": "partial",
   "theorems": [
    "Mybin.C31_burst_detected_partial",
    "Mybin.C31_stored_checksum",
    "Mybin.C31_length_field_false"
   ],
   "note": "every burst that leaves the 4 bytes of the length field as they are; a burst in the length field can go undetected (C31_length_field_false)"
  },
  {
   "property": "C32",
   "status": "partial",
   "theorems": [
    "Mybin.C32_decode",
    "Mybin.C32_parser",
    "Mybin.C32_no_panic_partial",
    "Mybin.C32_malformed_false"
   ],
   "note": "decoding and checksum setting proved; malformed payloads panic (C32_malformed_false; exactly which: C86)"
  },
  {
   "property": "C33",
   "status": "proved",
   "theorems": [
    "Mybin.C33_accepted_range",
    "Mybin.C33_decode_range",
    "Mybin.C33_accepted_set",
    "Mybin.C33_decode_set",
    "Mybin.C33_rejects",
    "Mybin.C33_huge_count_false",
    "Mybin.C33_duplicate_server"
   ],
   "note": "for fewer than 2^57 servers and 2^58 intervals; larger announced counts panic (C33_huge_count_false)"
  },
  {
   "property": "C34",
   "status": "partial",
   "theorems": [
    "Mybin.C34_table_map_partial",
    "Mybin.C34_unsupported_false",
    "Mybin.C34_data",
    "Mybin.C34_type"
   ],
   "note": "every table map whose columns are of supported kinds; old TIMESTAMP, TIME, DATETIME and SET columns panic (C34_unsupported_false)"
  },
  {
   "property": "C35",
   "status": "partial",
   "theorems": [
    "Mybin.C35_rows_partial",
    "Mybin.C35_update_rows_partial",
    "Mybin.C35_data"
   ],
   "note": "every write, update and delete event with at least one logged column, values as in C37"
  },
  {
   "property": "C36",
   "status": "partial",
   "theorems": [
    "Mybin.C36_value",
    "Mybin.C36_rows_partial",
    "Mybin.C36_update_rows_partial",
    "Mybin.C36_no_columns_false",
    "Mybin.C36_header_false",
    "Mybin.C36_endless_iff",
    "Mybin.C36_update_endless_iff",
    "Mybin.C36_value_iff",
    "Mybin.C36_panic_iff",
    "Mybin.C36_update_panic_iff"
   ],
   "note": "any bytes after a usable header; needs at least one logged column (C36_no_columns_false: endless loop), extra-data length of 2 or more and enough metadata (C36_header_false), and columns whose values cannot panic, which C36_value characterises exactly; C36_panic_iff and C36_update_panic_iff say exactly which payloads panic (C36_value_iff for one value), C36_endless_iff and C36_update_endless_iff which payloads never end"
  },
  {
   "property": "C37",
   "status": "partial",
   "theorems": [
    "Mybin.C37_decode_partial",
    "Mybin.C37_width_partial",
    "Mybin.C37_timestamp_fraction_false",
    "Mybin.C37_enum"
   ],
   "note": "every column kind; TIMESTAMP drops and misaligns its fraction (C37_timestamp_fraction_false), DECIMAL and DATETIME as in C38 and C39"
  },
  {
   "property": "C38",
   "status": "partial",
   "theorems": [
    "Mybin.C38_decode_partial",
    "Mybin.C38_nine_digits_false",
    "Mybin.C38_display_partial",
    "Mybin.C38_display_false",
    "Mybin.C38_missing_false",
    "Mybin.C38_nine_digits_exact",
    "Mybin.C38_fraction_exact",
    "Mybin.C38_decode_iff",
    "Mybin.C38_display_iff"
   ],
   "note": "values exactly when the number of integer digits is not a multiple of nine (C38_nine_digits_false, C38_decode_iff; C38_nine_digits_exact and C38_fraction_exact say what is read otherwise); a missing value reads as zero (C38_missing_false); text when no inner group of nine digits starts with a zero (C38_display_false; C38_display_iff is exact)"
  },
  {
   "property": "C39",
   "status": "partial",
   "theorems": [
    "Mybin.C39_time_partial",
    "Mybin.C39_negative_fraction_false",
    "Mybin.C39_datetime",
    "Mybin.C39_old_time",
    "Mybin.C39_zero_bytes_false",
    "Mybin.C39_negative_exact",
    "Mybin.C39_time_iff"
   ],
   "note": "datetimes in full; times unless negative with a fraction (C39_negative_fraction_false; C39_time_iff is exact, C39_negative_exact says what they are read as); the zero datetime bytes panic (C39_zero_bytes_false)"
  },
  {
   "property": "C40",
   "status": "partial",
   "theorems": [
    "Mybin.C40_insert_partial",
    "Mybin.C40_delete_partial",
    "Mybin.C40_update_partial",
    "Mybin.C40_insert_placeholders",
    "Mybin.C40_insert_false",
    "Mybin.C40_insert_exact",
    "Mybin.C40_delete_exact",
    "Mybin.C40_update_exact",
    "Mybin.C40_insert_iff",
    "Mybin.C40_delete_iff",
    "Mybin.C40_update_iff",
    "Mybin.C40_insert_total",
    "Mybin.C40_delete_total",
    "Mybin.C40_update_total"
   ],
   "note": "every event whose logged columns come before the columns that are not logged; otherwise columns are paired with wrong values (C40_insert_false). C40_insert_exact, C40_delete_exact and C40_update_exact say what the statements hold with any set of logged columns, C40_insert_iff, C40_delete_iff and C40_update_iff say exactly with which logged columns they are right for every row"
  },
  {
   "property": "C41",
   "status": "proved",
   "theorems": [
    "Mybin.C41_sql_list",
    "Mybin.C41_one_per_row",
    "Mybin.C41_plain"
   ],
   "note": ""
  },
  {
   "property": "C42",
   "status": "partial",
   "theorems": [
    "Mybin.C42_string_partial",
    "Mybin.C42_backslash_false",
    "Mybin.C42_quote_false",
    "Mybin.C42_not_text_false",
    "Mybin.C42_panic_iff",
    "Mybin.C42_blob",
    "Mybin.C42_string_iff"
   ],
   "note": "text that is UTF-8 without quotes or backslashes, or ASCII without backslashes, and every blob; a backslash changes the string (C42_backslash_false), a quote changes characters outside ASCII (C42_quote_false), and text that is not UTF-8 panics (C42_not_text_false, C42_panic_iff); C42_string_iff says exactly which strings survive"
  },
  {
   "property": "C43",
   "status": "partial",
   "theorems": [
    "Mybin.C43_limit",
    "Mybin.C43_at_most",
    "Mybin.C43_prints_partial",
    "Mybin.C43_first_file_partial",
    "Mybin.C43_rotation",
    "Mybin.C43_version1_false",
    "Mybin.C43_remap_false",
    "Mybin.C43_unwanted_false",
    "Mybin.C43_key_false"
   ],
   "note": "the limit in full; the printed lines for logs with row events of version 2 in which an id keeps its table within a file and tables have supported columns. Row events of version 1 are not printed (C43_version1_false), an id that gets another table keeps the old one (C43_remap_false), an unwanted table with a SET or JSON column ends the run (C43_unwanted_false), the missing-key note is printed for keys of several columns (C43_key_false)"
  },
  {
   "property": "C44",
   "status": "proved",
   "theorems": [
    "Mybin.C44_native",
    "Mybin.C44_native_bare",
    "Mybin.C44_hash_only"
   ],
   "note": "for every hash function of the right size, so also for SHA-1 (Spec/Sha.lean)"
  },
  {
   "property": "C45",
   "status": "partial",
   "theorems": [
    "Mybin.C45_scramble_partial",
    "Mybin.C45_response_partial",
    "Mybin.C45_nonce_ignored_false",
    "Mybin.C45_rejected_false",
    "Mybin.C45_false",
    "Mybin.C45_answers"
   ],
   "note": "the scramble is right for the nonce the plugin holds, but the plugin never gets the nonce of the server (C45_nonce_ignored_false, C45_false)"
  },
  {
   "property": "C46",
   "status": "proved",
   "theorems": [
    "Mybin.C46_by_index",
    "Mybin.C46_by_name",
    "Mybin.C46_never_wrong"
   ],
   "note": "for every lower-casing function and repeated names"
  },
  {
   "property": "C47",
   "status": "partial",
   "theorems": [
    "Mybin.C47_status_vars_partial",
    "Mybin.C47_over_max_dbs_false",
    "Mybin.C47_unknown_key",
    "Mybin.C47_query",
    "Mybin.C47_no_panic",
    "Mybin.C47_status_vars_iff"
   ],
   "note": "all status variables but the over-16-databases marker, which is misread (C47_over_max_dbs_false, exactly C47_status_vars_iff); unknown keys are an error (C47_unknown_key)"
  },
  {
   "property": "C48",
   "status": "partial",
   "theorems": [
    "Mybin.C48_file_block_never_false",
    "Mybin.C48_rotate",
    "Mybin.C48_intvar",
    "Mybin.C48_rand",
    "Mybin.C48_xid",
    "Mybin.C48_user_var",
    "Mybin.C48_user_var_value",
    "Mybin.C48_incident",
    "Mybin.C48_gtid",
    "Mybin.C48_load",
    "Mybin.C48_new_load",
    "Mybin.C48_file_id",
    "Mybin.C48_begin_load_query",
    "Mybin.C48_file_block_partial",
    "Mybin.C48_file_block_false",
    "Mybin.C48_execute_load_query"
   ],
   "note": "every payload except raw file blocks, which are cut at the first NUL (C48_file_block_false), so that none is returned as it is (C48_file_block_never_false)"
  },
  {
   "property": "C49",
   "status": "partial",
   "theorems": [
    "Mybin.C49_column_def_partial",
    "Mybin.C49_column_def_default_partial",
    "Mybin.C49_definitions_partial",
    "Mybin.C49_unsupported_false",
    "Mybin.C49_no_panic",
    "Mybin.C49_unsigned"
   ],
   "note": "columns of supported types; others such as JSON, ENUM and SET are errors (C49_unsupported_false)"
  },
  {
   "property": "C50",
   "status": "partial",
   "theorems": [
    "Mybin.C50_prepare_partial",
    "Mybin.C50_prepare_err"
   ],
   "note": "definitions of supported types (C49)"
  },
  {
   "property": "C51",
   "status": "partial",
   "theorems": [
    "Mybin.C51_query_exec_partial",
    "Mybin.C51_stmt_exec_partial",
    "Mybin.C51_result_set_false",
    "Mybin.C51_empty_message_false",
    "Mybin.C51_more_results_false"
   ],
   "note": "OK and ERR responses; of several statements only the first answer is read (C51_more_results_false), result sets are read past their end (C51_result_set_false) and an empty message panics (C51_empty_message_false)"
  },
  {
   "property": "C52",
   "status": "proved",
   "theorems": [
    "Mybin.C52_exec_close",
    "Mybin.C52_result_set_close"
   ],
   "note": ""
  },
  {
   "property": "C53",
   "status": "partial",
   "theorems": [
    "Mybin.C53_events",
    "Mybin.C53_end_partial",
    "Mybin.C53_completed",
    "Mybin.C53_after_end_false",
    "Mybin.C53_after_end_error",
    "Mybin.C53_other_message"
   ],
   "note": "events and the first end; a call after the end waits for another message instead of reporting the end (C53_after_end_false)"
  },
  {
   "property": "C54",
   "status": "partial",
   "theorems": [
    "Mybin.C54_rows_exact",
    "Mybin.C54_insert_iff",
    "Mybin.C54_insert_repeated",
    "Mybin.C54_insert_partial",
    "Mybin.C54_delete_partial",
    "Mybin.C54_update_partial",
    "Mybin.C54_forms",
    "Mybin.C54_insert_false",
    "Mybin.C54_delete_iff",
    "Mybin.C54_update_exact",
    "Mybin.C54_update_iff"
   ],
   "note": "events whose logged columns come first and whose column names are distinct; otherwise false (C54_insert_false). C54_rows_exact and C54_insert_repeated say what the records hold otherwise, C54_update_exact for updates; C54_insert_iff, C54_delete_iff and C54_update_iff that they are right for every row exactly when the logged columns come first"
  },
  {
   "property": "C55",
   "status": "proved",
   "theorems": [
    "Mybin.C55_param_sql",
    "Mybin.C55_param_json",
    "Mybin.C55_binlog_sql",
    "Mybin.C55_binlog_json",
    "Mybin.C55_column",
    "Mybin.C55_enum",
    "Mybin.C55_int24_param"
   ],
   "note": "every integer type, from the binlog and as parameters, in SQL and JSON"
  },
  {
   "property": "C56",
   "status": "partial",
   "theorems": [
    "Mybin.C56_native",
    "Mybin.C56_caching_partial",
    "Mybin.C56_refused",
    "Mybin.C56_unknown_method"
   ],
   "note": "mysql_native_password in full, ERR answers and unknown methods; caching_sha2_password only answers for the empty nonce (C45)"
  },
  {
   "property": "C57",
   "status": "partial",
   "theorems": [
    "Mybin.C57_offered_partial",
    "Mybin.C57_unoffered_false",
    "Mybin.C57_iff",
    "Mybin.C57_no_plugin"
   ],
   "note": "against servers that offer every flag the client uses; the flags are not reduced to the offered ones (C57_unoffered_false; C57_iff is exact)"
  },
  {
   "property": "C58",
   "status": "partial",
   "theorems": [
    "Mybin.C58_switch_panics_false"
   ],
   "note": "a switch request panics while connecting (C58_switch_panics_false); it works in change_user"
  },
  {
   "property": "C59",
   "status": "proved",
   "theorems": [
    "Mybin.C59_handshake",
    "Mybin.C59_change_user"
   ],
   "note": "any server behaviour, as two runs with different passwords of equal digests; the client never sets up TLS"
  },
  {
   "property": "C60",
   "status": "partial",
   "theorems": [
    "Mybin.C60_native_partial",
    "Mybin.C60_ok",
    "Mybin.C60_refused",
    "Mybin.C60_unknown_method",
    "Mybin.C60_more_data_false",
    "Mybin.C60_extra_message_false"
   ],
   "note": "native password, direct OK, ERR and unknown methods; more data without a switch panics (C60_more_data_false) and caching_sha2 sends an extra message (C60_extra_message_false)"
  },
  {
   "property": "C61",
   "status": "proved",
   "theorems": [
    "Mybin.C61_init_db",
    "Mybin.C61_create_drop_db",
    "Mybin.C61_refresh",
    "Mybin.C61_process_kill",
    "Mybin.C61_reset_connection",
    "Mybin.C61_register_slave",
    "Mybin.C61_no_panic"
   ],
   "note": ""
  },
  {
   "property": "C62",
   "status": "partial",
   "theorems": [
    "Mybin.C62_ping_partial",
    "Mybin.C62_closed",
    "Mybin.C62_err_false"
   ],
   "note": "OK answers and closed connections; an ERR packet is read as an OK packet, so that ping succeeds (C62_err_false)"
  },
  {
   "property": "C63",
   "status": "proved",
   "theorems": [
    "Mybin.C63_statistics"
   ],
   "note": "an ERR packet is reported as text that is not UTF-8, without its code"
  },
  {
   "property": "C64",
   "status": "partial",
   "theorems": [
    "Mybin.C64_field_list_partial",
    "Mybin.C64_err",
    "Mybin.C64_null_default_false",
    "Mybin.C64_no_panic"
   ],
   "note": "columns of supported types (C49); a NULL default is returned as an empty string (C64_null_default_false)"
  },
  {
   "property": "C65",
   "status": "partial",
   "theorems": [
    "Mybin.C65_debug",
    "Mybin.C65_set_multi_stmts_partial",
    "Mybin.C65_set_multi_stmts_false"
   ],
   "note": "the operand is inverted: asking for multiple statements switches them off at the server and on in the client (C65_set_multi_stmts_false)"
  },
  {
   "property": "C66",
   "status": "partial",
   "theorems": [
    "Mybin.C66_bool_iff",
    "Mybin.C66_unsigned",
    "Mybin.C66_signed",
    "Mybin.C66_strings",
    "Mybin.C66_column",
    "Mybin.C66_null",
    "Mybin.C66_bool_partial",
    "Mybin.C66_bool_false"
   ],
   "note": "integers, strings and NULL in full; numbers other than 0 and 1 are read as false (C66_bool_false, exactly C66_bool_iff)"
  },
  {
   "property": "C67",
   "status": "partial",
   "theorems": [
    "Mybin.C67_same_sign_partial",
    "Mybin.C67_narrow",
    "Mybin.C67_medium_partial",
    "Mybin.C67_sign_false",
    "Mybin.C67_bool_partial",
    "Mybin.C67_bool_false",
    "Mybin.C67_strings",
    "Mybin.C67_own_types",
    "Mybin.C67_strings_exact",
    "Mybin.C67_null"
   ],
   "note": "same sign and a type at least as wide, narrower types are errors; with different signs values wrap silently (C67_sign_false), numbers other than 1 are false (C67_bool_false)"
  },
  {
   "property": "C68",
   "status": "partial",
   "theorems": [
    "Mybin.C68_time_text_partial",
    "Mybin.C68_sign_false",
    "Mybin.C68_fraction_false",
    "Mybin.C68_time_iff",
    "Mybin.C68_panic_iff"
   ],
   "note": "times with 0, 3 or 6 fractional digits that are not between -00:59:59 and 0; the sign of -00: is lost (C68_sign_false), with other numbers of digits a fraction is misread (C68_fraction_false); C68_time_iff says exactly which values are read right, C68_panic_iff which texts panic"
  },
  {
   "property": "C69",
   "status": "partial",
   "theorems": [
    "Mybin.C69_dates_partial",
    "Mybin.C69_zero_date_false",
    "Mybin.C69_datetime_iff",
    "Mybin.C69_my_date_time"
   ],
   "note": "every calendar date; zero dates panic (C69_zero_date_false); C69_datetime_iff says exactly which values"
  },
  {
   "property": "C70",
   "status": "partial",
   "theorems": [
    "Mybin.C70_get_var",
    "Mybin.C70_get_user_var",
    "Mybin.C70_pattern_partial",
    "Mybin.C70_injection_false",
    "Mybin.C70_pattern_iff"
   ],
   "note": "names without quotes and backslashes; names are not escaped (C70_injection_false); C70_pattern_iff says exactly which names are matched as themselves"
  },
  {
   "property": "C71",
   "status": "proved",
   "theorems": [
    "Mybin.C71_set_var"
   ],
   "note": ""
  },
  {
   "property": "C72",
   "status": "proved",
   "theorems": [
    "Mybin.C72_binlog_files"
   ],
   "note": "when every row is a name and a size"
  },
  {
   "property": "C73",
   "status": "partial",
   "theorems": [
    "Mybin.C73_after_all_partial",
    "Mybin.C73_dropped_false"
   ],
   "note": "when all rows have been read; rows left unread are taken as the answer to the next command (C73_dropped_false)"
  },
  {
   "property": "C74",
   "status": "partial",
   "theorems": [
    "Mybin.C74_description_type_false",
    "Mybin.C74_setup",
    "Mybin.C74_request_partial",
    "Mybin.C74_events_partial",
    "Mybin.C74_no_server_id",
    "Mybin.C74_dump_refused",
    "Mybin.C74_position_false",
    "Mybin.C74_gtids_false",
    "Mybin.C74_no_gtid_mode_false",
    "Mybin.C74_description_checksum_false",
    "Mybin.C74_short_rotate_false"
   ],
   "note": "every request when the GTID mode is ON, otherwise positions below 2^32 without GTIDs; larger positions are cut (C74_position_false), GTIDs ignored (C74_gtids_false), masters without GTID_MODE refused (C74_no_gtid_mode_false), the checksum of the description event is not verified (C74_description_checksum_false), a short rotate event panics (C74_short_rotate_false), and neither the marker nor the type of the description event is looked at (C74_description_type_false)"
  },
  {
   "property": "C75",
   "status": "proved",
   "theorems": [
    "Mybin.C75_receive",
    "Mybin.C75_receive_completes",
    "Mybin.C75_truncated"
   ],
   "note": ""
  },
  {
   "property": "C76",
   "status": "proved",
   "theorems": [
    "Mybin.C76_overflow",
    "Mybin.C76_send"
   ],
   "note": "for messages within the packet limit of C12"
  },
  {
   "property": "C77",
   "status": "partial",
   "theorems": [
    "Mybin.C77_drop_partial",
    "Mybin.C77_drop_recv_false",
    "Mybin.C77_drop_send_false",
    "Mybin.C77_drop_send_partial",
    "Mybin.C77_drop_anywhere_false"
   ],
   "note": "dropped before a byte was transferred (C77_drop_partial, C77_drop_send_partial); after one byte or more the next receive can return a message nobody sent, wherever the drop is (C77_drop_anywhere_false); dropped after a packet header the payload is read as packets (C77_drop_recv_false), and sent bytes are mixed with the next command (C77_drop_send_false)"
  },
  {
   "property": "C78",
   "status": "partial",
   "theorems": [
    "Mybin.C78_query_partial",
    "Mybin.C78_text_rows",
    "Mybin.C78_binary_rows_partial",
    "Mybin.C78_exec_partial",
    "Mybin.C78_prepare",
    "Mybin.C78_stmt_partial",
    "Mybin.C78_commands",
    "Mybin.C78_variables_partial",
    "Mybin.C78_lists_partial",
    "Mybin.C78_handshake_partial",
    "Mybin.C78_greeting",
    "Mybin.C78_change_user_partial",
    "Mybin.C78_packet_number_false",
    "Mybin.C78_binary_rows_iff"
   ],
   "note": "with these exceptions, each shown to panic: a result that begins with an empty message or the byte 0xfb alone (C78_query_partial), an empty message before the OK of an execution (C78_exec_partial), a greeting that announces fewer than eight bytes of authentication data (C78_greeting), a request to switch the method while connecting (C58_switch_panics_false), an authentication packet numbered 254 (C78_packet_number_false), more data before a method is chosen (C60_more_data_false), a row of a prepared statement in which a DOUBLE is cut short (C78_binary_rows_iff says exactly when); memory for announced columns is not modelled"
  },
  {
   "property": "C79",
   "status": "partial",
   "theorems": [
    "Mybin.C79_value_partial",
    "Mybin.C79_null",
    "Mybin.C79_datetime_fraction_false",
    "Mybin.C79_zero_date_false",
    "Mybin.C79_date_panic_iff",
    "Mybin.C79_bit_false",
    "Mybin.C79_geometry_false"
   ],
   "note": "all column kinds; DATETIME fractions are lost (C79_datetime_fraction_false), dates the calendar does not have panic (C79_zero_date_false, C79_date_panic_iff), BIT values of more than one byte are reversed (C79_bit_false), spatial values panic (C79_geometry_false); floats are those whose text is read back; limits of C37, C38 and C42"
  },
  {
   "property": "C80",
   "status": "partial",
   "theorems": [
    "Mybin.C80_insert_partial",
    "Mybin.C80_delete_partial",
    "Mybin.C80_update_partial",
    "Mybin.C80_name_false",
    "Mybin.C80_column_name_false",
    "Mybin.C80_no_key_false"
   ],
   "note": "names without a backtick (C80_name_false, C80_column_name_false), logged columns first (C40), for DELETE and UPDATE at least one key column (C80_no_key_false)"
  },
  {
   "property": "C81",
   "status": "partial",
   "theorems": [
    "Mybin.C81_insert_partial",
    "Mybin.C81_delete_partial",
    "Mybin.C81_update_partial",
    "Mybin.C81_log_partial",
    "Mybin.C81_null_key_false",
    "Mybin.C81_no_key_false"
   ],
   "note": "all columns logged, rows known by a key without NULL (C81_null_key_false, C81_no_key_false), values of C79, names of C80, logs of C43"
  },
  {
   "property": "C82",
   "status": "proved",
   "theorems": [
    "Mybin.C82_event_type",
    "Mybin.C82_peek",
    "Mybin.C82_select",
    "Mybin.C82_wanted",
    "Mybin.C82_file"
   ],
   "note": "for the event types the library reads"
  },
  {
   "property": "C83",
   "status": "partial",
   "theorems": [
    "Mybin.C83_sql_value",
    "Mybin.C83_json_value",
    "Mybin.C83_insert_partial",
    "Mybin.C83_delete_partial",
    "Mybin.C83_update_partial",
    "Mybin.C83_json_partial",
    "Mybin.C83_json_update_partial",
    "Mybin.C83_decoded"
   ],
   "note": "exactly when a value is a date, time or datetime the calendar library has no value for, a BIT of more than eight bytes, text that is not UTF-8 without a quote, or a spatial value (C83_sql_value, C83_json_value); which of these decoding yields: C83_decoded"
  },
  {
   "property": "C84",
   "status": "partial",
   "theorems": [
    "Mybin.C84_session_partial",
    "Mybin.C84_calls_partial",
    "Mybin.C84_more_results_false"
   ],
   "note": "C84_calls_partial covers all calls and answers but those for which the claim is false: rows not all read before the next call (C73_dropped_false), several result sets in one answer (C84_more_results_false), rows in answer to exec (C51_result_set_false), refused pings (C62_err_false), the operand of set_multi_stmts (C65_set_multi_stmts_false); columns of supported types (C49), change_user by mysql_native_password (C45)"
  },
  {
   "property": "C85",
   "status": "partial",
   "theorems": [
    "Mybin.C85_text_insert_partial",
    "Mybin.C85_text_delete_partial",
    "Mybin.C85_text_update_partial",
    "Mybin.C85_datetime_text",
    "Mybin.C85_time_text",
    "Mybin.C85_value_partial",
    "Mybin.C85_insert_partial",
    "Mybin.C85_delete_partial",
    "Mybin.C85_update_partial",
    "Mybin.C85_fraction_false",
    "Mybin.C85_bit_false",
    "Mybin.C85_zero_date_false"
   ],
   "note": "all columns logged; without DATETIME fractions (C85_fraction_false), dates the calendar does not have (C85_zero_date_false), BIT values of more than eight bits (C85_bit_false), text that is not UTF-8, floats that are not finite (C83_json_value); C85_text_*: the same, read from the JSON text of the records (C100)"
  },
  {
   "property": "C86",
   "status": "proved",
   "theorems": [
    "Mybin.C86_parse_event",
    "Mybin.C86_skip_event",
    "Mybin.C86_checksum_event",
    "Mybin.C86_next_event",
    "Mybin.C86_description",
    "Mybin.C86_from_description",
    "Mybin.C86_binlog_file",
    "Mybin.C86_payloads",
    "Mybin.C86_load",
    "Mybin.C86_gtid_set",
    "Mybin.C86_table_map"
   ],
   "note": "exact conditions; decoding the rows of row events is C36; table maps of less than 2^61 bytes"
  },
  {
   "property": "C87",
   "status": "partial",
   "theorems": [
    "Mybin.C87_list_partial",
    "Mybin.C87_dml_partial",
    "Mybin.C87_limit",
    "Mybin.C87_unreachable",
    "Mybin.C87_refused",
    "Mybin.C87_bad_filter_partial",
    "Mybin.C87_mybinmsg_partial",
    "Mybin.C87_mybinmsg_end",
    "Mybin.C87_unix_socket_false"
   ],
   "note": "limits of C43 (the log) and C45 (the nonce of caching_sha2_password); a Unix socket in the configuration of mybinmsg panics (C87_unix_socket_false); the text of the list is C117, that of the dml command C114; that of the log of mybinmsg C127"
  },
  {
   "property": "C88",
   "status": "proved",
   "theorems": [
    "Mybin.C88_call",
    "Mybin.C88_set_multi_stmts",
    "Mybin.C88_session",
    "Mybin.C88_request",
    "Mybin.C88_list",
    "Mybin.C88_mybinmsg",
    "Mybin.C88_dml",
    "Mybin.C88_sent_known",
    "Mybin.C88_login",
    "Mybin.C88_change_user"
   ],
   "note": "for calls that return: the bytes sent before a panic are not kept in the model (when calls panic is C78); names of tables without a zero byte for list_fields; what change_user says is C59 and C60"
  },
  {
   "property": "C89",
   "status": "proved",
   "theorems": [
    "Mybin.C89_datetime",
    "Mybin.C89_date",
    "Mybin.C89_no_such_date",
    "Mybin.C89_null",
    "Mybin.C89_any_text"
   ],
   "note": "the parsers of the calendar library (chrono) are part of the model, after their published source"
  },
  {
   "property": "C90",
   "status": "proved",
   "theorems": [
    "Mybin.C90_decimal",
    "Mybin.C90_other",
    "Mybin.C90_present",
    "Mybin.C90_not_a_number",
    "Mybin.C90_exponent_panics",
    "Mybin.C90_underscore"
   ],
   "note": "the parser of the decimal library (bigdecimal) is part of the model; other texts than those of DECIMAL columns can panic (C90_exponent_panics)"
  },
  {
   "property": "C91",
   "status": "partial",
   "theorems": [
    "Mybin.C91_request",
    "Mybin.C91_order",
    "Mybin.C91_dump",
    "Mybin.C91_dump_gtid",
    "Mybin.C91_heard_partial"
   ],
   "note": "the settings in full; what the server hears with the limits of C74 (positions cut to 32 bits and GTIDs ignored without GTID_MODE=ON)"
  },
  {
   "property": "C92",
   "status": "proved",
   "theorems": [
    "Mybin.C92_text",
    "Mybin.C92_binary",
    "Mybin.C92_field",
    "Mybin.C92_leading_space"
   ],
   "note": "the library check is part of the model"
  },
  {
   "property": "C93",
   "status": "proved",
   "theorems": [
    "Mybin.C93_settled",
    "Mybin.C93_mybinlog",
    "Mybin.C93_mybinmsg"
   ],
   "note": "an application that treats the end of the stream as an ordinary error and goes on is left out; the bytes sent before a panic are not kept in the model"
  },
  {
   "property": "C94",
   "status": "partial",
   "theorems": [
    "Mybin.C94_log_partial",
    "Mybin.C94_block_false",
    "Mybin.C94_convert"
   ],
   "note": "all 27 types but blocks of files, where the claim is false (C94_block_false), and query events with the marker for too many databases, where it is false (C47_over_max_dbs_false)"
  },
  {
   "property": "C95",
   "status": "partial",
   "theorems": [
    "Mybin.C95_arrives_iff",
    "Mybin.C95_unbuffered_partial",
    "Mybin.C95_silent_false"
   ],
   "note": "true for transports without a write buffer (C95_unbuffered_partial), false with one (C95_silent_false): the library never flushes; exactly when: C95_arrives_iff"
  },
  {
   "property": "C96",
   "status": "partial",
   "theorems": [
    "Mybin.C96_same",
    "Mybin.C96_owed_partial",
    "Mybin.C96_served_partial",
    "Mybin.C96_exec_rows_false",
    "Mybin.C96_stream_same",
    "Mybin.C96_stream_partial",
    "Mybin.C96_after_end_false",
    "Mybin.C96_login_native",
    "Mybin.C96_login_caching_partial",
    "Mybin.C96_change_user_partial"
   ],
   "note": "for the calls and answers of C84_session_partial; false for exec answered by rows (C96_exec_rows_false): it reads the whole answer and waits for more, and for next_event after the reported end (C96_after_end_false). Also login, change_user and binlog streams, each with the limits of C56, C60 and C74"
  },
  {
   "property": "C97",
   "status": "partial",
   "theorems": [
    "Mybin.C97_named_partial",
    "Mybin.C97_set_partial",
    "Mybin.C97_defined",
    "Mybin.C97_swapped_false"
   ],
   "note": "for all names but two column flags: NUM and PART_KEY are the wrong way round (C97_swapped_false)"
  },
  {
   "property": "C98",
   "status": "proved",
   "theorems": [
    "Mybin.C98_events",
    "Mybin.C98_log",
    "Mybin.C98_one_reading",
    "Mybin.C98_goes_on",
    "Mybin.C98_closed"
   ],
   "note": "for logs of events with right length fields, any content; the stream from the answer to the dump command on"
  },
  {
   "property": "C99",
   "status": "partial",
   "theorems": [
    "Mybin.C99_echo_partial",
    "Mybin.C99_my_date_time_false",
    "Mybin.C99_year_false",
    "Mybin.C99_fraction_false",
    "Mybin.C99_negative_zero_false",
    "Mybin.C99_text_251_false"
   ],
   "note": "false for MyDateTime (no column of a binary row can be read as one), for years outside of 0 to 65535, for fractions finer than a microsecond and leap seconds, for a negative time of zero and for texts of 251 bytes: C99_*_false; all other values come back"
  },
  {
   "property": "C100",
   "status": "proved",
   "theorems": [
    "Mybin.C100_widen",
    "Mybin.C100_text"
   ],
   "note": "assumed of the library: the text of a double (ryu) is a number with a fraction or an exponent that the consumer reads as the same double (proved of a model of ryu in C125)"
  },
  {
   "property": "C101",
   "status": "partial",
   "theorems": [
    "Mybin.C101_same",
    "Mybin.C101_log_partial",
    "Mybin.C101_total_partial",
    "Mybin.C101_row",
    "Mybin.C101_message",
    "Mybin.C101_gtid_false",
    "Mybin.C101_columns_false",
    "Mybin.C101_rows_false",
    "Mybin.C101_factor_false"
   ],
   "note": "the full statement is false of the code: eight bytes ask for any number of GTID entries (C101_gtid_false), nine bytes for any 32-bit number of column definitions (C101_columns_false), and the rows of an event together for the square of its length (C101_rows_false, C101_factor_false); proved: table maps, single rows of events and of results, messages; what is appended one by one is not counted"
  },
  {
   "property": "C102",
   "status": "partial",
   "theorems": [
    "Mybin.C102_connect_partial",
    "Mybin.C102_subscribe_false",
    "Mybin.C102_unwanted_false",
    "Mybin.C102_notify_false",
    "Mybin.C102_socket_false"
   ],
   "note": "the full statement is false of the code: the filters and the place are never looked at (C102_subscribe_false, C102_unwanted_false), nothing is passed on in any run (C102_notify_false), and a server behind a socket makes the program panic (C102_socket_false); proved: with a TCP address the program connects there as configured, and logs every event"
  },
  {
   "property": "C103",
   "status": "partial",
   "theorems": [
    "Mybin.C103_resume_partial",
    "Mybin.C103_unnamed_false",
    "Mybin.C103_large_false"
   ],
   "note": "false for a reader that does not name a file: the rotate event that says the name is thrown away by the request (C103_unnamed_false); and for files above 4 GiB, where positions in event headers are cut to 32 bits by the format (C103_large_false); proved for all other readers and logs"
  },
  {
   "property": "C104",
   "status": "partial",
   "theorems": [
    "Mybin.C104_resume",
    "Mybin.C104_named",
    "Mybin.C104_previous",
    "Mybin.C104_carried_over_false"
   ],
   "note": "proved for masters whose gtid_mode is ON; with any other mode the set named is dropped without a word (C74_gtids_false). Ends of intervals are exclusive in a request and inclusive in the ranges decoded from an event: carried over as they are, the last transaction of each interval is sent again (C104_carried_over_false)"
  },
  {
   "property": "C105",
   "status": "partial",
   "theorems": [
    "Mybin.C105_same_partial",
    "Mybin.C105_changed_false",
    "Mybin.C105_cut_false",
    "Mybin.C105_refused_false",
    "Mybin.C105_exactly"
   ],
   "note": "proved for files written with the checksum setting of the file the stream started with (C105_same_partial). For the other setting the claim is false of every event, and what happens instead is proved: C105_changed_false, C105_cut_false, C105_refused_false, C105_exactly"
  },
  {
   "property": "C106",
   "status": "partial",
   "theorems": [
    "Mybin.C106_same_partial",
    "Mybin.C106_grown_partial",
    "Mybin.C106_added_false",
    "Mybin.C106_dropped_false",
    "Mybin.C106_gone_false",
    "Mybin.C106_renamed_false",
    "Mybin.C106_altered_partial",
    "Mybin.C106_grown_log_partial",
    "Mybin.C106_first_key_false",
    "Mybin.C106_first_key_text_false"
   ],
   "note": "proved for tables that have not changed (C106_same_partial), for every change of the columns that leaves their names, places, signs and keys as they are (C106_altered_partial: whole runs over any rows, up to and including errors) and for columns added at the end when the unused bits of the bitmaps are clear and the table does not get its first key in this way (C106_grown_partial per event, C106_grown_log_partial for whole runs). For other changes the claim is false, and what happens instead is proved: C106_renamed_false, C106_added_false, C106_first_key_false, C106_first_key_text_false, C106_dropped_false, C106_gone_false"
  },
  {
   "property": "C107",
   "status": "partial",
   "theorems": [
    "Mybin.C107_grouping_partial",
    "Mybin.C107_note_false",
    "Mybin.C107_broken_false"
   ],
   "note": "proved for every regrouping, filter and limit when the first log is read to its end without an error and without a note (C107_grouping_partial). False for updates of tables without a key (C107_note_false) and for rows that cannot be written (C107_broken_false)"
  },
  {
   "property": "C108",
   "status": "partial",
   "theorems": [
    "Mybin.C108_dml_partial",
    "Mybin.C108_unknown_false",
    "Mybin.C108_stream_false",
    "Mybin.C108_dml_false"
   ],
   "note": "proved for the types the library knows: C108_dml_partial for the program; C29_parse_event, C29_skip_same and C53_events say it of the parser and the stream. False for newer types: C108_unknown_false, C108_stream_false, C108_dml_false"
  },
  {
   "property": "C109",
   "status": "partial",
   "theorems": [
    "Mybin.C109_events_partial",
    "Mybin.C109_rows_partial",
    "Mybin.C109_text_partial",
    "Mybin.C109_send",
    "Mybin.C109_short_event",
    "Mybin.C109_event_false",
    "Mybin.C109_values_false",
    "Mybin.C109_format_false",
    "Mybin.C109_mybinlog",
    "Mybin.C109_mybinmsg",
    "Mybin.C109_statement_false"
   ],
   "note": "the same results unless the checked build panics: C109_mybinlog and C109_mybinmsg for the programs as a whole, with every world, C109_events_partial, C109_rows_partial, C109_text_partial for the library; complete for messages: C109_send, and for events that announce less than a header: C109_short_event. The second half is false: C109_event_false, C109_values_false, C109_format_false, C109_statement_false (a statement is printed where the other build panics)"
  },
  {
   "property": "C110",
   "status": "partial",
   "theorems": [
    "Mybin.C110_value_partial",
    "Mybin.C110_timestamp_false",
    "Mybin.C110_no_escapes",
    "Mybin.C110_escapes_false",
    "Mybin.C110_auto_increment_false"
   ],
   "note": "C110_value_partial: every value that C79 covers, in every session in UTC, and of every column but TIMESTAMP in every session; C110_no_escapes: strings with backslashes where they are ordinary characters. False for TIMESTAMP in every other time zone: C110_timestamp_false; for backslashes: C110_escapes_false; for 0 in an AUTO_INCREMENT column: C110_auto_increment_false. Time zones are fixed offsets"
  },
  {
   "property": "C111",
   "status": "partial",
   "theorems": [
    "Mybin.C111_numbers_ignored",
    "Mybin.C111_packets_false",
    "Mybin.C111_stale_answer_false"
   ],
   "note": "false: C111_packets_false, C111_stale_answer_false. What holds instead: C111_numbers_ignored (the numbers do not matter), with C11 (every run of packets that is a message is received as one)"
  },
  {
   "property": "C112",
   "status": "partial",
   "theorems": [
    "Mybin.C112_texts",
    "Mybin.C112_login_false"
   ],
   "note": "C112_texts says exactly which texts can be exchanged; the rest of the claim is false: C112_login_false. Shown for logging in by mysql_native_password; the number is the same constant for the other method (C56_caching_partial) and for change_user (C60)"
  },
  {
   "property": "C113",
   "status": "partial",
   "theorems": [
    "Mybin.C113_right_number_partial",
    "Mybin.C113_unchecked_false",
    "Mybin.C113_none_given",
    "Mybin.C113_extra_false"
   ],
   "note": "C113_right_number_partial for the right number, C113_none_given for none. The first half is false: C113_unchecked_false, C113_extra_false"
  },
  {
   "property": "C114",
   "status": "partial",
   "theorems": [
    "Mybin.C114_lines_iff",
    "Mybin.C114_insert_partial",
    "Mybin.C114_delete_partial",
    "Mybin.C114_update_partial",
    "Mybin.C114_insert_client_false",
    "Mybin.C114_client_false",
    "Mybin.C114_notes",
    "Mybin.C114_note_text",
    "Mybin.C114_newline_false",
    "Mybin.C114_note_false"
   ],
   "note": "C114_lines_iff: exactly the outputs without newlines in a line are read back by lines; C114_insert_partial, C114_delete_partial, C114_update_partial: the statements of C80 with names and values without a newline, and single statements with the client; C114_notes: notes with names without a newline are not sent; C114_note_text: what a note says. False: C114_newline_false, C114_client_false and C114_insert_client_false (every output of two or more statements), C114_note_false"
  },
  {
   "property": "C115",
   "status": "partial",
   "theorems": [
    "Mybin.C115_same_table",
    "Mybin.C115_insert_cut",
    "Mybin.C115_lines",
    "Mybin.C115_insert_partial",
    "Mybin.C115_delete_partial",
    "Mybin.C115_update_partial",
    "Mybin.C115_delete_false",
    "Mybin.C115_update_false"
   ],
   "note": "C115_insert_partial: in full for inserted rows (names without backticks and newlines, values without newlines, as in C114); C115_delete_partial, C115_update_partial, C115_same_table: at most one further statement, of the same kind and table. C115_delete_false, C115_update_false: that statement can change other rows"
  },
  {
   "property": "C116",
   "status": "partial",
   "theorems": [
    "Mybin.C116_transactions_partial",
    "Mybin.C116_endings",
    "Mybin.C116_statements_false",
    "Mybin.C116_rolled_back_false",
    "Mybin.C116_limit_false"
   ],
   "note": "C116_transactions_partial: in full for logs whose transactions are all committed and logged as rows, without a limit. C116_endings, C116_rolled_back_false: transactions rolled back are printed too; C116_limit_false: a limit cuts a transaction; C116_statements_false: changes logged as statements are not printed"
  },
  {
   "property": "C117",
   "status": "partial",
   "theorems": [
    "Mybin.C117_text",
    "Mybin.C117_clean",
    "Mybin.C117_list_partial"
   ],
   "note": "C117_text, C117_clean: in full for the text of every list. C117_list_partial: for whole runs, with the limit of C87 for caching_sha2_password. The Debug formatting is library code and modelled from its documentation"
  },
  {
   "property": "C118",
   "status": "proved",
   "theorems": [
    "Mybin.C118_lost",
    "Mybin.C118_mybinlog",
    "Mybin.C118_mybinmsg"
   ],
   "note": "C118_lost for every use of the API, C118_mybinlog and C118_mybinmsg for the programs. Streams that break while sending are in C128"
  },
  {
   "property": "C119",
   "status": "partial",
   "theorems": [
    "Mybin.C119_calls_partial",
    "Mybin.C119_connect_false",
    "Mybin.C119_stream_false",
    "Mybin.C119_row_false",
    "Mybin.C119_statistics_false",
    "Mybin.C119_text_false",
    "Mybin.C119_description_false"
   ],
   "note": "proved for every call except ping and statistics (C119_calls_partial). False for a server that refuses the connection at once (C119_connect_false), errors in a stream of events (C119_stream_false), in the place of a row (C119_row_false, C27_binary_false), for statistics (C119_statistics_false), ping (C62_err_false) texts that are not UTF-8 (C119_text_false) and errors of the master in the place of the format description (C119_description_false). An error during login is reported in the text of another error, which the model leaves out (C56_refused)"
  },
  {
   "property": "C120",
   "status": "partial",
   "theorems": [
    "Mybin.C120_given_partial",
    "Mybin.C120_drawn_false",
    "Mybin.C120_given_false"
   ],
   "note": "proved for readers that were given an id; false for drawn ids (C120_drawn_false), and the id of the master is accepted (C120_given_false)"
  },
  {
   "property": "C121",
   "status": "partial",
   "theorems": [
    "Mybin.C121_copies_partial",
    "Mybin.C121_before_login_false",
    "Mybin.C121_at_once_false"
   ],
   "note": "proved for all calls made one after another on copies that have the flags of the login (C121_copies_partial). False of a copy made before the login (C121_before_login_false) and of copies used at the same time (C121_at_once_false)"
  },
  {
   "property": "C122",
   "status": "partial",
   "theorems": [
    "Mybin.C122_first_match",
    "Mybin.C122_get_var_partial",
    "Mybin.C122_other_false",
    "Mybin.C122_set_user_partial",
    "Mybin.C122_set_user_false",
    "Mybin.C122_set_partial",
    "Mybin.C122_set_scope_false"
   ],
   "note": "proved for names that match no other variable, in particular all names without _ and % (C122_get_var_partial), and for setting names of letters, digits, _, $ and dots without a scope (C122_set_partial, C122_set_user_partial). False for names that match another variable, since _ is a wildcard (C122_other_false), for names with other characters (C122_set_user_false, C70_injection_false) and names that begin with a scope (C122_set_scope_false)"
  },
  {
   "property": "C123",
   "status": "partial",
   "theorems": [
    "Mybin.C123_filters_partial"
   ],
   "note": "proved for logs whose announced tables the library can read and whose table ids keep their meaning within a file (C123_filters_partial). Outside these the claim is false: the announcement of a table that no filter lets through can end the run (C43_unwanted_false), and a table id that is reused keeps its first meaning (C43_remap_false)"
  },
  {
   "property": "C124",
   "status": "partial",
   "theorems": [
    "Mybin.C124_column_iff",
    "Mybin.C124_rows_partial",
    "Mybin.C124_not_optional",
    "Mybin.C124_narrow_false",
    "Mybin.C124_sign_false",
    "Mybin.C124_date_false",
    "Mybin.C124_my_date_time_false"
   ],
   "note": "the exact condition for agreement is proved for all rows, values and types made for their columns (C124_rows_partial, C124_column_iff). It is false of the code for integer types narrower than the column and MEDIUMINT as i32 (C124_narrow_false), unsigned columns as signed types (C124_sign_false), dates that do not exist (C124_date_false), MyDateTime (C124_my_date_time_false), and TIME values whose text is misread (C68). Floats are in C125"
  },
  {
   "property": "C125",
   "status": "partial",
   "theorems": [
    "Mybin.C125_digits",
    "Mybin.C125_sql_value_partial",
    "Mybin.C125_sql_insert_partial",
    "Mybin.C125_sql_delete_partial",
    "Mybin.C125_sql_update_partial",
    "Mybin.C125_json",
    "Mybin.C125_json_text",
    "Mybin.C125_query_double",
    "Mybin.C125_query_float",
    "Mybin.C125_query_binary",
    "Mybin.C125_large_false",
    "Mybin.C125_small_false",
    "Mybin.C125_negative_zero_false",
    "Mybin.C125_largest_false",
    "Mybin.C125_query_float_false",
    "Mybin.C125_log_partial"
   ],
   "note": "JSON records: every finite double (C125_json, C125_json_text). Query results: every numeral (C125_query_double, C125_query_float, C125_query_binary). SQL: every FLOAT but a negative zero and the two largest, every DOUBLE but a negative zero that is zero or between 1e-48 and 1e64 (C125_sql_value_partial, C125_sql_insert_partial and its kin, C125_log_partial for whole logs). Beyond that it is false of the code: C125_large_false, C125_small_false, C125_negative_zero_false, C125_largest_false, C125_query_float_false. Library functions are modelled from their documentation"
  },
  {
   "property": "C126",
   "status": "partial",
   "theorems": [
    "Mybin.C126_json_of_sql",
    "Mybin.C126_insert_partial",
    "Mybin.C126_delete_partial",
    "Mybin.C126_update_partial",
    "Mybin.C126_backslash_false",
    "Mybin.C126_negative_zero_false"
   ],
   "note": "proved for all columns logged, rows known by a key and all values that can be written as SQL (C126_insert_partial, C126_delete_partial, C126_update_partial), which can all be written as JSON too (C126_json_of_sql). False for text with a backslash (C126_backslash_false) and for a negative zero (C126_negative_zero_false): there the record is right and the statement is not"
  },
  {
   "property": "C127",
   "status": "proved",
   "theorems": [
    "Mybin.C127_event",
    "Mybin.C127_different",
    "Mybin.C127_log",
    "Mybin.C127_server",
    "Mybin.C127_one_line",
    "Mybin.C127_flags_lost",
    "Mybin.C127_count"
   ],
   "note": "events (C127_event, C127_different), whole runs against any server (C127_log, C127_one_line, C127_count), and against a server that lists files and sends events, in terms of what the server encoded (C127_server). Flags the library has no name for are dropped when the event is parsed, so the log does not tell them (C127_flags_lost). The text of Debug is modelled from the documentation of the libraries; the prefix of env_logger and the messages of the libraries are left out"
  },
  {
   "property": "C128",
   "status": "partial",
   "theorems": [
    "Mybin.C128_call_partial",
    "Mybin.C128_piece",
    "Mybin.C128_after",
    "Mybin.C128_session_partial",
    "Mybin.C128_unknown_false",
    "Mybin.C128_mybinlog_partial",
    "Mybin.C128_login_partial",
    "Mybin.C128_change_user_partial",
    "Mybin.C128_stream_partial",
    "Mybin.C128_list_partial",
    "Mybin.C128_mybinmsg_partial"
   ],
   "note": "C128_call_partial, C128_after, C128_piece and C128_session_partial for calls and sessions, C128_login_partial, C128_change_user_partial, C128_stream_partial, C128_list_partial, C128_mybinlog_partial and C128_mybinmsg_partial: in full for connections that break while sending. The last sentence is false where the answer is lost instead: C128_unknown_false, the error is the same whether or not the server heard the statement"
  },
  {
   "property": "C129",
   "status": "partial",
   "theorems": [
    "Mybin.C129_files_partial",
    "Mybin.C129_limit_partial"
   ],
   "note": "C129_files_partial, C129_limit_partial: for files with the same checksum setting (C105 says what happens otherwise), tables the library can read and table ids that keep their meaning within a file, as in C123"
  },
  {
   "property": "C130",
   "status": "partial",
   "theorems": [
    "Mybin.C130_rows_partial",
    "Mybin.C130_updates_partial",
    "Mybin.C130_broken_false"
   ],
   "note": "C130_rows_partial, C130_updates_partial: for rows the decoder reads at the right width (C37) and events that log the same columns. False for the records of single rows (C130_broken_false)"
  },
  {
   "property": "C131",
   "status": "partial",
   "theorems": [
    "Mybin.C131_login_false",
    "Mybin.C131_change_user_false",
    "Mybin.C131_login_partial"
   ],
   "note": "C131_login_partial: logins with caching_sha2_password, or without a password, say one message at most, whatever the server sends. False with mysql_native_password, when logging in (C131_login_false) and when changing the user (C131_change_user_false); the proof of caching_sha2_password is not for the challenge of the greeting (C45)"
  },
  {
   "property": "C132",
   "status": "proved",
   "theorems": [
    "Mybin.C132_whole_messages"
   ],
   "note": "C132_whole_messages, for every application in the sense of C93"
  },
  {
   "property": "C133",
   "status": "proved",
   "theorems": [
    "Mybin.C133_mybinlog",
    "Mybin.C133_mybinmsg"
   ],
   "note": "C133_mybinlog, C133_mybinmsg: the whole programs, for every server"
  },
  {
   "property": "C134",
   "status": "proved",
   "theorems": [
    "Mybin.C134_login",
    "Mybin.C134_change_user",
    "Mybin.C134_mybinlog",
    "Mybin.C134_mybinmsg",
    "Mybin.C134_empty_false",
    "Mybin.C134_log"
   ],
   "note": "C134_login, C134_change_user: the API; C134_mybinlog, C134_mybinmsg: the whole programs. C134_log: the text of the log. Whether there is a password can show (C134_empty_false), hence the restriction to non-empty ones"
  },
  {
   "property": "C135",
   "status": "proved",
   "theorems": [
    "Mybin.C135_log",
    "Mybin.C135_stream",
    "Mybin.C135_mybinlog",
    "Mybin.C135_mybinmsg"
   ],
   "note": "C135_stream: the API; C135_mybinlog, C135_mybinmsg: the whole programs; C135_log: the text of the log"
  },
  {
   "property": "C136",
   "status": "proved",
   "theorems": [
    "Mybin.C136_stream",
    "Mybin.C136_dml",
    "Mybin.C136_list",
    "Mybin.C136_mybinmsg",
    "Mybin.C136_log"
   ],
   "note": "C136_stream: the API; C136_dml, C136_list, C136_mybinmsg: the whole programs; C136_log: the text of the log. File names below 2^22 bytes and the other texts below 2^23 bytes; empty passwords are excluded because of C134_empty_false"
  },
  {
   "property": "C137",
   "status": "proved",
   "theorems": [
    "Mybin.C137_mybinlog",
    "Mybin.C137_stream"
   ],
   "note": "C137_mybinlog: the whole program, for all servers and options; C137_stream: the events of the API"
  },
  {
   "property": "C138",
   "status": "partial",
   "theorems": [
    "Mybin.C138_field_list_partial",
    "Mybin.C138_field_list_false",
    "Mybin.C138_login_partial",
    "Mybin.C138_login_false",
    "Mybin.C138_dump_partial",
    "Mybin.C138_gtid_dump",
    "Mybin.C138_dump_false"
   ],
   "note": "names without NUL, positions below 2^32 without GTIDs, and with GTIDs all requests in range (C138_gtid_dump); a table name with a NUL is taken for another table and pattern (C138_field_list_false), a user name with a NUL for another user and another answer to the challenge (C138_login_false), and without GTIDs positions 2^32 apart and any transaction sets collide (C138_dump_false)"
  },
  {
   "property": "C139",
   "status": "proved",
   "theorems": [
    "Mybin.C139_mybinlog",
    "Mybin.C139_query",
    "Mybin.C139_next_row",
    "Mybin.C139_next_event",
    "Mybin.C139_exec",
    "Mybin.C139_stmt_exec",
    "Mybin.C139_stmt_query",
    "Mybin.C139_list",
    "Mybin.C139_mybinmsg"
   ],
   "note": "both programs over TCP, and the operations of the library that execute statements and read rows and events (that the OK is the answer to this statement fails, see C51); a rotation is recognised by its marker and type code in the last message"
  }
 ]
}