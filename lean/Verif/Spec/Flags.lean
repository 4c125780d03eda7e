/-
The flags of the protocol and of the binlog: for every kind of flags the names and the number of the bit the server
(MySQL 5.7) sets.
-/
namespace Mybin.Spec

/-- mysql_com.h: CLIENT_* -/
def capabilityFlagsBits : List (String × Nat) :=
  [("LONG_PASSWORD", 0), ("FOUND_ROWS", 1), ("LONG_FLAG", 2), ("CONNECT_WITH_DB", 3), ("NO_SCHEMA", 4),
   ("COMPRESS", 5), ("ODBC", 6), ("LOCAL_FILES", 7), ("IGNORE_SPACE", 8), ("PROTOCOL_41", 9), ("INTERACTIVE", 10),
   ("SSL", 11), ("IGNORE_SIGPIPE", 12), ("TRANSACTIONS", 13), ("RESERVED", 14), ("SECURE_CONNECTION", 15),
   ("MULTI_STATEMENTS", 16), ("MULTI_RESULTS", 17), ("PS_MULTI_RESULTS", 18), ("PLUGIN_AUTH", 19),
   ("CONNECT_ATTRS", 20), ("PLUGIN_AUTH_LENENC_CLIENT_DATA", 21), ("CAN_HANDLE_EXPIRED_PASSWORDS", 22),
   ("SESSION_TRACK", 23), ("DEPRECATE_EOF", 24), ("SSL_VERITY_SERVER_CERT", 30), ("REMEMBER_OPTIONS", 31)]

/-- mysql_com.h: SERVER_STATUS_* and SERVER_*; bit 2 is reserved -/
def statusFlagsBits : List (String × Nat) :=
  [("STATUS_IN_TRANS", 0), ("STATUS_AUTOCOMMIT", 1), ("STATUS_0X0004", 2), ("MORE_RESULTS_EXISTS", 3),
   ("STATUS_NO_GOOD_INDEX_USED", 4), ("STATUS_NO_INDEX_USED", 5), ("STATUS_CURSOR_EXISTS", 6),
   ("STATUS_LAST_ROW_SENT", 7), ("STATUS_DB_DROPPED", 8), ("STATUS_NO_BACKSLASH_ESCAPES", 9),
   ("STATUS_METADATA_CHANGED", 10), ("QUERY_WAS_SLOW", 11), ("PS_OUT_PARAMS", 12),
   ("STATUS_IN_TRANS_READONLY", 13), ("SESSION_STATE_CHANGED", 14)]

/-- mysql_com.h: the column flags that fit into 16 bits -/
def columnFlagsBits : List (String × Nat) :=
  [("NOT_NULL", 0), ("PRIMARY_KEY", 1), ("UNIQUE_KEY", 2), ("MULTIPLE_KEY", 3), ("BLOB", 4), ("UNSIGNED", 5),
   ("ZEROFILL", 6), ("BINARY", 7), ("ENUM", 8), ("AUTO_INCREMENT", 9), ("TIMESTAMP", 10), ("SET", 11),
   ("NO_DEFAULT_VALUE", 12), ("ON_UPDATE_NOW", 13), ("NUM", 15), ("PART_KEY", 14)]

/-- mysql_com.h: REFRESH_* -/
def refreshFlagsBits : List (String × Nat) :=
  [("GRANT", 0), ("LOG", 1), ("TABLES", 2), ("HOSTS", 3), ("STATUS", 4), ("THREADS", 5), ("SLAVE", 6),
   ("MASTER", 7)]

/-- mysql.h: CURSOR_TYPE_* -/
def cursorTypeFlagsBits : List (String × Nat) :=
  [("READ_ONLY", 0), ("FOR_UPDATE", 1), ("SCROLLABLE", 2)]

/-- rpl_constants.h: BINLOG_DUMP_NON_BLOCK, BINLOG_THROUGH_POSITION, BINLOG_THROUGH_GTID -/
def binlogDumpGtidFlagsBits : List (String × Nat) :=
  [("NON_BLOCK", 0), ("THROUGH_POSITION", 1), ("THROUGH_GTID", 2)]

/-- log_event.h: LOG_EVENT_*_F -/
def eventHeaderFlagsBits : List (String × Nat) :=
  [("BINLOG_IN_USE", 0), ("FORCED_ROTATE", 1), ("THREAD_SPECIFIC", 2), ("SUPRESS_USE", 3),
   ("UPDATE_TABLE_MAP_VERSION", 4), ("ARTIFICIAL", 5), ("RELAY_LOG", 6), ("IGNORABLE", 7), ("NO_FILTER", 8),
   ("MTS_ISOLATE", 9)]

/-- log_event.h: User_var_log_event::UNSIGNED_F -/
def userVarFlagsBits : List (String × Nat) :=
  [("UNSIGNED", 0)]

/-- binlog_event.h: LAST_INSERT_ID_EVENT is 1, INSERT_ID_EVENT is 2 -/
def intvarKeyBits : List (String × Nat) :=
  [("LAST_INSERT_ID", 0), ("INSERT_ID", 1)]

/-- query_options.h: OPTION_* -/
def flags2CodeBits : List (String × Nat) :=
  [("AUTO_IS_NULL", 14), ("NOT_AUTOCOMMIT", 19), ("NO_FOREIGN_KEY_CHECKS", 26), ("RELAXED_UNIQUE_CHECKS", 27)]

/-- sql_class.h: MODE_* -/
def sqlModeCodeBits : List (String × Nat) :=
  [("REAL_AS_FLOAT", 0), ("PIPES_AS_CONCAT", 1), ("ANSI_QUOTES", 2), ("IGNORE_SPACE", 3), ("NOT_USED", 4),
   ("ONLY_FULL_GROUP_BY", 5), ("NO_UNSIGNED_SUBTRACTION", 6), ("NO_DIR_IN_CREATE", 7), ("POSTGRESQL", 8),
   ("ORACLE", 9), ("MSSQL", 10), ("DB2", 11), ("MAXDB", 12), ("NO_KEY_OPTIONS", 13), ("NO_TABLE_OPTIONS", 14),
   ("NO_FIELD_OPTIONS", 15), ("MYSQL323", 16), ("MYSQL40", 17), ("ANSI", 18), ("NO_AUTO_VALUE_ON_ZERO", 19),
   ("NO_BACKSLASH_ESCAPES", 20), ("STRICT_TRANS_TABLES", 21), ("STRICT_ALL_TABLES", 22), ("NO_ZERO_IN_DATE", 23),
   ("NO_ZERO_DATE", 24), ("INVALID_DATES", 25), ("ERROR_FOR_DIVISION_BY_ZERO", 26), ("TRANDITIONAL", 27),
   ("NO_AUTO_CREATE_USER", 28), ("HIGH_NOT_PRECEDENCE", 29), ("NO_ENGINE_SUBSTITUTION", 30),
   ("PAD_CHAR_TO_FULL_LENGTH", 31)]

/-- all kinds -/
def flagBits : List (String × List (String × Nat)) :=
  [("CapabilityFlags", capabilityFlagsBits),
   ("StatusFlags", statusFlagsBits),
   ("ColumnFlags", columnFlagsBits),
   ("RefreshFlags", refreshFlagsBits),
   ("CursorTypeFlags", cursorTypeFlagsBits),
   ("BinlogDumpGtidFlags", binlogDumpGtidFlagsBits),
   ("EventHeaderFlags", eventHeaderFlagsBits),
   ("UserVarFlags", userVarFlagsBits),
   ("IntvarKey", intvarKeyBits),
   ("Flags2Code", flags2CodeBits),
   ("SqlModeCode", sqlModeCodeBits)]

end Mybin.Spec
