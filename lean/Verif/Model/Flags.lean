/-
Model of the named flags of mybin-core: the constants of all `bitflags!` types, under their names. A flag test is
`hasFlag` (Model/Flag.lean).
-/
import Verif.Model.Flag

namespace Mybin.Flags

/-- flag.rs:7-35 -/
def capabilityFlags : List (String × Nat) :=
  [("LONG_PASSWORD", 0x00000001), ("FOUND_ROWS", 0x00000002), ("LONG_FLAG", 0x00000004),
   ("CONNECT_WITH_DB", 0x00000008), ("NO_SCHEMA", 0x00000010), ("COMPRESS", 0x00000020), ("ODBC", 0x00000040),
   ("LOCAL_FILES", 0x00000080), ("IGNORE_SPACE", 0x00000100), ("PROTOCOL_41", 0x00000200),
   ("INTERACTIVE", 0x00000400), ("SSL", 0x00000800), ("IGNORE_SIGPIPE", 0x00001000), ("TRANSACTIONS", 0x00002000),
   ("RESERVED", 0x00004000), ("SECURE_CONNECTION", 0x00008000), ("MULTI_STATEMENTS", 0x00010000),
   ("MULTI_RESULTS", 0x00020000), ("PS_MULTI_RESULTS", 0x00040000), ("PLUGIN_AUTH", 0x00080000),
   ("CONNECT_ATTRS", 0x00100000), ("PLUGIN_AUTH_LENENC_CLIENT_DATA", 0x00200000),
   ("CAN_HANDLE_EXPIRED_PASSWORDS", 0x00400000), ("SESSION_TRACK", 0x00800000), ("DEPRECATE_EOF", 0x01000000),
   ("SSL_VERITY_SERVER_CERT", 0x40000000), ("REMEMBER_OPTIONS", 0x80000000)]

/-- flag.rs:79-96 -/
def statusFlags : List (String × Nat) :=
  [("STATUS_IN_TRANS", 0x0001), ("STATUS_AUTOCOMMIT", 0x0002), ("STATUS_0X0004", 0x0004),
   ("MORE_RESULTS_EXISTS", 0x0008), ("STATUS_NO_GOOD_INDEX_USED", 0x0010), ("STATUS_NO_INDEX_USED", 0x0020),
   ("STATUS_CURSOR_EXISTS", 0x0040), ("STATUS_LAST_ROW_SENT", 0x0080), ("STATUS_DB_DROPPED", 0x0100),
   ("STATUS_NO_BACKSLASH_ESCAPES", 0x0200), ("STATUS_METADATA_CHANGED", 0x0400), ("QUERY_WAS_SLOW", 0x0800),
   ("PS_OUT_PARAMS", 0x1000), ("STATUS_IN_TRANS_READONLY", 0x2000), ("SESSION_STATE_CHANGED", 0x4000)]

/-- col.rs:1039-1056 -/
def columnFlags : List (String × Nat) :=
  [("NOT_NULL", 0x0001), ("PRIMARY_KEY", 0x0002), ("UNIQUE_KEY", 0x0004), ("MULTIPLE_KEY", 0x0008),
   ("BLOB", 0x0010), ("UNSIGNED", 0x0020), ("ZEROFILL", 0x0040), ("BINARY", 0x0080), ("ENUM", 0x0100),
   ("AUTO_INCREMENT", 0x0200), ("TIMESTAMP", 0x0400), ("SET", 0x0800), ("NO_DEFAULT_VALUE", 0x1000),
   ("ON_UPDATE_NOW", 0x2000), ("NUM", 0x4000), ("PART_KEY", 0x8000)]

/-- cmd/refresh.rs:34-43 -/
def refreshFlags : List (String × Nat) :=
  [("GRANT", 0x01), ("LOG", 0x02), ("TABLES", 0x04), ("HOSTS", 0x08), ("STATUS", 0x10), ("THREADS", 0x20),
   ("SLAVE", 0x40), ("MASTER", 0x80)]

/-- cmd/stmt_execute.rs:65-69 -/
def cursorTypeFlags : List (String × Nat) :=
  [("READ_ONLY", 0x01), ("FOR_UPDATE", 0x02), ("SCROLLABLE", 0x04)]

/-- cmd/binlog_dump.rs:228-232 -/
def binlogDumpGtidFlags : List (String × Nat) :=
  [("NON_BLOCK", 0x0001), ("THROUGH_POSITION", 0x0002), ("THROUGH_GTID", 0x0004)]

/-- binlog/header.rs:46-57 -/
def eventHeaderFlags : List (String × Nat) :=
  [("BINLOG_IN_USE", 0x0001), ("FORCED_ROTATE", 0x0002), ("THREAD_SPECIFIC", 0x0004), ("SUPRESS_USE", 0x0008),
   ("UPDATE_TABLE_MAP_VERSION", 0x0010), ("ARTIFICIAL", 0x0020), ("RELAY_LOG", 0x0040), ("IGNORABLE", 0x0080),
   ("NO_FILTER", 0x0100), ("MTS_ISOLATE", 0x0200)]

/-- binlog/user_var.rs:69-71 -/
def userVarFlags : List (String × Nat) :=
  [("UNSIGNED", 0x01)]

/-- binlog/intvar.rs:26-29 -/
def intvarKey : List (String × Nat) :=
  [("LAST_INSERT_ID", 0x01), ("INSERT_ID", 0x02)]

/-- binlog/query.rs:185-190 -/
def flags2Code : List (String × Nat) :=
  [("AUTO_IS_NULL", 0x00004000), ("NOT_AUTOCOMMIT", 0x00080000), ("NO_FOREIGN_KEY_CHECKS", 0x04000000),
   ("RELAXED_UNIQUE_CHECKS", 0x08000000)]

/-- binlog/query.rs:194-227 -/
def sqlModeCode : List (String × Nat) :=
  [("REAL_AS_FLOAT", 0x00000001), ("PIPES_AS_CONCAT", 0x00000002), ("ANSI_QUOTES", 0x00000004),
   ("IGNORE_SPACE", 0x00000008), ("NOT_USED", 0x00000010), ("ONLY_FULL_GROUP_BY", 0x00000020),
   ("NO_UNSIGNED_SUBTRACTION", 0x00000040), ("NO_DIR_IN_CREATE", 0x00000080), ("POSTGRESQL", 0x00000100),
   ("ORACLE", 0x00000200), ("MSSQL", 0x00000400), ("DB2", 0x00000800), ("MAXDB", 0x00001000),
   ("NO_KEY_OPTIONS", 0x00002000), ("NO_TABLE_OPTIONS", 0x00004000), ("NO_FIELD_OPTIONS", 0x00008000),
   ("MYSQL323", 0x00010000), ("MYSQL40", 0x00020000), ("ANSI", 0x00040000), ("NO_AUTO_VALUE_ON_ZERO", 0x00080000),
   ("NO_BACKSLASH_ESCAPES", 0x00100000), ("STRICT_TRANS_TABLES", 0x00200000), ("STRICT_ALL_TABLES", 0x00400000),
   ("NO_ZERO_IN_DATE", 0x00800000), ("NO_ZERO_DATE", 0x01000000), ("INVALID_DATES", 0x02000000),
   ("ERROR_FOR_DIVISION_BY_ZERO", 0x04000000), ("TRANDITIONAL", 0x08000000), ("NO_AUTO_CREATE_USER", 0x10000000),
   ("HIGH_NOT_PRECEDENCE", 0x20000000), ("NO_ENGINE_SUBSTITUTION", 0x40000000),
   ("PAD_CHAR_TO_FULL_LENGTH", 0x80000000)]

/-- all of them, under the names of their types -/
def table : List (String × List (String × Nat)) :=
  [("CapabilityFlags", capabilityFlags),
   ("StatusFlags", statusFlags),
   ("ColumnFlags", columnFlags),
   ("RefreshFlags", refreshFlags),
   ("CursorTypeFlags", cursorTypeFlags),
   ("BinlogDumpGtidFlags", binlogDumpGtidFlags),
   ("EventHeaderFlags", eventHeaderFlags),
   ("UserVarFlags", userVarFlags),
   ("IntvarKey", intvarKey),
   ("Flags2Code", flags2Code),
   ("SqlModeCode", sqlModeCode)]

end Mybin.Flags
