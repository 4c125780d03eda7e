/-
Specification of the messages of `mybinmsg`: how a person or a program that knows the syntax of Rust and the types of the
library reads them. Byte string literals are as in the reference of the language. Written without looking at the printer.
-/
import Verif.Spec.RustText
import Verif.Spec.Binlog

namespace Mybin.Spec

/-- where a reader of a byte string literal is: in the text, after a backslash, after `\x`, or after its first digit -/
inductive ByteState where
  | text
  | escape
  | hex
  | digit (d : Nat)

/-- a byte string literal from after its first quote: the bytes it stands for, and what follows it -/
def byteLiteral : ByteState → List Char → Option (List UInt8 × List Char)
  | _, [] => none
  | .text, c :: r =>
    if c = '"' then some ([], r)
    else if c = '\\' then byteLiteral .escape r
    else if c.toNat < 128 then (byteLiteral .text r).map fun x => (UInt8.ofNat c.toNat :: x.1, x.2)
    else none
  | .escape, c :: r =>
    if c = 'x' then byteLiteral .hex r
    else
      match (if c = 'n' then some 10 else if c = 'r' then some 13 else if c = 't' then some 9
        else if c = '0' then some 0 else if c = '\\' ∨ c = '"' ∨ c = '\'' then some c.toNat else none) with
      | some d => (byteLiteral .text r).map fun x => (UInt8.ofNat d :: x.1, x.2)
      | none => none
  | .hex, c :: r =>
    match hexValue c with
    | some d => byteLiteral (.digit d) r
    | none => none
  | .digit d, c :: r =>
    match hexValue c with
    | some d' => (byteLiteral .text r).map fun x => (UInt8.ofNat (16 * d + d') :: x.1, x.2)
    | none => none

/-- several fixed tokens -/
def tokens : List String → List Char → Option (List Char)
  | [], t => some t
  | w :: ws, t =>
    match token w t with
    | some t => tokens ws t
    | none => none

/-- a character of a name -/
def identChar (c : Char) : Bool := c.isAlphanum || c == '_'

/-- a name, after white space: its place in a list of names -/
def oneOf (names : List String) (t : List Char) : Option (Nat × List Char) :=
  let t := t.dropWhile blank
  match names.findIdx? fun n => n.toList == t.takeWhile identChar with
  | some i => some (i, t.dropWhile identChar)
  | none => none

/-- the names of the event types, by their code in the binary log -/
def eventNames : List String :=
  ["Unknown", "StartEventV3", "QueryEvent", "StopEvent", "RotateEvent", "IntvarEvent", "LoadEvent", "SlaveEvent",
    "CreateFileEvent", "AppendBlockEvent", "ExecLoadEvent", "DeleteFileEvent", "NewLoadEvent", "RandEvent", "UserVarEvent",
    "FormatDescriptionEvent", "XidEvent", "BeginLoadQueryEvent", "ExecuteLoadQueryEvent", "TableMapEvent", "WriteRowsEventV0",
    "UpdateRowsEventV0", "DeleteRowsEventV0", "WriteRowsEventV1", "UpdateRowsEventV1", "DeleteRowsEventV1", "IncidentEvent",
    "HeartbeatLogEvent", "IgnorableLogEvent", "RowsQueryLogEvent", "WriteRowsEventV2", "UpdateRowsEventV2",
    "DeleteRowsEventV2", "GtidLogEvent", "AnonymousGtidLogEvent", "PreviousGtidsLogEvent", "TransactionContextEvent",
    "ViewChangeEvent", "XaPrepareLogEvent"]

/-- the names of the flags of an event, from the lowest bit -/
def flagNames : List String :=
  ["BINLOG_IN_USE", "FORCED_ROTATE", "THREAD_SPECIFIC", "SUPRESS_USE", "UPDATE_TABLE_MAP_VERSION", "ARTIFICIAL", "RELAY_LOG",
    "IGNORABLE", "NO_FILTER", "MTS_ISOLATE"]

/-- names of flags with bars between them, at most as many as there are flags: the flags they stand for -/
def flagList : Nat → List Char → Option (Nat × List Char)
  | 0, _ => none
  | fuel + 1, t => do
    let (i, t) ← oneOf flagNames t
    match token "|" t with
    | some t => do
      let (n, t) ← flagList fuel t
      return (2 ^ i + n, t)
    | none => return (2 ^ i, t)

/-- flags: their names, or `(empty)` -/
def flagSet (t : List Char) : Option (Nat × List Char) :=
  match token "(empty)" t with
  | some t => some (0, t)
  | none => flagList 10 t

/-- the message for an event: the event, with its length in the binary log. The name of the variant must be that of the type
in the header. -/
def eventLine (t : List Char) : Option (LogEvent × Nat) := do
  let (variant, t) ← oneOf eventNames t
  let t ← tokens ["(", "RawEvent", "{", "header", ":", "EventHeader", "{", "timestamp", ":"] t
  let (timestamp, t) ← number t
  let t ← tokens [",", "type_code", ":"] t
  let (code, t) ← oneOf eventNames t
  let t ← tokens [",", "server_id", ":"] t
  let (serverId, t) ← number t
  let t ← tokens [",", "event_len", ":"] t
  let (len, t) ← number t
  let t ← tokens [",", "next_pos", ":"] t
  let (nextPos, t) ← number t
  let t ← tokens [",", "flags", ":"] t
  let (flags, t) ← flagSet t
  let t ← tokens ["}", ",", "data", ":", "b\""] t
  let (data, t) ← byteLiteral .text t
  let _ ← tokens [",", "_marker", ":", "PhantomData"] t
  if variant = code then some (⟨timestamp, code, serverId, nextPos, flags, data⟩, len) else none

/-- the message for a file: its name and size -/
def fileLine (t : List Char) : Option (List Char × Nat) := do
  let t ← tokens ["BinlogFile", "{", "filename", ":", "\""] t
  let (name, t) ← rustLiteral .text t
  let t ← tokens [",", "size", ":"] t
  let (size, t) ← number t
  let _ ← tokens ["}"] t
  return (name, size)

/-- what a message tells -/
inductive LogEntry where
  | file (name : List Char) (size : Nat)
  | event (e : LogEvent) (len : Nat)

/-- the messages that tell nothing about the log of the server -/
def isNote (t : List Char) : Bool :=
  "list of binlog files: ".toList.isPrefixOf t || t == "requesting binlog stream".toList || t == "binlog stream requested".toList

/-- all messages of a run, one by one; none of them may be unreadable -/
def readLog : List (List Char) → Option (List LogEntry)
  | [] => some []
  | t :: ts =>
    match readLog ts with
    | none => none
    | some es =>
      if isNote t then some es
      else
        match fileLine t with
        | some (name, size) => some (.file name size :: es)
        | none =>
          match eventLine t with
          | some (e, len) => some (.event e len :: es)
          | none => none

end Mybin.Spec
