/-
Model of the binlog stream of `mybin-async/src/binlog.rs` (lines 275-323): `next_event` and
`recv_and_parse_event`. The stream borrows the connection: the functions take it from the monad `M`.
-/
import Verif.Model.Client
import Verif.Model.Event

namespace Mybin

/-- binlog.rs:271-278 (without the borrowed connection) -/
structure BinlogStream where
  pv4 : ParserV4
  validateChecksum : Bool
  completed : Bool
  nonBlock : Bool
  deriving DecidableEq, Repr

/-- binlog.rs:319-324 -/
inductive BinlogStreamEvent where
  | single (e : Event)
  | unsupported
  | theEnd
  deriving DecidableEq, Repr

namespace BinlogStream

/-- binlog.rs:297-316 -/
def recvAndParse (s : BinlogStream) : M BinlogStreamEvent := fun c =>
  match recvMsg c with
  | .ok [] c' => .err (.incomplete none) c'
  | .ok (b :: t) c' =>
    if s.nonBlock && b == 0xfe then .ok .theEnd c'
    else if b ≠ 0x00 then .err .packet c'
    else
      match M.parse t (s.pv4.parseEvent s.validateChecksum) c' with
      | .ok (some e) c'' => .ok (.single e) c''
      | .ok none c'' => .ok .unsupported c''
      | .err e c'' => .err e c''
      | .panic => .panic
      | .hang => .hang
  | .err e c' => .err e c'
  | .panic => .panic
  | .hang => .hang

/-- the loop of binlog.rs:288-294. Every message consumes input, so the `hang` branch of the length test is never
taken. -/
def nextLoop (s : BinlogStream) (c : Conn) : MR (Option Event × BinlogStream) :=
  match s.recvAndParse c with
  | .ok (.single e) c' => .ok (some e, s) c'
  | .ok .unsupported c' => if c'.inp.length < c.inp.length then nextLoop s c' else .hang
  | .ok .theEnd c' => .ok (none, s) c'
  | .err e c' => .err e c'
  | .panic => .panic
  | .hang => .hang
termination_by c.inp.length

/-- binlog.rs:284-295: the result and the stream after the call (`&mut self`) -/
def nextEvent (s : BinlogStream) : M (Option Event × BinlogStream) := fun c =>
  if s.completed then .ok (none, s) c else nextLoop s c

/-- `n` calls of `next_event` in a row; the first error ends them -/
def calls (s : BinlogStream) : Nat → M (List (Option Event) × BinlogStream)
  | 0 => pure ([], s)
  | n + 1 => do
    let (o, s') ← s.nextEvent
    let (os, s'') ← s'.calls n
    return (o :: os, s'')

end BinlogStream
end Mybin
