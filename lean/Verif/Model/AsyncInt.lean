/-
Model of `bytes-parser/src/util.rs`: the futures generated by `read_number_future!` and
`write_number_future!`, polled against an arbitrary transport.

The transport's answers are a schedule: one entry per `poll_read`/`poll_write` call. When the schedule
is used up the transport answers `Pending` (nothing more happens yet).
-/
import Verif.Model.Parser

namespace Mybin.AsyncInt

/-- one answer of the transport: `Pending`; up to `n + 1` bytes transferred; `ErrorKind::Interrupted`;
any other io error; (writes only) zero bytes accepted -/
inductive Ans where
  | pending
  | data (n : Nat)
  | interrupted
  | error
  | zero
  deriving DecidableEq

/-- result of one `poll` -/
inductive Poll (α : Type) where
  | pending
  | ready (r : Except Err α)

/-- what is left after a poll: the future's buffer `buf[..read]` (util.rs:6-8), the unread stream and
the unused part of the schedule -/
structure RState where
  acc : Bytes
  stream : Bytes
  sched : List Ans
  deriving DecidableEq

/-- util.rs:27-52: one `poll` of the read future. `len` is `$len`, `fname` is `$fname` (applied to the
full buffer). `poll_read` returns `Ok(0)` exactly at end of stream (the buffer slice is never empty:
`read < $len` throughout, for `$len > 0`). -/
def pollRead {α : Type} (len : Nat) (fname : Bytes → α) (acc stream : Bytes) :
    List Ans → Poll α × RState
  | [] => (.pending, ⟨acc, stream, []⟩)
  | .pending :: s => (.pending, ⟨acc, stream, s⟩)
  | .interrupted :: s => pollRead len fname acc stream s
  | .error :: s => (.ready (.error .io), ⟨acc, stream, s⟩)
  | .zero :: s => pollRead len fname acc stream s
  | .data n :: s =>
    if stream = [] then (.ready (.error (.incomplete (some (len - acc.length)))), ⟨acc, stream, s⟩)
    else
      let k := min (n + 1) (len - acc.length)
      let acc' := acc ++ stream.take k
      if acc'.length = len then (.ready (.ok (fname acc')), ⟨acc', stream.drop k, s⟩)
      else pollRead len fname acc' (stream.drop k) s

/-- the executor: poll again after every `Pending`, until the future is ready or the schedule is
exhausted (`fuel` = number of polls allowed) -/
def driveRead {α : Type} (len : Nat) (fname : Bytes → α) :
    Nat → RState → Poll α × RState
  | 0, st => (.pending, st)
  | fuel + 1, st =>
    match pollRead len fname st.acc st.stream st.sched with
    | (.ready r, st') => (.ready r, st')
    | (.pending, st') => if st'.sched = [] then (.pending, st') else driveRead len fname fuel st'

/-- util.rs:70-88: one `poll` of the write future. `ns` is `$fname(self.n)` (of length `$len`), `wire`
what the transport accepted so far. The counter `write` is local to the poll, and every call offers
the whole of `ns`. -/
def pollWrite (ns wire : Bytes) (write : Nat) : List Ans → Poll Unit × Bytes × List Ans
  | [] => (.pending, wire, [])
  | .pending :: s => (.pending, wire, s)
  | .interrupted :: s => pollWrite ns wire write s
  | .error :: s => (.ready (.error .io), wire, s)
  | .zero :: s => (.ready (.error .io), wire, s)
  | .data n :: s =>
    let k := min (n + 1) ns.length
    let wire' := wire ++ ns.take k
    if write + k = ns.length then (.ready (.ok ()), wire', s)
    else pollWrite ns wire' (write + k) s

/-- executor for the write future; `write` starts from 0 in every poll (util.rs:72) -/
def driveWrite (ns : Bytes) : Nat → Bytes → List Ans → Poll Unit × Bytes × List Ans
  | 0, wire, s => (.pending, wire, s)
  | fuel + 1, wire, s =>
    match pollWrite ns wire 0 s with
    | (.ready r, w, s') => (.ready r, w, s')
    | (.pending, w, s') => if s' = [] then (.pending, w, s') else driveWrite ns fuel w s'

end Mybin.AsyncInt
