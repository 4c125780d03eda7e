/-
Specification of a binlog stream: each event travels in one message, after a zero byte; a non-blocking dump ends with
an EOF packet.
-/
import Verif.Spec.Binlog
import Verif.Spec.Client

namespace Mybin.Spec

/-- the message that carries an event -/
def streamMessage (crc : Bool) (e : LogEvent) : List UInt8 := u8 0 ++ e.encode crc

/-- the events a client of this library can see -/
def visible (es : List LogEvent) : List LogEvent := es.filter (fun e => e.code ∈ supportedCodes)

end Mybin.Spec
