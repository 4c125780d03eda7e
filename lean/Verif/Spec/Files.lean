/-
Specification of a log of several files sent in one stream. Each file was written with checksums or without them (the
setting can be changed while the server runs and takes effect with the next file), and its events travel as they are in
the file.
-/
import Verif.Spec.Stream

namespace Mybin.Spec

/-- a file of the log: whether its events carry checksums, and its events, the format description first, a rotation to
the next file last -/
structure LogFile where
  crc : Bool
  events : List LogEvent

/-- the events of some files, each with whether it carries a checksum -/
def fileEvents (fs : List LogFile) : List (Bool × LogEvent) :=
  fs.flatMap (fun f => f.events.map (fun e => (f.crc, e)))

/-- what is sent -/
def fileMessages (fs : List LogFile) : List (List UInt8) :=
  (fileEvents fs).map (fun x => streamMessage x.1 x.2)

/-- the events of some files a client of this library can see -/
def fileVisible (fs : List LogFile) : List (Bool × LogEvent) :=
  (fileEvents fs).filter (fun x => x.2.code ∈ supportedCodes)

end Mybin.Spec
