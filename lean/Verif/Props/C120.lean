/-
C120: a reader has an identity of its own: the id it was given, or one no other server has.
-/
import Verif.Props.C74

namespace Mybin

/-- the ids a client announces in what it says, when registering and when asking for a log -/
def Spec.idsAnnounced (said : List Spec.Said) : List Nat :=
  said.filterMap fun s => match s with
    | .command (.registerSlave id _ _ _ _ _ _) => some id
    | .command (.binlogDump _ _ id _) => some id
    | .command (.binlogDumpGtid _ id _ _ _) => some id
    | _ => none

theorem idsAnnounced_request (heartbeat : Nat) (checksum uuid : Bytes) (slaveId masterId i j k : Nat) (gtidMode file : Bytes)
    (pos : Nat) (sids : List SidRange) (nonBlock : Bool) :
    Spec.idsAnnounced (Spec.setupSaid heartbeat checksum uuid slaveId masterId i j k
      ++ [.command (Spec.dumpSaid gtidMode file pos slaveId sids nonBlock)]) = [slaveId, slaveId] := by
  unfold Spec.idsAnnounced Spec.setupSaid Spec.setUserVariable Spec.dumpSaid
  by_cases h : gtidMode = Spec.ascii "ON" <;> simp [h]

/-- C120: a reader that was given an id announces this id, and no other, when it registers and when it asks for the log,
whatever number is drawn and whatever the master's own id is. Missing from the full claim: readers that were given no id
(`C120_drawn_false`), and an id that is the master's own (`C120_given_false`). -/
theorem C120_given_partial (r : BinlogRequest) (ok : r.Ok) (hid : r.serverId ≠ 0) (uuid : Bytes) (hu : uuid.length = 36)
    (random : Nat) (hr : random < 2 ^ 32) (caps masterId : Nat) (checksum gtidMode : Bytes) (hc : checksum.length < 251)
    (hl : r.binlogFilename.length + SidData.bytesLen r.sids + 64 < 255 * 0xffffff)
    (hg : gtidMode ≠ Spec.ascii "ON" → r.binlogPos < 2 ^ 32 ∧ r.sids = [])
    (i j k : Nat) (msgs : List Bytes) (h : Spec.MasterAnswers caps masterId checksum gtidMode i j k msgs)
    (rot : Spec.LogEvent) (pos : Nat) (file : Bytes) (hrot : Spec.RotateTo rot pos file) (e : Spec.LogEvent) (f : Spec.Fde)
    (alg : Nat) (he : Spec.Describes e f alg) :
    ∃ s said, Exchanges caps (r.requestStream uuid random)
      (msgs ++ [Spec.streamMessage (decide (checksum = Spec.ascii "CRC32")) rot, Spec.streamMessage false e]) s said ∧
      Spec.idsAnnounced said = [r.serverId, r.serverId] := by
  have := C74_request_partial r ok uuid hu random hr caps masterId checksum gtidMode hc hl hg i j k msgs h rot pos file hrot
    e f alg he
  rw [if_neg hid] at this
  exact ⟨_, _, this, idsAnnounced_request ..⟩

/-- C120 fails for readers that were given no id: for every id there is, that of another reader, of the master itself, or
0, there is a draw with which the reader announces it, registers and is sent the log. The master's id is known to the
reader by then. (Full claim: the id is not 0 and not the master's.) -/
theorem C120_drawn_false (r : BinlogRequest) (ok : r.Ok) (hid : r.serverId = 0) (uuid : Bytes) (hu : uuid.length = 36)
    (other : Nat) (ho : other < 2 ^ 32) (caps masterId : Nat) (checksum gtidMode : Bytes) (hc : checksum.length < 251)
    (hl : r.binlogFilename.length + SidData.bytesLen r.sids + 64 < 255 * 0xffffff)
    (hg : gtidMode ≠ Spec.ascii "ON" → r.binlogPos < 2 ^ 32 ∧ r.sids = [])
    (i j k : Nat) (msgs : List Bytes) (h : Spec.MasterAnswers caps masterId checksum gtidMode i j k msgs)
    (rot : Spec.LogEvent) (pos : Nat) (file : Bytes) (hrot : Spec.RotateTo rot pos file) (e : Spec.LogEvent) (f : Spec.Fde)
    (alg : Nat) (he : Spec.Describes e f alg) :
    ∃ random < 2 ^ 32, ∃ s said, Exchanges caps (r.requestStream uuid random)
      (msgs ++ [Spec.streamMessage (decide (checksum = Spec.ascii "CRC32")) rot, Spec.streamMessage false e]) s said ∧
      Spec.idsAnnounced said = [other, other] := by
  have := C74_request_partial r ok uuid hu other ho caps masterId checksum gtidMode hc hl hg i j k msgs h rot pos file hrot
    e f alg he
  rw [if_pos hid] at this
  exact ⟨other, ho, _, _, this, idsAnnounced_request ..⟩

/-- C120 fails for readers that were given the id of the master: they are not refused. (Full claim: an error, as the master
has just told its id.) -/
theorem C120_given_false (r : BinlogRequest) (ok : r.Ok) (hid : r.serverId ≠ 0) (uuid : Bytes) (hu : uuid.length = 36)
    (random : Nat) (hr : random < 2 ^ 32) (caps : Nat) (checksum gtidMode : Bytes) (hc : checksum.length < 251)
    (hl : r.binlogFilename.length + SidData.bytesLen r.sids + 64 < 255 * 0xffffff)
    (hg : gtidMode ≠ Spec.ascii "ON" → r.binlogPos < 2 ^ 32 ∧ r.sids = [])
    (i j k : Nat) (msgs : List Bytes) (h : Spec.MasterAnswers caps r.serverId checksum gtidMode i j k msgs)
    (rot : Spec.LogEvent) (pos : Nat) (file : Bytes) (hrot : Spec.RotateTo rot pos file) (e : Spec.LogEvent) (f : Spec.Fde)
    (alg : Nat) (he : Spec.Describes e f alg) :
    ∃ s said, Exchanges caps (r.requestStream uuid random)
      (msgs ++ [Spec.streamMessage (decide (checksum = Spec.ascii "CRC32")) rot, Spec.streamMessage false e]) s said ∧
      Spec.idsAnnounced said = [r.serverId, r.serverId] :=
  C120_given_partial r ok hid uuid hu random hr caps _ checksum gtidMode hc hl hg i j k msgs h rot pos file hrot e f alg he

/-- the hypotheses on the request can be met, those on the master as in C74 -/
example : exampleRequest.Ok ∧ exampleRequest.serverId = 0 ∧ { exampleRequest with serverId := 7 }.Ok :=
  ⟨exampleRequest_ok, rfl, by obtain ⟨h1, h2, h3, h4, h5, h6, h7⟩ := exampleRequest_ok; constructor <;> first | assumption | decide +kernel⟩

example : Spec.idsAnnounced (Spec.setupSaid 3 [] [] 9 7 1 2 3
    ++ [.command (Spec.dumpSaid (Spec.ascii "ON") [] 4 9 [] true)]) = [9, 9] := idsAnnounced_request ..

end Mybin
