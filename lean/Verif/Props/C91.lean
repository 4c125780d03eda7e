/-
C91: the settings of a request for a binlog stream.
-/
import Verif.Model.Builder
import Verif.Props.C74

namespace Mybin

/-- the value given by the last call that sets it, `d` if no call does -/
def Spec.lastSet {α β : Type} (get : α → Option β) (d : β) (calls : List α) : β := ((calls.filterMap get).getLast?).getD d

theorem lastSet_append {α β : Type} (get : α → Option β) (d : β) (calls : List α) (x : α) :
    Spec.lastSet get d (calls ++ [x]) = (get x).getD (Spec.lastSet get d calls) := by
  unfold Spec.lastSet
  rw [List.filterMap_append]
  cases h : get x with
  | none => simp [h]
  | some b => simp [h]

namespace Spec

/-- the settings as the caller sees them -/
def posSet : RequestCall → Option Nat | .binlogPos n => some n | _ => none
def fileSet : RequestCall → Option Bytes | .binlogFilename s => some s | _ => none
def idSet : RequestCall → Option Nat | .serverId n => some n | _ => none
def blockSet : RequestCall → Option Bool | .nonBlock b => some b | _ => none
def checkSet : RequestCall → Option Bool | .validateChecksum b => some b | _ => none
def beatSet : RequestCall → Option Nat | .heartbeatInterval n => some n | _ => none
/-- the GTIDs a call adds -/
def sidsAdded : RequestCall → List SidRange | .sid s => [s] | .sids s => s | _ => []

/-- the settings of a dump command -/
def dumpPosSet : DumpCall → Option Nat | .binlogPos n => some n | _ => none
def dumpFileSet : DumpCall → Option Bytes | .binlogFilename s => some s | _ => none
def dumpIdSet : DumpCall → Option Nat | .serverId n => some n | _ => none
def dumpBlockSet : DumpCall → Option Bool | .nonBlock b => some b | _ => none

/-- the settings of a dump command with GTIDs -/
def gtidPosSet : DumpGtidCall → Option Nat | .binlogPos n => some n | _ => none
def gtidFileSet : DumpGtidCall → Option Bytes | .binlogFilename s => some s | _ => none
def gtidIdSet : DumpGtidCall → Option Nat | .serverId n => some n | _ => none
def gtidBlockSet : DumpGtidCall → Option Bool | .nonBlock b => some b | _ => none
def gtidUseSet : DumpGtidCall → Option Bool | .useGtid b => some b | _ => none
def gtidSidsAdded : DumpGtidCall → List SidRange | .sid s => [s] | .sids s => s | _ => []

end Spec

/-- C91: whatever methods are called and in whatever order, every setting has the value it was given last, or its default;
GTIDs accumulate in the order of the calls. -/
theorem C91_request (calls : List RequestCall) :
    BinlogRequest.build calls =
      { binlogFilename := Spec.lastSet Spec.fileSet [] calls
        binlogPos := Spec.lastSet Spec.posSet 4 calls
        serverId := Spec.lastSet Spec.idSet 0 calls
        sids := calls.flatMap Spec.sidsAdded
        nonBlock := Spec.lastSet Spec.blockSet false calls
        validateChecksum := Spec.lastSet Spec.checkSet false calls
        heartbeatNanos := Spec.lastSet Spec.beatSet (30 * 10 ^ 9) calls } := by
  induction calls using List.reverseRecOn with
  | nil => rfl
  | append_singleton calls x ih =>
    unfold BinlogRequest.build at ih ⊢
    rw [List.foldl_append, List.foldl_cons, List.foldl_nil, ih]
    simp only [lastSet_append, List.flatMap_append, List.flatMap_cons, List.flatMap_nil, List.append_nil]
    cases x <;> simp [BinlogRequest.call, Spec.posSet, Spec.fileSet, Spec.idSet, Spec.blockSet, Spec.checkSet,
      Spec.beatSet, Spec.sidsAdded]

/-- C91: the order of calls that set different things does not matter. -/
theorem C91_order (calls calls' : List RequestCall)
    (h1 : calls.filterMap Spec.posSet = calls'.filterMap Spec.posSet)
    (h2 : calls.filterMap Spec.fileSet = calls'.filterMap Spec.fileSet)
    (h3 : calls.filterMap Spec.idSet = calls'.filterMap Spec.idSet)
    (h4 : calls.filterMap Spec.blockSet = calls'.filterMap Spec.blockSet)
    (h5 : calls.filterMap Spec.checkSet = calls'.filterMap Spec.checkSet)
    (h6 : calls.filterMap Spec.beatSet = calls'.filterMap Spec.beatSet)
    (h7 : calls.flatMap Spec.sidsAdded = calls'.flatMap Spec.sidsAdded) :
    BinlogRequest.build calls = BinlogRequest.build calls' := by
  rw [C91_request, C91_request]
  unfold Spec.lastSet
  rw [h1, h2, h3, h4, h5, h6, h7]

/-- the position is set twice, the GTIDs are given in two calls -/
example : BinlogRequest.build [.binlogPos 7, .sid ⟨1, []⟩, .nonBlock true, .binlogPos 9, .sids [⟨2, [(1, 5)]⟩]] =
    BinlogRequest.build [.sids [⟨1, []⟩, ⟨2, [(1, 5)]⟩], .binlogPos 9, .nonBlock true] ∧
    (BinlogRequest.build [.binlogPos 7, .sid ⟨1, []⟩, .nonBlock true, .binlogPos 9]).binlogPos = 9 := ⟨rfl, rfl⟩

/-- C91: a dump command has the position, file and id it was given last, and its flags are those of the protocol. -/
theorem C91_dump (calls : List DumpCall) :
    ComBinlogDump.build calls =
      { cmd := .binlogDump
        binlogPos := Spec.lastSet Spec.dumpPosSet 4 calls
        flags := if Spec.lastSet Spec.dumpBlockSet false calls then 1 else 0
        serverId := Spec.lastSet Spec.dumpIdSet 0 calls
        binlogFilename := Spec.lastSet Spec.dumpFileSet [] calls } := by
  induction calls using List.reverseRecOn with
  | nil => rfl
  | append_singleton calls x ih =>
    unfold ComBinlogDump.build at ih ⊢
    rw [List.foldl_append, List.foldl_cons, List.foldl_nil, ih]
    simp only [lastSet_append]
    generalize Spec.lastSet Spec.dumpBlockSet false calls = nb
    cases x with
    | nonBlock b => cases b <;> rfl
    | _ => cases nb <;> rfl

/-- the flags of the protocol: 1 not to wait for new events, 4 to start from GTIDs, 2 to start from a position -/
def Spec.gtidFlags (nonBlock useGtid : Bool) : Nat := (if nonBlock then 1 else 0) + (if useGtid then 4 else 2)

/-- C91: a dump command with GTIDs has the position, file and id it was given last and all GTIDs; it always asks for
exactly one of a position and GTIDs, the one chosen last. -/
theorem C91_dump_gtid (calls : List DumpGtidCall) :
    ComBinlogDumpGtid.build calls =
      { cmd := .binlogDumpGtid
        flags := Spec.gtidFlags (Spec.lastSet Spec.gtidBlockSet false calls) (Spec.lastSet Spec.gtidUseSet false calls)
        serverId := Spec.lastSet Spec.gtidIdSet 0 calls
        binlogFilename := Spec.lastSet Spec.gtidFileSet [] calls
        binlogPos := Spec.lastSet Spec.gtidPosSet 4 calls
        sidData := calls.flatMap Spec.gtidSidsAdded } := by
  induction calls using List.reverseRecOn with
  | nil => rfl
  | append_singleton calls x ih =>
    unfold ComBinlogDumpGtid.build at ih ⊢
    rw [List.foldl_append, List.foldl_cons, List.foldl_nil, ih]
    simp only [lastSet_append, List.flatMap_append, List.flatMap_cons, List.flatMap_nil, List.append_nil]
    generalize Spec.lastSet Spec.gtidBlockSet false calls = nb
    generalize Spec.lastSet Spec.gtidUseSet false calls = ug
    cases x with
    | useGtid b =>
      cases nb <;> cases ug <;> cases b <;> simp [ComBinlogDumpGtid.call, ComBinlogDumpGtid.useGtid, Spec.gtidPosSet,
        Spec.gtidFileSet, Spec.gtidIdSet, Spec.gtidBlockSet, Spec.gtidUseSet, Spec.gtidSidsAdded, Spec.gtidFlags]
    | nonBlock b =>
      cases nb <;> cases ug <;> cases b <;> simp [ComBinlogDumpGtid.call, ComBinlogDumpGtid.nonBlock, Spec.gtidPosSet,
        Spec.gtidFileSet, Spec.gtidIdSet, Spec.gtidBlockSet, Spec.gtidUseSet, Spec.gtidSidsAdded, Spec.gtidFlags]
    | _ => simp [ComBinlogDumpGtid.call, Spec.gtidPosSet, Spec.gtidFileSet, Spec.gtidIdSet, Spec.gtidBlockSet,
        Spec.gtidUseSet, Spec.gtidSidsAdded]

example : (ComBinlogDumpGtid.build [.useGtid true, .nonBlock true, .useGtid false, .sid ⟨1, [(1, 2)]⟩]).flags = 3 := by
  decide

/-- the request of the example of C74 (which meets the other hypotheses of `C91_heard_partial`), set up by calls -/
example : BinlogRequest.build [.heartbeatInterval 3000000000, .nonBlock false, .binlogPos (2 ^ 33), .nonBlock true,
    .binlogFilename (Spec.ascii "mysql-bin.000003"), .validateChecksum true, .sid ⟨456, [(1, 5)]⟩] = exampleRequest := rfl

/-- C91: the server is asked for what was set: the messages of `request_stream` after any sequence of settings. Missing
are the cases in which C74 does not hold: positions of 2^32 and more, or GTIDs, at a server without GTIDs. -/
theorem C91_heard_partial (calls : List RequestCall) (ok : (BinlogRequest.build calls).Ok) (uuid : Bytes)
    (hu : uuid.length = 36) (random : Nat) (hr : random < 2 ^ 32) (caps masterId : Nat) (checksum gtidMode : Bytes)
    (hc : checksum.length < 251)
    (hl : (Spec.lastSet Spec.fileSet [] calls).length + SidData.bytesLen (calls.flatMap Spec.sidsAdded) + 64
      < 255 * 0xffffff)
    (hg : gtidMode ≠ Spec.ascii "ON" →
      Spec.lastSet Spec.posSet 4 calls < 2 ^ 32 ∧ calls.flatMap Spec.sidsAdded = [])
    (i j k : Nat) (msgs : List Bytes) (h : Spec.MasterAnswers caps masterId checksum gtidMode i j k msgs)
    (rot : Spec.LogEvent) (pos : Nat) (file : Bytes) (hrot : Spec.RotateTo rot pos file) (e : Spec.LogEvent) (f : Spec.Fde)
    (alg : Nat) (he : Spec.Describes e f alg) :
    let id := if Spec.lastSet Spec.idSet 0 calls = 0 then random else Spec.lastSet Spec.idSet 0 calls
    ∃ s : BinlogStream, s.validateChecksum = Spec.lastSet Spec.checkSet false calls ∧
      s.nonBlock = Spec.lastSet Spec.blockSet false calls ∧
      Exchanges caps ((BinlogRequest.build calls).requestStream uuid random)
        (msgs ++ [Spec.streamMessage (decide (checksum = Spec.ascii "CRC32")) rot, Spec.streamMessage false e]) s
        (Spec.setupSaid (Spec.lastSet Spec.beatSet (30 * 10 ^ 9) calls) checksum uuid id masterId i j k
          ++ [.command (Spec.dumpSaid gtidMode (Spec.lastSet Spec.fileSet [] calls) (Spec.lastSet Spec.posSet 4 calls) id
            (calls.flatMap Spec.sidsAdded) (Spec.lastSet Spec.blockSet false calls))]) := by
  have h := C74_request_partial (BinlogRequest.build calls) ok uuid hu random hr caps masterId checksum gtidMode hc
    (by rw [C91_request]; exact hl) (by rw [C91_request]; exact hg) i j k msgs h rot pos file hrot e f alg he
  rw [C91_request] at h ⊢
  exact ⟨_, rfl, rfl, h⟩

end Mybin
