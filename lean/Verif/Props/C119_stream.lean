/-
C119, C74: what the request for a stream does with its second message, in the place of the format description.
-/
import Verif.Props.C98
import Verif.Props.C119

namespace Mybin

/-- The second message is read as a description event whatever its first byte is. -/
theorem firstEvents_second (r : BinlogRequest) (crc : Bool) (rot : Spec.LogEvent) (pos : Nat) (file : Bytes)
    (hr : Spec.RotateTo rot pos file) (b : UInt8) (f : Bytes) (ms : List Bytes) (rest : Bytes) (c : Conn)
    (hd : Spec.Delivers c.inp (Spec.streamMessage crc rot :: (b :: f) :: ms) rest) :
    ∃ c', Spec.Delivers c'.inp ms rest ∧ r.firstEvents crc c
      = match ParserV4.fromFdeBytes f with
        | .ok p _ => .ok ⟨p.1, r.validateChecksum, false, r.nonBlock⟩ c'
        | .err e _ => .err e c'
        | .panic => .panic
        | .hang => .hang := by
  obtain ⟨c1, a1, a2, a3, -⟩ := Delivers.recv hd
  obtain ⟨c2, b1, b2, b3, -⟩ := Delivers.recv a3
  obtain ⟨hr1, hr2, hr3, hr4⟩ := hr
  have hrot := firstRotate_spec crc rot hr1 hr2 pos hr3 file hr4
  refine ⟨c2, b3, ?_⟩
  unfold BinlogRequest.firstEvents
  rw [M.bind_apply, a1, MR.bind_ok]
  obtain ⟨t, ht⟩ : ∃ t, Spec.streamMessage crc rot = 0 :: t := ⟨_, rfl⟩
  rw [ht]
  dsimp only
  rw [← ht, if_neg (by decide), if_neg (by decide), if_pos rfl]
  rw [M.bind_apply, M.parse_ok hrot, MR.bind_ok, M.bind_apply, b1, MR.bind_ok, M.bind_apply]
  have hff : BinlogRequest.firstFde (b :: f) = ParserV4.fromFdeBytes f := rfl
  unfold M.parse
  rw [hff]
  cases ParserV4.fromFdeBytes f <;> rfl

/-- a byte that no type of event this library knows has -/
theorem tryFrom_none (n : Nat) (h : 38 < n) : LogEventType.tryFrom n = none := by
  unfold LogEventType.tryFrom
  split <;> first | omega | rfl

/-- C119 fails for an error of the master in the place of the format description (after it named the file): whatever the
code and the text, the request ends with one and the same error about the type of an event. (Full claim: the code, the
state and the text. A state consists of digits and upper-case letters; texts of five bytes or more.) -/
theorem C119_description_false (r : BinlogRequest) (crc : Bool) (rot : Spec.LogEvent) (pos : Nat) (file : Bytes)
    (hr : Spec.RotateTo rot pos file) (code : Nat) (s0 s1 s2 s3 s4 : UInt8) (hs : 48 ≤ s1.toNat) (msg : Bytes)
    (hm : 5 ≤ msg.length) (ms : List Bytes) (rest : Bytes) (c : Conn)
    (hd : Spec.Delivers c.inp
      (Spec.streamMessage crc rot :: Spec.errPacket true code [s0, s1, s2, s3, s4] msg :: ms) rest) :
    ∃ c', r.firstEvents crc c = .err .constraint c' := by
  obtain ⟨m0, m1, m2, m3, m4, t, rfl⟩ : ∃ m0 m1 m2 m3 m4 t, msg = m0 :: m1 :: m2 :: m3 :: m4 :: t := by
    match msg, hm with
    | m0 :: m1 :: m2 :: m3 :: m4 :: t, _ => exact ⟨m0, m1, m2, m3, m4, t, rfl⟩
  have hp : Spec.errPacket true code [s0, s1, s2, s3, s4] (m0 :: m1 :: m2 :: m3 :: m4 :: t)
      = 0xff :: ([UInt8.ofNat (code % 256), UInt8.ofNat (code / 256 % 256), 0x23, s0]
        ++ (s1 :: ([s2, s3, s4, m0] ++ ([m1, m2, m3, m4] ++ t)))) := by
    simp [Spec.errPacket, Spec.u8, Spec.le, Spec.opt, List.range_succ]
  rw [hp] at hd
  obtain ⟨c', -, h⟩ := firstEvents_second r crc rot pos file hr 0xff _ ms rest c hd
  refine ⟨c', ?_⟩
  rw [h]
  have hf : ∃ q, ParserV4.fromFdeBytes ([UInt8.ofNat (code % 256), UInt8.ofNat (code / 256 % 256), 0x23, s0]
      ++ (s1 :: ([s2, s3, s4, m0] ++ ([m1, m2, m3, m4] ++ t)))) = .err .constraint q := by
    refine ⟨t, ?_⟩
    unfold ParserV4.fromFdeBytes EventHeader.readFrom EventHeaderV1.readFrom
    have e1 : ∀ (a b c d : UInt8) (u : Bytes), readLeU32 ([a, b, c, d] ++ u) = .ok (leVal [a, b, c, d]) u := by
      intro a b c d u
      unfold readLeU32 readFixed
      rw [if_neg (by simp)]
      rfl
    have e2 : ∀ u : Bytes, readU8 (s1 :: u) = .ok s1.toNat u := fun _ => rfl
    simp only [P.bind_apply, e1, R.bind, e2, tryFrom_none s1.toNat (by omega)]
    rfl
  obtain ⟨q, hq⟩ := hf
  rw [hq]

/-- C74 fails for the format description in two more ways: neither the marker before it nor its type is looked at. After
the rotate event, a description in an event of any other known type, in a message with any first byte (also that of an
error or of the end), starts the stream. (Full claim: an error.) -/
theorem C74_description_type_false (r : BinlogRequest) (crc : Bool) (rot : Spec.LogEvent) (pos : Nat) (file : Bytes)
    (hr : Spec.RotateTo rot pos file) (b : UInt8) (e : Spec.LogEvent) (_ : e.code ≠ 15) (f : Spec.Fde) (alg : Nat)
    (he : Spec.Describes e f alg) (ms : List Bytes) (rest : Bytes) (c : Conn)
    (hd : Spec.Delivers c.inp (Spec.streamMessage crc rot :: (b :: e.encode false) :: ms) rest) :
    ∃ c', r.firstEvents crc c = .ok ⟨⟨0 :: f.lens, decide (alg = 1)⟩, r.validateChecksum, false, r.nonBlock⟩ c' ∧
      Spec.Delivers c'.inp ms rest := by
  obtain ⟨c', h1, h⟩ := firstEvents_second r crc rot pos file hr b _ ms rest c hd
  refine ⟨c', ?_, h1⟩
  rw [h]
  obtain ⟨he1, he2, he3, he4, ck, he5, he6⟩ := he
  have hp := C32_parser f he2 he3 e he1 alg ck he4 he5 he6 []
  rw [List.append_nil] at hp
  rw [hp]

/-- the master names a file and then tells that it cannot be read: error 1236, HY000 -/
example : ∃ (c : Conn) (rot : Spec.LogEvent), Spec.RotateTo rot 4 (Spec.ascii "mysql-bin.000003") ∧
    Spec.Delivers c.inp [Spec.streamMessage true rot,
      Spec.errPacket true 1236 [0x48, 0x59, 0x30, 0x30, 0x30] (Spec.ascii "Could not open log file")] [9] ∧
    48 ≤ (0x59 : UInt8).toNat := by
  let rot : Spec.LogEvent := ⟨0, 4, 7, 0, 0, Spec.le 8 4 ++ Spec.ascii "mysql-bin.000003"⟩
  obtain ⟨inp, hd⟩ := delivers_small [Spec.streamMessage true rot,
    Spec.errPacket true 1236 [0x48, 0x59, 0x30, 0x30, 0x30] (Spec.ascii "Could not open log file")] [9] (by decide +kernel)
  exact ⟨⟨inp, [], 0, 2 ^ 9, 0⟩, rot, ⟨by unfold Spec.LogEvent.InRange; decide +kernel, rfl, by norm_num, rfl⟩, hd, by decide⟩

/-- a description in an event of the type of a heartbeat -/
example : ∃ e : Spec.LogEvent, e.code = 27 ∧ e.code ≠ 15 ∧ Spec.Describes e exampleFde 1 :=
  ⟨⟨0, 27, 7, 0, 0, exampleFde.encode ++ Spec.u8 1 ++ Spec.le 4 5⟩, rfl, by decide, ⟨by unfold Spec.LogEvent.InRange; decide +kernel,
    exampleFde_ok.1, exampleFde_ok.2, by norm_num, 5, by norm_num, rfl⟩⟩

end Mybin
