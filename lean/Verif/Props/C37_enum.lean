/-
C37, C34: ENUM values of every width the decoder accepts, and the column type a metadata entry stands for.
-/
import Verif.Props.C34
import Verif.Model.Sql

namespace Mybin

theorem bind_ok_inv {α β : Type} {x : P α} {f : α → P β} {bs rest : Bytes} {b : β} (h : (x >>= f) bs = .ok b rest) :
    ∃ a r, x bs = .ok a r ∧ f a r = .ok b rest := by
  have h : (x bs).bind f = .ok b rest := h
  cases hx : x bs with
  | ok a r => rw [hx] at h; exact ⟨a, r, rfl, h⟩
  | err e r => rw [hx] at h; cases h
  | panic => rw [hx] at h; cases h
  | hang => rw [hx] at h; cases h

/-- C37: an ENUM value stored in 1, 2, 3, 4 or 8 bytes is read as its number, which is the parameter of the statement made
from it; any other width is an error. -/
theorem C37_enum (p : Nat) (rest : Bytes) :
    (p ∈ [1, 2, 3, 4, 8] → ∀ n < 256 ^ p, ∃ e, BinlogColumnValue.readFrom (.enum p) (Spec.le p n ++ rest) = .ok (.enum e) rest ∧
      e.toU64 = n ∧ ∀ unsigned, StmtColumnValue.ofBinlog (.enum e) unsigned = some (.newUnsignedBigint n)) ∧
    (p ∉ [1, 2, 3, 4, 8] → ∀ bs, ∃ e r, BinlogColumnValue.readFrom (.enum p) bs = .err e r) := by
  constructor
  · intro hp n hn
    simp only [List.mem_cons, List.not_mem_nil, or_false] at hp
    rcases hp with rfl | rfl | rfl | rfl | rfl
    · refine ⟨.pack1 n, ?_, rfl, fun _ => rfl⟩
      have : Spec.le 1 n = Spec.u8 n := by
        simp [Spec.le, Spec.u8, Nat.mod_eq_of_lt (show n < 256 by omega)]
      rw [BinlogColumnValue.readFrom, this, readEnum]
      step (readU8_u8 n rest (by omega))
      rfl
    · refine ⟨.pack2 n, ?_, rfl, fun _ => rfl⟩
      rw [BinlogColumnValue.readFrom, readEnum]
      step (readLeU16_le n rest (by omega))
      rfl
    · refine ⟨.pack3 n, ?_, rfl, fun _ => rfl⟩
      rw [BinlogColumnValue.readFrom, readEnum]
      step (readLeU24_le n rest (by omega))
      rfl
    · refine ⟨.pack4 n, ?_, rfl, fun _ => rfl⟩
      rw [BinlogColumnValue.readFrom, readEnum]
      step (readLeU32_le n rest (by omega))
      rfl
    · refine ⟨.pack8 n, ?_, rfl, fun _ => rfl⟩
      rw [BinlogColumnValue.readFrom, readEnum]
      step (readLeU64_le n rest (by omega))
      rfl
  · intro hp bs
    simp only [List.mem_cons, List.not_mem_nil, or_false, not_or] at hp
    obtain ⟨h1, h2, h3, h4, h8⟩ := hp
    rw [BinlogColumnValue.readFrom]
    unfold readEnum
    split
    all_goals first | contradiction | exact ⟨_, _, rfl⟩

example : (3 : Nat) ∈ [1, 2, 3, 4, 8] ∧ 0x123456 < 256 ^ 3 ∧ (5 : Nat) ∉ [1, 2, 3, 4, 8] := by decide

/-- the type of a column, without the version of its storage: `TIMESTAMP` and `DATETIME` with fractions are stored in a
newer way (types 17 and 18), `VARCHAR` is 253 on the wire and 15 in storage, and the four sizes of BLOB are one type -/
def Spec.plainType : ColumnType → ColumnType
  | .timestamp2 => .timestamp
  | .dateTime2 => .dateTime
  | .varchar => .varString
  | .tinyBlob | .mediumBlob | .longBlob => .blob
  | t => t

/-- C34: the type a metadata entry stands for is the type it was read for. -/
theorem C34_type (t : ColumnType) (bs rest : Bytes) (m : ColumnMeta) (h : ColumnMeta.readFrom t bs = .ok m rest) :
    m.colType = Spec.plainType t := by
  have one : ∀ {f : Nat → ColumnMeta} {p : P Nat}, (do return f (← p) : P ColumnMeta) bs = .ok m rest → ∃ n, m = f n := by
    intro f p h
    obtain ⟨n, r, -, h2⟩ := bind_ok_inv h
    cases h2
    exact ⟨n, rfl⟩
  cases t
  all_goals first
    | (cases h; rfl)
    | (exact absurd (show R.panic = _ from h) (by intro h; cases h))
    | (obtain ⟨n, rfl⟩ := one h; rfl)
    | skip
  case bit =>
    obtain ⟨n, r, -, h2⟩ := bind_ok_inv h
    obtain ⟨n', rfl⟩ : ∃ n', m = .bit n n' := by
      obtain ⟨n', r', -, h3⟩ := bind_ok_inv h2
      cases h3
      exact ⟨n', rfl⟩
    rfl
  case newDecimal =>
    obtain ⟨n, r, -, h2⟩ := bind_ok_inv h
    obtain ⟨n', r', -, h3⟩ := bind_ok_inv h2
    cases h3
    rfl
  case string =>
    have h : readStringMeta bs = .ok m rest := h
    unfold readStringMeta at h
    obtain ⟨n, r, -, h2⟩ := bind_ok_inv h
    obtain ⟨n', r', -, h3⟩ := bind_ok_inv h2
    split at h3
    · cases h3; rfl
    · split at h3
      · cases h3; rfl
      · cases h3

example : ColumnMeta.readFrom .dateTime2 [6, 9] = .ok (.dateTime 6) [9] ∧ Spec.plainType .dateTime2 = .dateTime := ⟨rfl, rfl⟩

end Mybin
