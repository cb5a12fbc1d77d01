import Verif.Proofs.BitMapWire
/-
C101: the bytes of a bit map, bit by bit, and what `read` makes of any bytes.

`wireBit bytes i j` is bit `j` of byte `i`, counted from the most significant one; `upToLast` are the bytes up to and including the first one below
0x80 (`Spec/BitMapWire.lean`).
-/
namespace FinProto

/-- **C101.** `ByteBitMap.write` appends one byte whose bit `j` is position `j`, or nothing if it does not fit. -/
theorem C101_byte_write (bits : BitVec 8) : ∃ out : List Byte, out.length = 1
    ∧ (∀ j < 8, wireBit out 0 j = ByteBitMap.get bits (BitVec.ofNat 32 j))
    ∧ ∀ b : WBuf, b.Valid → ByteBitMap.write bits b =
      if b.data.length + 1 ≤ b.maxCap then ({ b with data := b.data ++ out }, none) else (b, some .indexOutOfBounds) := by
  refine ⟨[bits], rfl, fun j hj => ?_, fun b hb => ?_⟩
  · rw [ByteBitMap.get_eq, posMod (by decide) hj 32 (by decide), if_pos hj]
    rfl
  · rw [ByteBitMap.write, WBuf.write]
    rfl

/-- **C101.** `ShortBitMap.write` appends two bytes: bit `j` of byte `i` is position `8 i + j`, but the first bit of the first byte is always set.  If
they do not fit, only the bytes that do are appended, and there is an index error. -/
theorem C101_short_write (bits : BitVec 16) : ∃ out : List Byte, out.length = 2
    ∧ (∀ i < 2, ∀ j < 8, wireBit out i j = (decide (i = 0 ∧ j = 0) || ShortBitMap.get bits (BitVec.ofNat 32 (8 * i + j))))
    ∧ ∀ b : WBuf, b.Valid → ShortBitMap.write bits b =
      if b.data.length + 2 ≤ b.maxCap then ({ b with data := b.data ++ out }, none)
      else ({ b with data := b.data ++ out.take (b.maxCap - b.data.length) }, some .indexOutOfBounds) := by
  refine ⟨[ShortBitMap.high bits, ShortBitMap.low bits], rfl, fun i hi j hj => ?_, fun b hb => ?_⟩
  · rw [ShortBitMap.get_eq, posMod (n := 16) (by decide) (by omega) 32 (by decide), if_pos (by omega)]
    have h8 : ∀ k, (0x80#8).getLsbD k = decide (k = 7) := by
      intro k
      by_cases h : k < 8
      · revert k; decide
      · rw [BitVec.getLsbD_of_ge _ _ (by omega)]
        symm
        rw [decide_eq_false_iff_not]
        omega
    have hF : ∀ k, (0xFF#32).getLsbD k = decide (k < 8) := by
      intro k
      by_cases h : k < 32
      · revert k; decide
      · rw [BitVec.getLsbD_of_ge _ _ (by omega)]
        symm
        rw [decide_eq_false_iff_not]
        omega
    obtain rfl | rfl : i = 0 ∨ i = 1 := by omega
    · simp only [wireBit, List.getD_cons_zero, ShortBitMap.high, BitVec.getLsbD_or, BitVec.getLsbD_setWidth, BitVec.getLsbD_and,
        BitVec.getLsbD_sshiftRight, BitVec.getLsbD_signExtend, hF, h8]
      rw [show 15 - (8 * 0 + j) = 8 + (7 - j) by omega]
      simp [show 7 - j < 8 by omega, show 8 + (7 - j) < 16 by omega, show 8 + (7 - j) < 32 by omega, show ¬ 32 ≤ 7 - j by omega,
        show (7 - j = 7) ↔ j = 0 by omega, Bool.or_comm]
    · simp only [wireBit, List.getD_cons_succ, List.getD_cons_zero, ShortBitMap.low, BitVec.getLsbD_setWidth, BitVec.getLsbD_and,
        BitVec.getLsbD_signExtend, hF]
      rw [show 15 - (8 * 1 + j) = 7 - j by omega]
      simp [show 7 - j < 8 by omega, show 7 - j < 16 by omega, show 7 - j < 32 by omega]
  · rw [ShortBitMap.write_each, writeEach_eq _ _ hb]
    rfl

/-- **C101.** `IntBitMap.write` appends 4 bytes: their first bits say whether more bytes follow, and bit `j` (1 … 7) of byte `i` is position
`7 * i + j`.  Positions 0, 29, 30 and 31 are not in the bytes.  If they do not fit, only the bytes that do are appended, and there is an index error. -/
theorem C101_int_write (bits : BitVec 32) : ∃ out : List Byte, out.length = 4
    ∧ (∀ i < 4, wireBit out i 0 = decide (i < 3))
    ∧ (∀ i < 4, ∀ j, 1 ≤ j → j < 8 → wireBit out i j = IntBitMap.get bits (BitVec.ofNat 32 (7 * i + j)))
    ∧ ∀ b : WBuf, b.Valid → IntBitMap.write bits b =
      if b.data.length + 4 ≤ b.maxCap then ({ b with data := b.data ++ out }, none)
      else ({ b with data := b.data ++ out.take (b.maxCap - b.data.length) }, some .indexOutOfBounds) := by
  have hget : ∀ i < 4, ((List.range 4).map (IntBitMap.outByte bits)).getD i 0 = IntBitMap.outByte bits i := by
    intro i hi
    simp [List.getD, List.getElem?_map, List.getElem?_range hi]
  refine ⟨(List.range 4).map (IntBitMap.outByte bits), by simp, fun i hi => ?_, fun i hi j h1 hj => ?_, fun b hb => ?_⟩
  · rw [wireBit, hget i hi, ← IntBitMap.outByte_msb bits i, BitVec.msb_eq_getLsbD_last]
  · rw [wireBit, hget i hi, IntBitMap.outByte_getLsbD bits i (7 - j) hi (by omega), IntBitMap.get_eq,
      posMod (n := 32) (by decide) (by omega) 32 (by decide)]
    congr 1
    omega
  · rw [IntBitMap.write, IntBitMap.writeLoop_each, ← List.range_eq_range', writeEach_eq _ _ hb]
    simp

/-- **C101.** `LongBitMap.write` appends 8 bytes: their first bits say whether more bytes follow, and bit `j` (1 … 7) of byte `i` is position
`7 * i + 7 + j`.  Positions 0 to 7 are not in the bytes.  If they do not fit, only the bytes that do are appended, and there is an index error. -/
theorem C101_long_write (bits : BitVec 64) : ∃ out : List Byte, out.length = 8
    ∧ (∀ i < 8, wireBit out i 0 = decide (i < 7))
    ∧ (∀ i < 8, ∀ j, 1 ≤ j → j < 8 → wireBit out i j = LongBitMap.get bits (BitVec.ofNat 32 (7 * i + 7 + j)))
    ∧ ∀ b : WBuf, b.Valid → LongBitMap.write bits b =
      if b.data.length + 8 ≤ b.maxCap then ({ b with data := b.data ++ out }, none)
      else ({ b with data := b.data ++ out.take (b.maxCap - b.data.length) }, some .indexOutOfBounds) := by
  have hget : ∀ i < 8, ((List.range 8).map (LongBitMap.outByte bits)).getD i 0 = LongBitMap.outByte bits i := by
    intro i hi
    simp [List.getD, List.getElem?_map, List.getElem?_range hi]
  refine ⟨(List.range 8).map (LongBitMap.outByte bits), by simp, fun i hi => ?_, fun i hi j h1 hj => ?_, fun b hb => ?_⟩
  · rw [wireBit, hget i hi, ← LongBitMap.outByte_msb bits i, BitVec.msb_eq_getLsbD_last]
  · rw [wireBit, hget i hi, LongBitMap.outByte_getLsbD bits i (7 - j) hi (by omega), LongBitMap.get_eq,
      posMod (n := 64) (by decide) (by omega) 64 (by decide)]
    congr 1
    omega
  · rw [LongBitMap.write, LongBitMap.writeLoop_each, ← List.range_eq_range', writeEach_eq _ _ hb]
    simp

/-- **C101.** `ShortBitMap.read` on any two bytes: position `8 i + j` is bit `j` of byte `i`, but positions 0 and 8 come out unset. -/
theorem C101_short_read (old : BitVec 16) (b : RBuf) (h : b.rd + 2 ≤ b.data.length) (i j : Nat) (hi : i < 2) (hj : j < 8) :
    ShortBitMap.get (ShortBitMap.read old b).1 (BitVec.ofNat 32 (8 * i + j)) = (decide (j ≠ 0) && wireBit b.readable i j) := by
  have e0 : b.readable.getD 0 0 = b.data[b.rd] := by
    simp [RBuf.readable, List.getD, List.getElem?_drop, List.getElem?_eq_getElem (show b.rd < b.data.length by omega)]
  have e1 : b.readable.getD 1 0 = b.data[b.rd + 1] := by
    simp [RBuf.readable, List.getD, List.getElem?_drop, List.getElem?_eq_getElem (show b.rd + 1 < b.data.length by omega)]
  have er : (ShortBitMap.read old b).1 = ShortBitMap.combine b.data[b.rd] b.data[b.rd + 1] := by
    rw [ShortBitMap.read, readNum_i8 b (by omega)]
    dsimp only
    rw [readNum_i8 _ (by dsimp only; omega)]
    exact (congrArg (ShortBitMap.combine · _) (BitVec.setWidth_eq _)).trans (congrArg (ShortBitMap.combine _) (BitVec.setWidth_eq _))
  rw [er, ShortBitMap.get_eq, posMod (n := 16) (by decide) (by omega) 32 (by decide), if_pos (by omega)]
  simp only [ShortBitMap.combine, BitVec.getLsbD_setWidth, BitVec.getLsbD_or, BitVec.getLsbD_shiftLeft, IntBitMap.piece_getLsbD]
  obtain rfl | rfl : i = 0 ∨ i = 1 := by omega
  · rw [wireBit, e0, show 15 - (8 * 0 + j) = 8 + (7 - j) by omega]
    by_cases h0 : j = 0
    · subst h0
      simp
    · simp [h0, show 8 + (7 - j) < 16 by omega, show 8 + (7 - j) < 32 by omega, show 7 - j < 7 by omega]
  · rw [wireBit, e1, show 15 - (8 * 1 + j) = 7 - j by omega]
    by_cases h0 : j = 0
    · subst h0
      simp
    · simp [h0, show 7 - j < 16 by omega, show 7 - j < 7 by omega, show 7 - j < 8 by omega]

/-- **C101.** `IntBitMap.read` on any bytes, however many there are and also if they end too early: position `31 - k` comes out set exactly if one of the
bytes up to the first one below 0x80 has its bit of weight `2 ^ j` (`j` below 7) set, where `k` is `j` plus seven times the index of the byte modulo
32 (Java's shift goes round).  What the map held before does not matter. -/
theorem C101_int_read (old : BitVec 32) (b : RBuf) (hrd : b.rd ≤ b.data.length) (k : Nat) (hk : k < 32) :
    IntBitMap.get (IntBitMap.read old b).1 (BitVec.ofNat 32 (31 - k)) = true ↔
      ∃ i j, i < (upToLast b.readable).length ∧ j < 7 ∧ 7 * i % 32 + j = k ∧ wireBit (upToLast b.readable) i (7 - j) = true := by
  rw [IntBitMap.read, IntBitMap.readLoop_value _ _ _ _ hrd (by simp [RBuf.readable]), IntBitMap.get_eq,
    posMod (n := 32) (by decide) (by omega) 32 (by decide), show 31 - (31 - k) = k by omega, IntBitMap.accum_getLsbD _ _ _ _ hk]
  simp only [wireBit]
  constructor
  · rintro (h | ⟨i, j, h1, h2, h3, h4⟩)
    · simp at h
    · exact ⟨i, j, h1, h2, by simpa using h3, by rw [show 7 - (7 - j) = j by omega]; exact h4⟩
  · rintro ⟨i, j, h1, h2, h3, h4⟩
    exact .inr ⟨i, j, h1, h2, by simpa using h3, by rw [show 7 - (7 - j) = j by omega] at h4; exact h4⟩

/-- **C101.** `LongBitMap.read` on any bytes, however many there are and also if they end too early: position `63 - k` comes out set exactly if one of the
bytes up to the first one below 0x80 has its bit of weight `2 ^ j` (`j` below 7) set, where `k` is `j` plus seven times the index of the byte modulo
64 (Java's shift goes round).  What the map held before does not matter. -/
theorem C101_long_read (old : BitVec 64) (b : RBuf) (hrd : b.rd ≤ b.data.length) (k : Nat) (hk : k < 64) :
    LongBitMap.get (LongBitMap.read old b).1 (BitVec.ofNat 32 (63 - k)) = true ↔
      ∃ i j, i < (upToLast b.readable).length ∧ j < 7 ∧ 7 * i % 64 + j = k ∧ wireBit (upToLast b.readable) i (7 - j) = true := by
  rw [LongBitMap.read, LongBitMap.readLoop_value _ _ _ _ hrd (by simp [RBuf.readable]), LongBitMap.get_eq,
    posMod (n := 64) (by decide) (by omega) 64 (by decide), show 63 - (63 - k) = k by omega, LongBitMap.accum_getLsbD _ _ _ _ hk]
  simp only [wireBit]
  constructor
  · rintro (h | ⟨i, j, h1, h2, h3, h4⟩)
    · simp at h
    · exact ⟨i, j, h1, h2, by simpa using h3, by rw [show 7 - (7 - j) = j by omega]; exact h4⟩
  · rintro ⟨i, j, h1, h2, h3, h4⟩
    exact .inr ⟨i, j, h1, h2, by simpa using h3, by rw [show 7 - (7 - j) = j by omega] at h4; exact h4⟩

/-- Bytes longer than any written map: the sixth byte falls on position 28, where the first one has its bit of weight 8. -/
example : IntBitMap.get (IntBitMap.read 0 ⟨[0x80, 0x80, 0x80, 0x80, 0x80, 0x01], [], 0⟩).1 28 = true
    ∧ IntBitMap.get (IntBitMap.read 0 ⟨[0x88, 0x80, 0x80, 0x80, 0x80, 0x00], [], 0⟩).1 28 = true := by decide

/-- The theorems on concrete maps and bytes. -/
example : (ShortBitMap.write 0x0001 ⟨[7], 0, 3⟩) = (⟨[7, 0x80, 0x01], 0, 3⟩, none)
    ∧ (ShortBitMap.write 0x0001 ⟨[7], 0, 2⟩) = (⟨[7, 0x80], 0, 2⟩, some .indexOutOfBounds)
    ∧ (IntBitMap.write 0x01000000 ⟨[], 0, 4⟩) = (⟨[0x81, 0x80, 0x80, 0x00], 0, 4⟩, none)
    ∧ (IntBitMap.write 0x01000000 ⟨[], 0, 3⟩) = (⟨[0x81, 0x80, 0x80], 0, 3⟩, some .indexOutOfBounds)
    ∧ (LongBitMap.write 1 ⟨[], 0, 8⟩) = (⟨[0x80, 0x80, 0x80, 0x80, 0x80, 0x80, 0x80, 0x01], 0, 8⟩, none) := by decide
example : (IntBitMap.read 5 ⟨[9, 0x81, 0x82], [], 1⟩) = (0x101, ⟨[9, 0x81, 0x82], [], 3⟩, some .indexOutOfBounds)
    ∧ (ShortBitMap.read 5 ⟨[0xFF, 0xFF], [], 0⟩).1 = 0x7F7F := by decide
example := C101_byte_write 0xA5
example := C101_short_write 0xA5A5
example := C101_int_write 0xA5A5A5A5
example := C101_long_write 0xA5A5A5A5A5A5A5A5
example := C101_short_read 0 ⟨[9, 0xFF, 0x01], [], 1⟩ (by decide) 1 7 (by decide) (by decide)
example := C101_int_read 5 ⟨[9, 0x81, 0x82], [], 1⟩ (by decide) 8 (by decide)
example := C101_long_read 5 ⟨[9, 0x81, 0x82], [], 1⟩ (by decide) 8 (by decide)

end FinProto
