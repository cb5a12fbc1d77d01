import Verif.Proofs.BitMap
import Verif.Proofs.BitMapSets
import Verif.Spec.BitMapWire
/-
Lemmas for `Props/BitMapWire.lean`.
-/
namespace FinProto

theorem below_iff (x : Byte) : x.toNat < 0x80 ↔ x.msb = false := by
  rw [BitVec.msb_eq_decide, decide_eq_false_iff_not]
  simp

/-- Bytes written one by one, as long as they fit. -/
def writeEach : List Byte → WBuf → WBuf × Option JErr
  | [], b => (b, none)
  | x :: xs, b =>
    match b.write [x] with
    | (b', none) => writeEach xs b'
    | (b', some e) => (b', some e)

theorem writeEach_eq (out : List Byte) (b : WBuf) (hb : b.Valid) : writeEach out b =
    if b.data.length + out.length ≤ b.maxCap then ({ b with data := b.data ++ out }, none)
    else ({ b with data := b.data ++ out.take (b.maxCap - b.data.length) }, some .indexOutOfBounds) := by
  induction out generalizing b with
  | nil =>
    have := hb.2
    rw [writeEach, if_pos (by simpa using this)]
    simp
  | cons x xs ih =>
    rw [writeEach, WBuf.write]
    by_cases h : b.data.length + 1 ≤ b.maxCap
    · rw [if_pos (by simpa using h)]
      dsimp only
      rw [ih _ ⟨by have := hb.1; simp; omega, by simpa using h⟩]
      simp only [List.length_append, List.length_cons, List.length_nil, List.append_assoc, List.cons_append, List.nil_append, Nat.zero_add]
      by_cases h2 : b.data.length + 1 + xs.length ≤ b.maxCap
      · rw [if_pos h2, if_pos (by omega)]
      · rw [if_neg h2, if_neg (by omega), show b.maxCap - b.data.length = (b.maxCap - (b.data.length + 1)) + 1 by omega, List.take_succ_cons]
    · rw [if_neg (by simpa using h), if_neg (by simp; omega), show b.maxCap - b.data.length = 0 by omega]
      simp

theorem ByteBitMap.write_each (bits : BitVec 8) (b : WBuf) : ByteBitMap.write bits b = writeEach [bits] b := by
  rw [ByteBitMap.write, writeEach]
  cases b.write [bits] with
  | mk b' e => cases e <;> rfl

theorem ShortBitMap.write_each (bits : BitVec 16) (b : WBuf) :
    ShortBitMap.write bits b = writeEach [ShortBitMap.high bits, ShortBitMap.low bits] b := by
  rw [ShortBitMap.write, writeEach]
  cases b.write [ShortBitMap.high bits] with
  | mk b' e =>
    cases e with
    | some e => rfl
    | none =>
      dsimp only
      rw [writeEach]
      cases b'.write [ShortBitMap.low bits] with
      | mk b'' e => cases e <;> rfl

theorem IntBitMap.writeLoop_each (bits : BitVec 32) (n i : Nat) (b : WBuf) :
    IntBitMap.writeLoop bits n i b = writeEach ((List.range' i n).map (IntBitMap.outByte bits)) b := by
  induction n generalizing i b with
  | zero => rfl
  | succ n ih =>
    rw [IntBitMap.writeLoop, List.range'_succ, List.map_cons, writeEach]
    cases b.write [IntBitMap.outByte bits i] with
    | mk b' e =>
      cases e with
      | some e => rfl
      | none => exact ih (i + 1) b'

theorem IntBitMap.readLoop_value (f : Nat) (bits : BitVec 32) (shift : BitVec 32) (b : RBuf) (hrd : b.rd ≤ b.data.length)
    (hf : b.data.length - b.rd < f) :
    (IntBitMap.readLoop f bits shift b).1 = IntBitMap.accum bits shift (upToLast b.readable) := by
  induction f generalizing bits shift b with
  | zero => omega
  | succ f ih =>
    by_cases h : b.rd < b.data.length
    · have hr : b.readable = b.data[b.rd] :: ({ b with rd := b.rd + 1 } : RBuf).readable := by
        unfold RBuf.readable
        exact List.drop_eq_getElem_cons h
      rw [IntBitMap.readLoop_some _ _ _ _ h, hr, upToLast]
      dsimp only
      by_cases hm : b.data[b.rd].msb = true
      · rw [if_pos hm, ih _ _ _ (by dsimp only; omega) (by dsimp only; omega), if_neg (by rw [below_iff, hm]; simp)]
        rfl
      · rw [if_neg hm, if_pos (by rw [below_iff]; simpa using hm)]
        rfl
    · have : b.readable = [] := List.drop_of_length_le (by omega)
      rw [IntBitMap.readLoop, readNum_i8_end b h, this]
      rfl

theorem IntBitMap.accum_getLsbD (bits : BitVec 32) (shift : BitVec 32) (xs : List Byte) (k : Nat) (hk : k < 32) :
    (IntBitMap.accum bits shift xs).getLsbD k = true ↔
      bits.getLsbD k = true ∨ ∃ i j, i < xs.length ∧ j < 7 ∧ (shift.toNat + 7 * i) % 32 + j = k ∧ (xs.getD i 0).getLsbD j = true := by
  induction xs generalizing bits shift with
  | nil => simp [IntBitMap.accum]
  | cons x xs ih =>
    rw [IntBitMap.accum, ih, BitVec.getLsbD_or, BitVec.getLsbD_shiftLeft, IntBitMap.piece_getLsbD, and31]
    have hs : ∀ i, ((shift + 7).toNat + 7 * i) % 32 = (shift.toNat + 7 * (i + 1)) % 32 := by
      intro i
      have h7 : (7 : BitVec 32).toNat = 7 := rfl
      rw [BitVec.toNat_add, h7]
      omega
    constructor
    · rintro (h | ⟨i, j, h1, h2, h3, h4⟩)
      · simp only [Bool.or_eq_true, Bool.and_eq_true, decide_eq_true_eq, Bool.not_eq_true', decide_eq_false_iff_not] at h
        rcases h with h | ⟨⟨_, h1⟩, h2, h3⟩
        · exact .inl h
        · exact .inr ⟨0, k - shift.toNat % 32, by simp, h2, by omega, by simpa using h3⟩
      · exact .inr ⟨i + 1, j, by simpa using h1, h2, by rw [← hs]; exact h3, by simpa using h4⟩
    · rintro (h | ⟨i, j, h1, h2, h3, h4⟩)
      · exact .inl (by rw [h]; rfl)
      · cases i with
        | zero =>
          left
          have e : k - shift.toNat % 32 = j := by simp only [Nat.mul_zero, Nat.add_zero] at h3; omega
          rw [e]
          have h5 : ¬ k < shift.toNat % 32 := by simp only [Nat.mul_zero, Nat.add_zero] at h3; omega
          rw [List.getD_cons_zero] at h4
          simp [hk, h2, h4, h5]
        | succ i => exact .inr ⟨i, j, by simpa using h1, h2, by rw [hs]; exact h3, by simpa using h4⟩

theorem LongBitMap.writeLoop_each (bits : BitVec 64) (n i : Nat) (b : WBuf) :
    LongBitMap.writeLoop bits n i b = writeEach ((List.range' i n).map (LongBitMap.outByte bits)) b := by
  induction n generalizing i b with
  | zero => rfl
  | succ n ih =>
    rw [LongBitMap.writeLoop, List.range'_succ, List.map_cons, writeEach]
    cases b.write [LongBitMap.outByte bits i] with
    | mk b' e =>
      cases e with
      | some e => rfl
      | none => exact ih (i + 1) b'

theorem LongBitMap.readLoop_value (f : Nat) (bits : BitVec 64) (shift : BitVec 32) (b : RBuf) (hrd : b.rd ≤ b.data.length)
    (hf : b.data.length - b.rd < f) :
    (LongBitMap.readLoop f bits shift b).1 = LongBitMap.accum bits shift (upToLast b.readable) := by
  induction f generalizing bits shift b with
  | zero => omega
  | succ f ih =>
    by_cases h : b.rd < b.data.length
    · have hr : b.readable = b.data[b.rd] :: ({ b with rd := b.rd + 1 } : RBuf).readable := by
        unfold RBuf.readable
        exact List.drop_eq_getElem_cons h
      rw [LongBitMap.readLoop_some _ _ _ _ h, hr, upToLast]
      dsimp only
      by_cases hm : b.data[b.rd].msb = true
      · rw [if_pos hm, ih _ _ _ (by dsimp only; omega) (by dsimp only; omega), if_neg (by rw [below_iff, hm]; simp)]
        rfl
      · rw [if_neg hm, if_pos (by rw [below_iff]; simpa using hm)]
        rfl
    · have : b.readable = [] := List.drop_of_length_le (by omega)
      rw [LongBitMap.readLoop, readNum_i8_end b h, this]
      rfl

theorem LongBitMap.accum_getLsbD (bits : BitVec 64) (shift : BitVec 32) (xs : List Byte) (k : Nat) (hk : k < 64) :
    (LongBitMap.accum bits shift xs).getLsbD k = true ↔
      bits.getLsbD k = true ∨ ∃ i j, i < xs.length ∧ j < 7 ∧ (shift.toNat + 7 * i) % 64 + j = k ∧ (xs.getD i 0).getLsbD j = true := by
  induction xs generalizing bits shift with
  | nil => simp [LongBitMap.accum]
  | cons x xs ih =>
    rw [LongBitMap.accum, ih, BitVec.getLsbD_or, BitVec.getLsbD_shiftLeft, LongBitMap.piece_getLsbD, and63]
    have hs : ∀ i, ((shift + 7).toNat + 7 * i) % 64 = (shift.toNat + 7 * (i + 1)) % 64 := by
      intro i
      have h7 : (7 : BitVec 32).toNat = 7 := rfl
      rw [BitVec.toNat_add, h7]
      omega
    constructor
    · rintro (h | ⟨i, j, h1, h2, h3, h4⟩)
      · simp only [Bool.or_eq_true, Bool.and_eq_true, decide_eq_true_eq, Bool.not_eq_true', decide_eq_false_iff_not] at h
        rcases h with h | ⟨⟨_, h1⟩, h2, h3⟩
        · exact .inl h
        · exact .inr ⟨0, k - shift.toNat % 64, by simp, h2, by omega, by simpa using h3⟩
      · exact .inr ⟨i + 1, j, by simpa using h1, h2, by rw [← hs]; exact h3, by simpa using h4⟩
    · rintro (h | ⟨i, j, h1, h2, h3, h4⟩)
      · exact .inl (by rw [h]; rfl)
      · cases i with
        | zero =>
          left
          have e : k - shift.toNat % 64 = j := by simp only [Nat.mul_zero, Nat.add_zero] at h3; omega
          rw [e]
          have h5 : ¬ k < shift.toNat % 64 := by simp only [Nat.mul_zero, Nat.add_zero] at h3; omega
          rw [List.getD_cons_zero] at h4
          simp [hk, h2, h4, h5]
        | succ i => exact .inr ⟨i, j, by simpa using h1, h2, by rw [hs]; exact h3, by simpa using h4⟩

end FinProto
