import Verif.Model.FixedInt
import Verif.Props.FixedString
/-
C63: widths of fixed strings as Java ints.
-/
namespace FinProto

theorem writeFixedStringInt_nonneg (b : WBuf) (value : Option JStr) (len : BitVec 32) (pad : JChar) (left : Bool) (h : 0 ≤ len.toInt) :
    writeFixedStringInt b value len pad left = writeFixedString b value len.toInt.toNat pad left := by
  obtain ⟨n, hn⟩ : ∃ n : Nat, len.toInt = n := ⟨len.toInt.toNat, (Int.toNat_of_nonneg h).symm⟩
  simp only [writeFixedStringInt, writeFixedString, hn, Int.toNat_natCast]
  match value with
  | none =>
    dsimp only
    simp only [padCharInt, Int.natCast_pos, Int.toNat_natCast, Nat.sub_zero]
    cases left <;> by_cases h0 : 0 < n <;> simp [h0]
  | some [] =>
    dsimp only
    simp only [padCharInt, Int.natCast_pos, Int.toNat_natCast, Nat.sub_zero]
    cases left <;> by_cases h0 : 0 < n <;> simp [h0]
  | some (c :: cs) =>
    dsimp only
    obtain ⟨m, hm⟩ : ∃ m, m = (utf8Enc (c :: cs)).length := ⟨_, rfl⟩
    rw [← hm]
    have hmin : min (m : Int) (n : Int) = ((min m n : Nat) : Int) := by omega
    have hlt : ((min m n : Nat) : Int) < (n : Int) ↔ min m n < n := by omega
    have hsub : (n : Int) - ((min m n : Nat) : Int) = ((n - min m n : Nat) : Int) := by omega
    have hneg : ¬ ((min m n : Nat) : Int) < 0 := by omega
    have hpad : ∀ b', padCharInt b' ((n - min m n : Nat) : Int) pad = padChar b' (n - min m n) pad := by
      intro b'
      simp only [padCharInt, Int.natCast_pos, Int.toNat_natCast]
      by_cases h0 : 0 < n - min m n
      · rw [if_pos h0]
      · rw [if_neg h0, show n - min m n = 0 by omega]; rfl
    simp only [hmin, hlt, hsub, hpad, WBuf.writeBytesInt, if_neg hneg, Int.toNat_natCast]
    rcases (if (left && decide (min m n < n)) = true then padChar b (n - min m n) pad else (b, none)) with ⟨b1, _ | e⟩
    · dsimp only
      rcases b1.write (List.take (min m n) (utf8Enc (c :: cs))) with ⟨b2, _ | e⟩ <;> rfl
    · rfl

theorem readFixedStringInt_nonneg (b : RBuf) (len : BitVec 32) (pad : JChar) (left : Bool) (h : 0 ≤ len.toInt) :
    readFixedStringInt b len pad left = readFixedString b len.toInt.toNat pad left := by
  simp only [readFixedStringInt, readFixedString, RBuf.readTextInt]
  rw [if_neg (by omega)]
  rcases b.readText len.toInt.toNat with ⟨b1, e | v⟩ <;> rfl

/-- **C63.** For every `int` width: a width of at least zero behaves as described by C01–C06 (there stated for natural numbers); with a
negative width a non-empty text is refused with `IllegalArgumentException`, an empty or null one is ignored, and nothing is
written in either case. -/
theorem C63_write (b : WBuf) (value : Option JStr) (len : BitVec 32) (pad : JChar) (left : Bool) :
    (0 ≤ len.toInt → writeFixedStringInt b value len pad left = writeFixedString b value len.toInt.toNat pad left)
      ∧ (len.toInt < 0 → writeFixedStringInt b value len pad left =
          (b, if value.getD [] = [] then none else some .illegalArgument)) := by
  refine ⟨writeFixedStringInt_nonneg b value len pad left, fun h => ?_⟩
  simp only [writeFixedStringInt]
  match value with
  | none => simp [show ¬ 0 < len.toInt by omega]
  | some [] => simp [show ¬ 0 < len.toInt by omega]
  | some (c :: cs) =>
    have hmin : min ((utf8Enc (c :: cs)).length : Int) len.toInt = len.toInt := by omega
    simp only [hmin, WBuf.writeBytesInt, if_pos h]
    simp

/-- **C63.** Reading with a negative width throws `IndexOutOfBoundsException` and does not move the reader index. -/
theorem C63_read (b : RBuf) (len : BitVec 32) (pad : JChar) (left : Bool) :
    (0 ≤ len.toInt → readFixedStringInt b len pad left = readFixedString b len.toInt.toNat pad left)
      ∧ (len.toInt < 0 → readFixedStringInt b len pad left = (b, .error .indexOutOfBounds)) := by
  refine ⟨readFixedStringInt_nonneg b len pad left, fun h => ?_⟩
  simp only [readFixedStringInt, RBuf.readTextInt, if_pos h]

/-- The short forms are the ones with blanks on the right. -/
theorem C63_defaults (b : WBuf) (o : RBuf) (value : Option JStr) (len : BitVec 32) (h : 0 ≤ len.toInt) :
    writeFixedStringInt3 b value len = writeFixedString3 b value len.toInt.toNat
      ∧ readFixedStringInt2 o len = readFixedString2 o len.toInt.toNat :=
  ⟨writeFixedStringInt_nonneg b value len 0x20 false h, readFixedStringInt_nonneg o len 0x20 false h⟩

example : (writeFixedStringInt ⟨[1], 0, 9⟩ (some (js "ab")) (-1) 0x20 false) = (⟨[1], 0, 9⟩, some .illegalArgument)
    ∧ (writeFixedStringInt ⟨[1], 0, 9⟩ none (-1) 0x20 false) = (⟨[1], 0, 9⟩, none)
    ∧ (writeFixedStringInt ⟨[1], 0, 9⟩ (some (js "ab")) 3 0x20 false) = (⟨[1, 0x61, 0x62, 0x20], 0, 9⟩, none) := by decide

end FinProto
