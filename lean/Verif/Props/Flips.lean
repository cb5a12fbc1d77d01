import Verif.Proofs.CrcFour
/-
C68: which scattered bit errors the two CRC services see. `flips` (Spec/Flips.lean) lists the positions of the bits that differ.
-/
namespace FinProto

theorem crc16Calc_same_iff (b1 b2 : RBuf) :
    (crc16Calc b1).toOption = (crc16Calc b2).toOption ↔ crc16Modbus b1.readable = crc16Modbus b2.readable := by
  rw [crc16Calc_eq, crc16Calc_eq, crc16_eq, crc16_eq]
  constructor
  · intro h
    have h : (crc16Modbus b1.readable).setWidth 32 = (crc16Modbus b2.readable).setWidth 32 := by
      simpa [Except.toOption] using h
    have h := congrArg (·.setWidth 16) h
    simpa using h
  · intro h
    rw [h]

theorem crc32Calc_same_iff (b1 b2 : RBuf) :
    (crc32Calc b1).toOption = (crc32Calc b2).toOption ↔ crc32IsoHdlc b1.readable = crc32IsoHdlc b2.readable := by
  rw [crc32Calc_eq, crc32Calc_eq, crc32_eq, crc32_eq]
  simp [Except.toOption]

/-- **C68.** CRC16 sees every error that flips an odd number of bits, wherever they are. -/
theorem C68_odd16 (b1 b2 : RBuf) (hl : b1.readable.length = b2.readable.length)
    (hf : (flips b1.readable b2.readable).length % 2 = 1) :
    (crc16Calc b1).toOption ≠ (crc16Calc b2).toOption := by
  rw [Ne, crc16Calc_same_iff]
  exact crcRef_odd_flips 0xA001#16 _ _ (by decide) _ _ hl hf

/-- **C68.** Two flipped bits escape CRC16 exactly when their distance is a multiple of 32767. -/
theorem C68_two16 (b1 b2 : RBuf) (hl : b1.readable.length = b2.readable.length) (i j : Nat)
    (hf : flips b1.readable b2.readable = [i, j]) :
    (crc16Calc b1).toOption = (crc16Calc b2).toOption ↔ 32767 ∣ j - i := by
  rw [crc16Calc_same_iff]
  exact (crcRef_two_flips 0xA001#16 _ _ (by decide) _ period16 _ _ hl i j hf).2

/-- **C68.** Two flipped bits escape CRC32 exactly when their distance is a multiple of 2^32 - 1. -/
theorem C68_two32 (b1 b2 : RBuf) (hl : b1.readable.length = b2.readable.length) (i j : Nat)
    (hf : flips b1.readable b2.readable = [i, j]) :
    (crc32Calc b1).toOption = (crc32Calc b2).toOption ↔ 4294967295 ∣ j - i := by
  rw [crc32Calc_same_iff]
  exact (crcRef_two_flips 0xEDB88320#32 _ _ (by decide) _ period32 _ _ hl i j hf).2

/-- **C68.** So any two flipped bits are seen by CRC16 in messages of at most 4095 bytes, and by CRC32 in messages of at most
536870911 bytes; CRC16 also sees any one or three. -/
theorem C68_few (b1 b2 : RBuf) (hl : b1.readable.length = b2.readable.length) :
    (b1.readable.length ≤ 4095 → 1 ≤ (flips b1.readable b2.readable).length → (flips b1.readable b2.readable).length ≤ 3 →
        (crc16Calc b1).toOption ≠ (crc16Calc b2).toOption)
      ∧ (b1.readable.length ≤ 536870911 → (flips b1.readable b2.readable).length = 2 →
        (crc32Calc b1).toOption ≠ (crc32Calc b2).toOption) := by
  have two : ∀ N, 8 * b1.readable.length ≤ N → (flips b1.readable b2.readable).length = 2 →
      ∃ i j, flips b1.readable b2.readable = [i, j] ∧ ¬ N ∣ j - i := by
    intro N hN h2
    match hf : flips b1.readable b2.readable, h2 with
    | [i, j], _ =>
      refine ⟨i, j, rfl, ?_⟩
      have hj : j < 8 * b1.readable.length := by
        have : j ∈ flips b1.readable b2.readable := by rw [hf]; simp
        rw [flips, List.mem_filter, List.mem_range] at this
        exact this.1
      have hij := (crcRef_two_flips 0xA001#16 0#16 0#16 (by decide) _ period16 _ _ hl i j hf).1
      intro hd
      have := Nat.le_of_dvd (by omega) hd
      omega
  constructor
  · intro hlen h1 h3
    by_cases h2 : (flips b1.readable b2.readable).length = 2
    · obtain ⟨i, j, hf, hn⟩ := two 32767 (by omega) h2
      exact fun h => hn ((C68_two16 b1 b2 hl i j hf).1 h)
    · exact C68_odd16 b1 b2 hl (by omega)
  · intro hlen h2
    obtain ⟨i, j, hf, hn⟩ := two 4294967295 (by omega) h2
    exact fun h => hn ((C68_two32 b1 b2 hl i j hf).1 h)

/-- **C68.** CRC32 sees every error of one, two or three bits in messages of at most 11454 bytes, wherever the bits are. -/
theorem C68_three32 (b1 b2 : RBuf) (hl : b1.readable.length = b2.readable.length) (hlen : b1.readable.length ≤ 11454)
    (h1 : 1 ≤ (flips b1.readable b2.readable).length) (h3 : (flips b1.readable b2.readable).length ≤ 3) :
    (crc32Calc b1).toOption ≠ (crc32Calc b2).toOption := by
  by_cases h2 : (flips b1.readable b2.readable).length = 2
  · exact (C68_few b1 b2 hl).2 (by omega) h2
  · rw [Ne, crc32Calc_same_iff]
    match hf : flips b1.readable b2.readable with
    | [] => rw [hf] at h1; cases h1
    | [i] => exact crcRef_one_flip 0xEDB88320#32 _ _ (by decide) _ _ hl i hf
    | [i, j] => rw [hf] at h2; exact absurd rfl h2
    | [i, j, k] =>
      obtain ⟨hij, hjk, hk, hiff⟩ := crcRef_three_flips 0xEDB88320#32 0xFFFFFFFF#32 0xFFFFFFFF#32 (by decide) _ _ hl i j k hf
      intro h
      have := states_apart _ _ (by omega) (by omega) (hiff.1 h)
      omega
    | _ :: _ :: _ :: _ :: _ => rw [hf] at h3; simp at h3

/-- **C68.** CRC32 sees every error of one to four bits in messages of at most 375 bytes, wherever the bits are. -/
theorem C68_four32 (b1 b2 : RBuf) (hl : b1.readable.length = b2.readable.length) (hlen : b1.readable.length ≤ 375)
    (h1 : 1 ≤ (flips b1.readable b2.readable).length) (h4 : (flips b1.readable b2.readable).length ≤ 4) :
    (crc32Calc b1).toOption ≠ (crc32Calc b2).toOption := by
  by_cases h3 : (flips b1.readable b2.readable).length ≤ 3
  · exact C68_three32 b1 b2 hl (by omega) h1 h3
  · rw [Ne, crc32Calc_same_iff]
    match hf : flips b1.readable b2.readable with
    | [] | [_] | [_, _] | [_, _, _] => rw [hf] at h3; simp at h3
    | [i, j, k, l] =>
      obtain ⟨hij, hjk, hkl, hll, hiff⟩ := crcRef_four_flips 0xEDB88320#32 0xFFFFFFFF#32 0xFFFFFFFF#32 (by decide) _ _ hl i j k l hf
      intro h
      exact CrcFour.states_apart (l - k) (l - j) (l - i) (by omega) (by omega) (by omega) (by omega) (hiff.1 h)
    | _ :: _ :: _ :: _ :: _ :: _ => rw [hf] at h4; simp at h4

/-- Two flips far apart, in buffers with different reader indexes. -/
example : flips (RBuf.mk [9, 1, 2, 3, 0x80] [] 1).readable (RBuf.mk [0, 2, 3, 0] [7] 0).readable = [0, 31] := by decide
example : flips [1, 2, 0xFF] [0, 3, 0x7F] = [0, 8, 23] := by decide

/-- Messages that differ in the first and in the last bit. -/
theorem flips_ends (n : Nat) :
    flips (1#8 :: (List.replicate n 0#8 ++ [0#8])) (0#8 :: (List.replicate n 0#8 ++ [0x80#8])) = [0, 8 * n + 15] := by
  have hz : List.zipWith (· != ·) (msgBits (List.replicate n 0#8 ++ [0#8])) (msgBits (List.replicate n 0#8 ++ [0x80#8]))
      = List.replicate (8 * n + 7) false ++ [true] := by
    induction n with
    | zero => decide
    | succ n ih =>
      have h8 : List.replicate (8 * (n + 1) + 7) false = List.replicate 8 false ++ List.replicate (8 * n + 7) false := by
        rw [← List.replicate_add]
        congr 1
        omega
      rw [List.replicate_succ, List.cons_append, List.cons_append, msgBits_cons, msgBits_cons,
        List.zipWith_append (by simp [byteBits_length]), ih, h8, List.append_assoc]
      rfl
  rw [flips_eq _ _ (by simp), msgBits_cons, msgBits_cons, List.zipWith_append (by simp [byteBits_length]), hz,
    show List.zipWith (· != ·) (byteBits 1#8) (byteBits 0#8) = true :: List.replicate 7 false by decide, List.cons_append,
    ← List.append_assoc, ← List.replicate_add, onesAt_cons, onesAt_zeros_append]
  simp [onesAt]
  omega

theorem crc16_ends (n : Nat) (h : 32767 ∣ 8 * n + 15) :
    (crc16Calc ⟨1#8 :: (List.replicate n 0#8 ++ [0#8]), [], 0⟩).toOption
      = (crc16Calc ⟨0#8 :: (List.replicate n 0#8 ++ [0x80#8]), [], 0⟩).toOption :=
  (C68_two16 ⟨1#8 :: (List.replicate n 0#8 ++ [0#8]), [], 0⟩ ⟨0#8 :: (List.replicate n 0#8 ++ [0x80#8]), [], 0⟩ (by simp [RBuf.readable]) 0 (8 * n + 15) (flips_ends n)).2 h

/-- The bound for CRC16 is sharp: these two messages of 4096 bytes differ in the first and in the last bit, at distance 32767, and have
the same CRC16. -/
example : flips (1#8 :: (List.replicate 4094 0#8 ++ [0#8])) (0#8 :: (List.replicate 4094 0#8 ++ [0x80#8])) = [0, 32767]
    ∧ (crc16Calc ⟨1#8 :: (List.replicate 4094 0#8 ++ [0#8]), [], 0⟩).toOption
      = (crc16Calc ⟨0#8 :: (List.replicate 4094 0#8 ++ [0x80#8]), [], 0⟩).toOption :=
  ⟨flips_ends 4094, crc16_ends 4094 (Nat.dvd_refl 32767)⟩

/-- Messages that differ in three bits: the first, bit 1 of the byte behind `n` others, and the last. -/
theorem flips_three (n m : Nat) :
    flips (List.replicate (n + m + 3) 0#8) (1#8 :: (List.replicate n 0#8 ++ (2#8 :: (List.replicate m 0#8 ++ [0x80#8]))))
      = [0, 8 * n + 9, 8 * n + 8 * m + 23] := by
  have zero : ∀ k (x y : List Byte), List.zipWith (· != ·) (msgBits (List.replicate k 0#8 ++ x)) (msgBits (List.replicate k 0#8 ++ y))
      = List.replicate (8 * k) false ++ List.zipWith (· != ·) (msgBits x) (msgBits y) := by
    intro k x y
    induction k with
    | zero => rfl
    | succ k ih =>
      have h8 : List.replicate (8 * (k + 1)) false = List.replicate 8 false ++ List.replicate (8 * k) false := by
        rw [← List.replicate_add]
        congr 1
        omega
      rw [List.replicate_succ, List.cons_append, List.cons_append, msgBits_cons, msgBits_cons,
        List.zipWith_append (by simp [byteBits_length]), ih, h8, List.append_assoc]
      rfl
  have split : List.replicate (n + m + 3) 0#8 = 0#8 :: (List.replicate n 0#8 ++ (0#8 :: (List.replicate m 0#8 ++ [0#8]))) := by
    rw [show n + m + 3 = (n + ((m + 1) + 1)) + 1 by omega, List.replicate_succ, List.replicate_add, List.replicate_succ,
      List.replicate_succ']
  rw [flips_eq _ _ (by simp; omega), split, msgBits_cons, msgBits_cons, List.zipWith_append (by simp [byteBits_length]), zero, msgBits_cons,
    msgBits_cons, List.zipWith_append (by simp [byteBits_length]), zero,
    show List.zipWith (· != ·) (byteBits 0#8) (byteBits 1#8) = true :: List.replicate 7 false by decide,
    show List.zipWith (· != ·) (byteBits 0#8) (byteBits 2#8) = List.replicate 1 false ++ true :: List.replicate 6 false by decide,
    show List.zipWith (· != ·) (msgBits [0#8]) (msgBits [0x80#8]) = List.replicate 7 false ++ [true] by decide]
  simp only [List.cons_append, List.append_assoc]
  rw [onesAt_cons, onesAt_zeros_append, onesAt_zeros_append, onesAt_zeros_append, onesAt_cons, onesAt_zeros_append, onesAt_zeros_append,
    onesAt_zeros_append]
  simp [onesAt]
  omega

theorem three_lengths (n m : Nat) :
    (RBuf.mk (List.replicate (n + m + 3) 0#8) [] 0).readable.length = n + m + 3
      ∧ (RBuf.mk (1#8 :: (List.replicate n 0#8 ++ (2#8 :: (List.replicate m 0#8 ++ [0x80#8])))) [] 0).readable.length = n + m + 3 := by
  simp [RBuf.readable]
  omega

/-- **C68.** There is a limit: two messages of 11455 bytes that differ in three bits and have the same CRC32. -/
theorem C68_three32_violated :
    ∃ b1 b2 : RBuf, b1.readable.length = 11455 ∧ b2.readable.length = 11455
      ∧ flips b1.readable b2.readable = [0, 49961, 91639]
      ∧ (crc32Calc b1).toOption = (crc32Calc b2).toOption := by
  have hf := flips_three 6244 5208
  have hl := three_lengths 6244 5208
  refine ⟨⟨_, [], 0⟩, ⟨_, [], 0⟩, hl.1, hl.2, hf, ?_⟩
  rw [crc32Calc_same_iff]
  exact (crcRef_three_flips 0xEDB88320#32 _ _ (by decide) _ _ (hl.1.trans hl.2.symm) 0 49961 91639 hf).2.2.2.2 missed

/-- 376 bytes of which four are not zero. -/
private def missedFour : List Byte :=
  1#8 :: (List.replicate 16 0#8 ++ (0x10#8 :: (List.replicate 80 0#8 ++ (0x80#8 :: (List.replicate 276 0#8 ++ [0x40#8])))))

set_option maxRecDepth 100000 in
private theorem missedFour_flips : flips (List.replicate 376 0#8) missedFour = [0, 140, 791, 3006] := by
  rw [flips_eq _ _ (by decide +kernel)]
  have h := onesFrom_eq 0 (List.zipWith (· != ·) (msgBits (List.replicate 376 0#8)) (msgBits missedFour))
  simp only [Nat.add_zero, List.map_id'] at h
  rw [← h]
  decide +kernel

/-- **C68.** The limit for four bits is 375 bytes: two messages of 376 bytes that differ in four bits and have the same CRC32. -/
theorem C68_four32_violated :
    ∃ b1 b2 : RBuf, b1.readable.length = 376 ∧ b2.readable.length = 376 ∧ flips b1.readable b2.readable = [0, 140, 791, 3006]
      ∧ (crc32Calc b1).toOption = (crc32Calc b2).toOption := by
  have h2 : missedFour.length = 376 := by decide +kernel
  refine ⟨⟨List.replicate 376 0#8, [], 0⟩, ⟨missedFour, [], 0⟩, List.length_replicate, h2, missedFour_flips, ?_⟩
  rw [crc32Calc_same_iff]
  exact (crcRef_four_flips 0xEDB88320#32 _ _ (by decide) _ _ (List.length_replicate.trans h2.symm) 0 140 791 3006 missedFour_flips).2.2.2.2.2
    missed_four

/-- **C68.** CRC16 sees all errors of three bits and none of some errors of four: these messages of three bytes have the same CRC16. -/
theorem C68_four16_violated :
    ∃ b1 b2 : RBuf, b1.readable.length = 3 ∧ b2.readable.length = 3 ∧ flips b1.readable b2.readable = [0, 1, 14, 16]
      ∧ (crc16Calc b1).toOption = (crc16Calc b2).toOption :=
  ⟨⟨[0, 0, 0], [], 0⟩, ⟨[3, 0x40, 1], [], 0⟩, by decide +kernel, by decide +kernel, by decide +kernel, by decide +kernel⟩

/-- `C68_odd16`, `C68_two16`, `C68_two32`, `C68_few`. -/
example := C68_odd16 ⟨[9, 1, 2, 0xFF], [], 1⟩ ⟨[0, 3, 0x7F], [7], 0⟩ (by decide) (by decide)
example := C68_two16 ⟨[9, 1, 2, 3, 0x80], [], 1⟩ ⟨[0, 2, 3, 0], [7], 0⟩ (by decide) 0 31 (by decide)
example := C68_two32 ⟨[9, 1, 2, 3, 0x80], [], 1⟩ ⟨[0, 2, 3, 0], [7], 0⟩ (by decide) 0 31 (by decide)
example := (C68_few ⟨[9, 1, 2, 3, 0x80], [], 1⟩ ⟨[0, 2, 3, 0], [7], 0⟩ (by decide)).1 (by decide) (by decide) (by decide)

example := C68_three32 ⟨[9, 1, 2, 0xFF], [], 1⟩ ⟨[0, 3, 0x7F], [7], 0⟩ (by decide) (by decide) (by decide) (by decide)
example := C68_four32 ⟨[9, 1, 2, 0xFE], [], 1⟩ ⟨[0, 3, 0x7F], [7], 0⟩ (by decide) (by decide) (by decide) (by decide)

end FinProto
