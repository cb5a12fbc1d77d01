import Verif.Proofs.BitMapSets
/-
Properties C17–C21: bitmaps.  A bitmap's content is its private field; the statements speak about it only through
`get`, `set`, `clear`, `write` and `read`.
-/
namespace FinProto

/-- **C17.** `ByteBitMap`: after any history of in-range calls `get(p)` tells whether the last call on `p` was `set`
(positions never mentioned keep their value). -/
theorem C17_byte_set (s : BitVec 8) (history : List BmCall) (hin : ∀ c ∈ history, c.pos < 8) (p : Nat) (hp : p < 8) :
    ByteBitMap.get (runBm ByteBitMap.set ByteBitMap.clear s history) (BitVec.ofNat 32 p)
      = (lastCall history p).getD (ByteBitMap.get s (BitVec.ofNat 32 p)) :=
  runBm_lastCall _ _ _ 8 ByteBitMap.get_set ByteBitMap.get_clear s history hin p hp

/-- **C17.** `ShortBitMap`: after any history of in-range calls `get(p)` tells whether the last call on `p` was `set`
(positions never mentioned keep their value). -/
theorem C17_short_set (s : BitVec 16) (history : List BmCall) (hin : ∀ c ∈ history, c.pos < 16) (p : Nat) (hp : p < 16) :
    ShortBitMap.get (runBm ShortBitMap.set ShortBitMap.clear s history) (BitVec.ofNat 32 p)
      = (lastCall history p).getD (ShortBitMap.get s (BitVec.ofNat 32 p)) :=
  runBm_lastCall _ _ _ 16 ShortBitMap.get_set ShortBitMap.get_clear s history hin p hp

example : ByteBitMap.get (runBm ByteBitMap.set ByteBitMap.clear 0 [.set 3, .set 5, .clear 3]) 3 = false
    ∧ ByteBitMap.get (runBm ByteBitMap.set ByteBitMap.clear 0 [.set 3, .set 5, .clear 3]) 5 = true := by decide
example : ShortBitMap.get (runBm ShortBitMap.set ShortBitMap.clear 0 [.set 0, .set 15, .clear 15, .set 15]) 15 = true := by decide

/-- **C18 (part that holds).** `IntBitMap` is right as long as `clear` is never called.  Missing: histories with `clear`, for
which the property is false (`C18_int_clear_violated`). -/
theorem C18_int_set_partial (s : BitVec 32) (history : List BmCall) (hin : ∀ c ∈ history, c.pos < 32)
    (hset : ∀ c ∈ history, c = .set c.pos) (p : Nat) (hp : p < 32) :
    IntBitMap.get (runBm IntBitMap.set IntBitMap.clear s history) (BitVec.ofNat 32 p)
      = (lastCall history p).getD (IntBitMap.get s (BitVec.ofNat 32 p)) := by
  rw [IntBitMap.runBm_eq s history hin p hp]
  induction history using snoc_induction with
  | nil => simp [lastCall]
  | snoc h c ih =>
    have ih := ih (fun c' hc' => hin c' (by simp [hc'])) (fun c' hc' => hset c' (by simp [hc']))
    rw [lastCall_snoc]
    have hc := hset c (by simp)
    obtain ⟨q, rfl⟩ : ∃ q, c = .set q := ⟨_, hc⟩
    have hany : (h ++ [BmCall.set q]).any (·.pos == p) = (h.any (·.pos == p) || q == p) := by simp [BmCall.pos]
    rw [hany]
    by_cases hq : q = p
    · simp [BmCall.pos, hq]
    · have hb : (q == p) = false := by simpa using hq
      rw [hb, Bool.or_false, ih]
      simp [BmCall.pos, hq]

/-- What `IntBitMap` does on every history: a position is set as soon as it was ever mentioned, by `set` or by `clear`. -/
theorem C18_int_actual (s : BitVec 32) (history : List BmCall) (hin : ∀ c ∈ history, c.pos < 32) (p : Nat) (hp : p < 32) :
    IntBitMap.get (runBm IntBitMap.set IntBitMap.clear s history) (BitVec.ofNat 32 p)
      = (IntBitMap.get s (BitVec.ofNat 32 p) || history.any (·.pos == p)) :=
  IntBitMap.runBm_eq s history hin p hp

/-- **C18 violated.** `clear(p)` never clears: afterwards `get(p)` is true, for every content and position. -/
theorem C18_int_clear_violated (s : BitVec 32) (p : Nat) (hp : p < 32) :
    IntBitMap.get (IntBitMap.clear s (BitVec.ofNat 32 p)) (BitVec.ofNat 32 p) = true := by
  rw [IntBitMap.clear_eq_set, IntBitMap.get_set s p p hp hp, if_pos rfl]

/-- **C18 (part that holds).** `LongBitMap` is right as long as `clear` is never called.  Missing: histories with `clear`, for
which the property is false (`C18_long_clear_violated`). -/
theorem C18_long_set_partial (s : BitVec 64) (history : List BmCall) (hin : ∀ c ∈ history, c.pos < 64)
    (hset : ∀ c ∈ history, c = .set c.pos) (p : Nat) (hp : p < 64) :
    LongBitMap.get (runBm LongBitMap.set LongBitMap.clear s history) (BitVec.ofNat 32 p)
      = (lastCall history p).getD (LongBitMap.get s (BitVec.ofNat 32 p)) := by
  rw [LongBitMap.runBm_eq s history hin p hp]
  induction history using snoc_induction with
  | nil => simp [lastCall]
  | snoc h c ih =>
    have ih := ih (fun c' hc' => hin c' (by simp [hc'])) (fun c' hc' => hset c' (by simp [hc']))
    rw [lastCall_snoc]
    have hc := hset c (by simp)
    obtain ⟨q, rfl⟩ : ∃ q, c = .set q := ⟨_, hc⟩
    have hany : (h ++ [BmCall.set q]).any (·.pos == p) = (h.any (·.pos == p) || q == p) := by simp [BmCall.pos]
    rw [hany]
    by_cases hq : q = p
    · simp [BmCall.pos, hq]
    · have hb : (q == p) = false := by simpa using hq
      rw [hb, Bool.or_false, ih]
      simp [BmCall.pos, hq]

/-- What `LongBitMap` does on every history: a position is set as soon as it was ever mentioned, by `set` or by `clear`. -/
theorem C18_long_actual (s : BitVec 64) (history : List BmCall) (hin : ∀ c ∈ history, c.pos < 64) (p : Nat) (hp : p < 64) :
    LongBitMap.get (runBm LongBitMap.set LongBitMap.clear s history) (BitVec.ofNat 32 p)
      = (LongBitMap.get s (BitVec.ofNat 32 p) || history.any (·.pos == p)) :=
  LongBitMap.runBm_eq s history hin p hp

/-- **C18 violated.** `clear(p)` never clears: afterwards `get(p)` is true, for every content and position. -/
theorem C18_long_clear_violated (s : BitVec 64) (p : Nat) (hp : p < 64) :
    LongBitMap.get (LongBitMap.clear s (BitVec.ofNat 32 p)) (BitVec.ofNat 32 p) = true := by
  rw [LongBitMap.clear_eq_set, LongBitMap.get_set s p p hp hp, if_pos rfl]

example : IntBitMap.get (runBm IntBitMap.set IntBitMap.clear 0 [.set 3, .set 30]) 30 = true
    ∧ LongBitMap.get (runBm LongBitMap.set LongBitMap.clear 0 [.set 3, .clear 60]) 60 = true := by decide

/-- **C19.** `ByteBitMap`: writing it and reading it back anywhere gives the same content, and consumes the one byte written. -/
theorem C19_byte (bits old : BitVec 8) (b : WBuf) (hcap : b.data.length + 1 ≤ b.maxCap) (post spare : List Byte) :
    ByteBitMap.write bits b = ({ b with data := b.data ++ [bits] }, none)
      ∧ ByteBitMap.read old ⟨(b.data ++ [bits]) ++ post, spare, b.data.length⟩
        = (bits, ⟨(b.data ++ [bits]) ++ post, spare, b.data.length + 1⟩, none) := by
  constructor
  · rw [ByteBitMap.write, WBuf.write, if_pos (by simpa using hcap)]
  · rw [ByteBitMap.read, readNum_i8 _ (by simp)]
    simp
    exact BitVec.setWidth_eq _

/-- **C19 (part that holds).** `ShortBitMap`: two bytes are written and read back; all positions survive except 0 and 8, which always
come back unset.  Missing: positions 0 and 8 (`C19_short_violated`). -/
theorem C19_short_partial (bits old : BitVec 16) (b : WBuf) (hcap : b.data.length + 2 ≤ b.maxCap) (post spare : List Byte) :
    ∃ o1 o2 r, ShortBitMap.write bits b = ({ b with data := b.data ++ [o1, o2] }, none)
      ∧ ShortBitMap.read old ⟨(b.data ++ [o1, o2]) ++ post, spare, b.data.length⟩
        = (r, ⟨(b.data ++ [o1, o2]) ++ post, spare, b.data.length + 2⟩, none)
      ∧ ∀ p < 16, ShortBitMap.get r (BitVec.ofNat 32 p)
        = (ShortBitMap.get bits (BitVec.ofNat 32 p) && decide (p ≠ 0 ∧ p ≠ 8)) := by
  refine ⟨ShortBitMap.high bits, ShortBitMap.low bits, ShortBitMap.combine (ShortBitMap.high bits) (ShortBitMap.low bits), ?_, ?_, ?_⟩
  · rw [ShortBitMap.write, WBuf.write, if_pos (by simp; omega)]
    dsimp only
    rw [WBuf.write, if_pos (by simp; omega)]
    simp
  · rw [ShortBitMap.read, readNum_i8 _ (by simp)]
    dsimp only
    rw [readNum_i8 _ (by simp)]
    simp
    exact (congrArg (ShortBitMap.combine · _) (BitVec.setWidth_eq _)).trans (congrArg (ShortBitMap.combine _) (BitVec.setWidth_eq _))
  · intro p hp
    rw [ShortBitMap.get_eq, ShortBitMap.get_eq, posMod (by decide) hp 32 (by decide), if_pos hp]
    have hk : 15 - p < 16 := by omega
    have hlt : (decide (p ≠ 0 ∧ p ≠ 8)) = decide (15 - p ≠ 15 ∧ 15 - p ≠ 7) := by
      rw [decide_eq_decide]; omega
    rw [hlt]
    generalize 15 - p = k at hk
    clear hlt
    have h7 : ∀ j, (0x7F#32).getLsbD j = decide (j < 7) := by
      intro j
      by_cases h : j < 32
      · revert j; decide
      · rw [BitVec.getLsbD_of_ge _ _ (by omega)]
        symm
        rw [decide_eq_false_iff_not]
        omega
    have hF : ∀ j, (0xFF#32).getLsbD j = decide (j < 8) := by
      intro j
      by_cases h : j < 32
      · revert j; decide
      · rw [BitVec.getLsbD_of_ge _ _ (by omega)]
        symm
        rw [decide_eq_false_iff_not]
        omega
    have h8 : ∀ j, (0x80#8).getLsbD j = decide (j = 7) := by
      intro j
      by_cases h : j < 8
      · revert j; decide
      · rw [BitVec.getLsbD_of_ge _ _ (by omega)]
        symm
        rw [decide_eq_false_iff_not]
        omega
    simp only [ShortBitMap.combine, ShortBitMap.high, ShortBitMap.low, BitVec.getLsbD_setWidth, BitVec.getLsbD_or,
      BitVec.getLsbD_shiftLeft, BitVec.getLsbD_and, BitVec.getLsbD_signExtend, h7, hF, h8, BitVec.getLsbD_sshiftRight]
    by_cases h1 : k < 8
    · by_cases h2 : k = 7
      · subst h2
        simp
      · simp [h1, h2, hk, show k < 7 by omega, show k < 32 by omega, show ¬ k = 15 by omega]
    · by_cases h2 : k = 15
      · subst h2
        simp
      · simp [h1, h2, hk, show ¬ k < 7 by omega, show k < 32 by omega, show k - 8 < 7 by omega, show k - 8 < 8 by omega, show k - 8 < 32 by omega, show ¬ k - 8 = 7 by omega, show ¬ k = 7 by omega, show 8 + (k - 8) = k by omega]

/-- **C19 (what holds instead).** `IntBitMap`: 4 bytes are written and read back, but the 4 groups of seven bits come back in
reverse order and the first 4 positions come back unset: position `p` afterwards shows what position
`7 + 7*((31-p)/7) - (31-p)%7` (63 for long) showed before.  Missing: the round trip itself (`C19_int_violated`). -/
theorem C19_int_partial (bits old : BitVec 32) (b : WBuf) (hcap : b.data.length + 4 ≤ b.maxCap) (post spare : List Byte) :
    ∃ out r, out.length = 4 ∧ IntBitMap.write bits b = ({ b with data := b.data ++ out }, none)
      ∧ IntBitMap.read old ⟨(b.data ++ out) ++ post, spare, b.data.length⟩
        = (r, ⟨(b.data ++ out) ++ post, spare, b.data.length + 4⟩, none)
      ∧ ∀ p < 32, IntBitMap.get r (BitVec.ofNat 32 p)
        = (decide (4 ≤ p) && IntBitMap.get bits (BitVec.ofNat 32 (7 + (31 - p) / 7 * 7 - (31 - p) % 7))) := by
  refine ⟨(List.range 4).map (IntBitMap.outByte bits), IntBitMap.accum 0 0 ((List.range 4).map (IntBitMap.outByte bits)), by simp,
    IntBitMap.write_fits bits b hcap, ?_, ?_⟩
  · have hsplit : (List.range 4).map (IntBitMap.outByte bits)
        = (List.range 3).map (IntBitMap.outByte bits) ++ [IntBitMap.outByte bits 3] := by
      rw [List.range_succ, List.map_append]; rfl
    rw [hsplit, IntBitMap.read]
    have := IntBitMap.readLoop_list ((List.range 3).map (IntBitMap.outByte bits)) (IntBitMap.outByte bits 3)
      (by
        intro x hx
        simp only [List.mem_map, List.mem_range] at hx
        obtain ⟨i, hi, rfl⟩ := hx
        rw [IntBitMap.outByte_msb, decide_eq_true_iff]
        exact hi)
      (by rw [IntBitMap.outByte_msb]; rfl) b.data post spare 0 0
      ((b.data ++ ((List.range 3).map (IntBitMap.outByte bits) ++ [IntBitMap.outByte bits 3]) ++ post).length - b.data.length + 1)
      (by simp; omega)
    simp only [RBuf.readable, List.length_drop]
    simp only [List.append_assoc, List.cons_append, List.nil_append] at this ⊢
    rw [this]
    simp
  · intro p hp
    rw [IntBitMap.get_eq, IntBitMap.get_eq, posMod (by decide) hp 32 (by decide), IntBitMap.accum_out _ _ (by omega)]
    by_cases h : 4 ≤ p
    · have hs : 7 + (31 - p) / 7 * 7 - (31 - p) % 7 < 32 := by omega
      rw [posMod (by decide) hs 32 (by decide)]
      have : 31 - (7 + (31 - p) / 7 * 7 - (31 - p) % 7) = 24 - (31 - p) / 7 * 7 + (31 - p) % 7 := by omega
      rw [this]
      simp [h]
      omega
    · simp [h]
      omega

/-- **C19 (what holds instead).** `LongBitMap`: 8 bytes are written and read back, but the 8 groups of seven bits come back in
reverse order and the first 8 positions come back unset: position `p` afterwards shows what position
`14 + 7*((31-p)/7) - (31-p)%7` (63 for long) showed before.  Missing: the round trip itself (`C19_long_violated`). -/
theorem C19_long_partial (bits old : BitVec 64) (b : WBuf) (hcap : b.data.length + 8 ≤ b.maxCap) (post spare : List Byte) :
    ∃ out r, out.length = 8 ∧ LongBitMap.write bits b = ({ b with data := b.data ++ out }, none)
      ∧ LongBitMap.read old ⟨(b.data ++ out) ++ post, spare, b.data.length⟩
        = (r, ⟨(b.data ++ out) ++ post, spare, b.data.length + 8⟩, none)
      ∧ ∀ p < 64, LongBitMap.get r (BitVec.ofNat 32 p)
        = (decide (8 ≤ p) && LongBitMap.get bits (BitVec.ofNat 32 (14 + (63 - p) / 7 * 7 - (63 - p) % 7))) := by
  refine ⟨(List.range 8).map (LongBitMap.outByte bits), LongBitMap.accum 0 0 ((List.range 8).map (LongBitMap.outByte bits)), by simp,
    LongBitMap.write_fits bits b hcap, ?_, ?_⟩
  · have hsplit : (List.range 8).map (LongBitMap.outByte bits)
        = (List.range 7).map (LongBitMap.outByte bits) ++ [LongBitMap.outByte bits 7] := by
      rw [List.range_succ, List.map_append]; rfl
    rw [hsplit, LongBitMap.read]
    have := LongBitMap.readLoop_list ((List.range 7).map (LongBitMap.outByte bits)) (LongBitMap.outByte bits 7)
      (by
        intro x hx
        simp only [List.mem_map, List.mem_range] at hx
        obtain ⟨i, hi, rfl⟩ := hx
        rw [LongBitMap.outByte_msb, decide_eq_true_iff]
        exact hi)
      (by rw [LongBitMap.outByte_msb]; rfl) b.data post spare 0 0
      ((b.data ++ ((List.range 7).map (LongBitMap.outByte bits) ++ [LongBitMap.outByte bits 7]) ++ post).length - b.data.length + 1)
      (by simp; omega)
    simp only [RBuf.readable, List.length_drop]
    simp only [List.append_assoc, List.cons_append, List.nil_append] at this ⊢
    rw [this]
    simp
  · intro p hp
    rw [LongBitMap.get_eq, LongBitMap.get_eq, posMod (by decide) hp 64 (by decide), LongBitMap.accum_out _ _ (by omega)]
    by_cases h : 8 ≤ p
    · have hs : 14 + (63 - p) / 7 * 7 - (63 - p) % 7 < 64 := by omega
      rw [posMod (by decide) hs 64 (by decide)]
      have : 63 - (14 + (63 - p) / 7 * 7 - (63 - p) % 7) = 49 - (63 - p) / 7 * 7 + (63 - p) % 7 := by omega
      rw [this]
      simp [h]
      omega
    · simp [h]
      omega

/-- **C19 violated** for the three larger maps: writing and reading back does not reproduce the content. -/
theorem C19_short_violated : ∃ bits : BitVec 16,
    (ShortBitMap.read 0 ⟨(ShortBitMap.write bits ⟨[], 0, 2⟩).1.data, [], 0⟩).1 ≠ bits := ⟨0x8000, by decide⟩
theorem C19_int_violated : ∃ bits : BitVec 32,
    (IntBitMap.read 0 ⟨(IntBitMap.write bits ⟨[], 0, 4⟩).1.data, [], 0⟩).1 ≠ bits := ⟨1, by decide⟩
theorem C19_long_violated : ∃ bits : BitVec 64,
    (LongBitMap.read 0 ⟨(LongBitMap.write bits ⟨[], 0, 8⟩).1.data, [], 0⟩).1 ≠ bits := ⟨1, by decide⟩

example : (IntBitMap.read 0 ⟨[9] ++ (IntBitMap.write (IntBitMap.set 0 7) ⟨[], 0, 4⟩).1.data, [], 1⟩).1 = IntBitMap.set 0 31 := by
  decide

/-- **C20.** `ByteBitMap` with any `int` position: only the position modulo 32 matters; if that is below 8 it is that bit, otherwise
`set` and `clear` do nothing and `get` reads position 0 (Java sign-extends the field). -/
theorem C20_byte (bits : BitVec 8) (pos : BitVec 32) :
    let q := BitVec.ofNat 32 (pos.toNat % 32)
    (pos.toNat % 32 < 8 → ByteBitMap.get bits pos = ByteBitMap.get bits q ∧ ByteBitMap.set bits pos = ByteBitMap.set bits q
        ∧ ByteBitMap.clear bits pos = ByteBitMap.clear bits q)
      ∧ (¬ pos.toNat % 32 < 8 → ByteBitMap.get bits pos = ByteBitMap.get bits 0 ∧ ByteBitMap.set bits pos = bits
        ∧ ByteBitMap.clear bits pos = bits) := by
  have hp : pos.toNat % 32 < 32 := Nat.mod_lt _ (by decide)
  have hm := posMod (n := 32) (by decide) hp 32 (by decide)
  dsimp only
  constructor
  · intro h
    refine ⟨?_, ?_, ?_⟩
    · rw [ByteBitMap.get_eq, ByteBitMap.get_eq, hm]
    · apply BitVec.eq_of_getLsbD_eq
      intro i hi
      rw [ByteBitMap.set_getLsbD _ _ _ hi, ByteBitMap.set_getLsbD _ _ _ hi, hm]
    · apply BitVec.eq_of_getLsbD_eq
      intro i hi
      rw [ByteBitMap.clear_getLsbD _ _ _ hi, ByteBitMap.clear_getLsbD _ _ _ hi, hm]
  · intro h
    refine ⟨?_, ?_, ?_⟩
    · rw [ByteBitMap.get_eq, ByteBitMap.get_eq, if_neg h]
      simp
    · apply BitVec.eq_of_getLsbD_eq
      intro i hi
      rw [ByteBitMap.set_getLsbD _ _ _ hi]
      simp
      omega
    · apply BitVec.eq_of_getLsbD_eq
      intro i hi
      rw [ByteBitMap.clear_getLsbD _ _ _ hi]
      simp
      omega

/-- **C20.** `ShortBitMap` with any `int` position: only the position modulo 32 matters; if that is below 16 it is that bit, otherwise
`set` and `clear` do nothing and `get` reads position 0 (Java sign-extends the field). -/
theorem C20_short (bits : BitVec 16) (pos : BitVec 32) :
    let q := BitVec.ofNat 32 (pos.toNat % 32)
    (pos.toNat % 32 < 16 → ShortBitMap.get bits pos = ShortBitMap.get bits q ∧ ShortBitMap.set bits pos = ShortBitMap.set bits q
        ∧ ShortBitMap.clear bits pos = ShortBitMap.clear bits q)
      ∧ (¬ pos.toNat % 32 < 16 → ShortBitMap.get bits pos = ShortBitMap.get bits 0 ∧ ShortBitMap.set bits pos = bits
        ∧ ShortBitMap.clear bits pos = bits) := by
  have hp : pos.toNat % 32 < 32 := Nat.mod_lt _ (by decide)
  have hm := posMod (n := 32) (by decide) hp 32 (by decide)
  dsimp only
  constructor
  · intro h
    refine ⟨?_, ?_, ?_⟩
    · rw [ShortBitMap.get_eq, ShortBitMap.get_eq, hm]
    · apply BitVec.eq_of_getLsbD_eq
      intro i hi
      rw [ShortBitMap.set_getLsbD _ _ _ hi, ShortBitMap.set_getLsbD _ _ _ hi, hm]
    · apply BitVec.eq_of_getLsbD_eq
      intro i hi
      rw [ShortBitMap.clear_getLsbD _ _ _ hi, ShortBitMap.clear_getLsbD _ _ _ hi, hm]
  · intro h
    refine ⟨?_, ?_, ?_⟩
    · rw [ShortBitMap.get_eq, ShortBitMap.get_eq, if_neg h]
      simp
    · apply BitVec.eq_of_getLsbD_eq
      intro i hi
      rw [ShortBitMap.set_getLsbD _ _ _ hi]
      simp
      omega
    · apply BitVec.eq_of_getLsbD_eq
      intro i hi
      rw [ShortBitMap.clear_getLsbD _ _ _ hi]
      simp
      omega

/-- **C20.** `IntBitMap` with any `int` position: exactly the position modulo 32 matters. -/
theorem C20_int (bits : BitVec 32) (pos : BitVec 32) :
    let q := BitVec.ofNat 32 (pos.toNat % 32)
    IntBitMap.get bits pos = IntBitMap.get bits q ∧ IntBitMap.set bits pos = IntBitMap.set bits q
      ∧ IntBitMap.clear bits pos = IntBitMap.clear bits q := by
  have hp : pos.toNat % 32 < 32 := Nat.mod_lt _ (by decide)
  have hm := posMod (n := 32) (by decide) hp 32 (by decide)
  have hset : IntBitMap.set bits pos = IntBitMap.set bits (BitVec.ofNat 32 (pos.toNat % 32)) := by
    apply BitVec.eq_of_getLsbD_eq
    intro i hi
    rw [IntBitMap.set_getLsbD _ _ _ hi, IntBitMap.set_getLsbD _ _ _ hi, hm]
  refine ⟨?_, hset, ?_⟩
  · rw [IntBitMap.get_eq, IntBitMap.get_eq, hm]
  · rw [IntBitMap.clear_eq_set, IntBitMap.clear_eq_set, hset]

/-- **C20.** `LongBitMap` with any `int` position: exactly the position modulo 64 matters. -/
theorem C20_long (bits : BitVec 64) (pos : BitVec 32) :
    let q := BitVec.ofNat 32 (pos.toNat % 64)
    LongBitMap.get bits pos = LongBitMap.get bits q ∧ LongBitMap.set bits pos = LongBitMap.set bits q
      ∧ LongBitMap.clear bits pos = LongBitMap.clear bits q := by
  have hp : pos.toNat % 64 < 64 := Nat.mod_lt _ (by decide)
  have hm := posMod (n := 64) (by decide) hp 64 (by decide)
  have hset : LongBitMap.set bits pos = LongBitMap.set bits (BitVec.ofNat 32 (pos.toNat % 64)) := by
    apply BitVec.eq_of_getLsbD_eq
    intro i hi
    rw [LongBitMap.set_getLsbD _ _ _ hi, LongBitMap.set_getLsbD _ _ _ hi, hm]
  refine ⟨?_, hset, ?_⟩
  · rw [LongBitMap.get_eq, LongBitMap.get_eq, hm]
  · rw [LongBitMap.clear_eq_set, LongBitMap.clear_eq_set, hset]

/-- Position -1 of a byte map is read as the sign bit; position 32 of an int map is position 0. -/
example : ByteBitMap.get 0x80 (-1) = true ∧ ByteBitMap.set 0 (-1) = 0 ∧ IntBitMap.set 0 32 = IntBitMap.set 0 0 := by decide

/-- **C21.** `ByteBitMap.read` and `ShortBitMap.read` consume one and two bytes, or fail with an index error when there are fewer. -/
theorem C21_byte (old : BitVec 8) (b : RBuf) :
    (b.rd + 1 ≤ b.data.length → (ByteBitMap.read old b).2 = ({ b with rd := b.rd + 1 }, none))
      ∧ (¬ b.rd + 1 ≤ b.data.length → ByteBitMap.read old b = (old, b, some .indexOutOfBounds)) := by
  constructor
  · intro h
    rw [ByteBitMap.read, readNum_i8 b h]
  · intro h
    rw [ByteBitMap.read, readNum_i8_end b h]

theorem C21_short (old : BitVec 16) (b : RBuf) :
    (b.rd + 2 ≤ b.data.length → (ShortBitMap.read old b).2 = ({ b with rd := b.rd + 2 }, none))
      ∧ (¬ b.rd + 2 ≤ b.data.length → (ShortBitMap.read old b).1 = old ∧ (ShortBitMap.read old b).2.2 = some .indexOutOfBounds) := by
  constructor
  · intro h
    rw [ShortBitMap.read, readNum_i8 b (by omega)]
    dsimp only
    rw [readNum_i8 _ (by dsimp only; omega)]
  · intro h
    rw [ShortBitMap.read]
    by_cases h1 : b.rd < b.data.length
    · rw [readNum_i8 b h1]
      dsimp only
      rw [readNum_i8_end _ (by dsimp only; omega)]
      exact ⟨rfl, rfl⟩
    · rw [readNum_i8_end b h1]
      exact ⟨rfl, rfl⟩

/-- **C21.** `IntBitMap.read` always terminates: it consumes up to and including the first readable byte below 0x80, and when there
is none it consumes everything and fails with an index error. -/
theorem C21_int (old : BitVec 32) (b : RBuf) (hrd : b.rd ≤ b.data.length) :
    (IntBitMap.read old b).2 =
      match b.readable.findIdx? (fun x => decide (x.toNat < 0x80)) with
      | some k => ({ b with rd := b.rd + k + 1 }, none)
      | none => ({ b with rd := b.data.length }, some .indexOutOfBounds) := by
  rw [IntBitMap.read, IntBitMap.readLoop_consumes _ _ _ _ hrd (by simp [RBuf.readable])]
  have : (fun x : Byte => !x.msb) = fun x => decide (x.toNat < 0x80) := by
    funext x
    rw [BitVec.msb_eq_decide, ← decide_not, decide_eq_decide]
    simp
  rw [this]
  cases b.readable.findIdx? (fun x => decide (x.toNat < 0x80)) <;> rfl

/-- **C21.** `LongBitMap.read` always terminates: it consumes up to and including the first readable byte below 0x80, and when there
is none it consumes everything and fails with an index error. -/
theorem C21_long (old : BitVec 64) (b : RBuf) (hrd : b.rd ≤ b.data.length) :
    (LongBitMap.read old b).2 =
      match b.readable.findIdx? (fun x => decide (x.toNat < 0x80)) with
      | some k => ({ b with rd := b.rd + k + 1 }, none)
      | none => ({ b with rd := b.data.length }, some .indexOutOfBounds) := by
  rw [LongBitMap.read, LongBitMap.readLoop_consumes _ _ _ _ hrd (by simp [RBuf.readable])]
  have : (fun x : Byte => !x.msb) = fun x => decide (x.toNat < 0x80) := by
    funext x
    rw [BitVec.msb_eq_decide, ← decide_not, decide_eq_decide]
    simp
  rw [this]
  cases b.readable.findIdx? (fun x => decide (x.toNat < 0x80)) <;> rfl

example : (IntBitMap.read 0 ⟨[0x81, 0x82, 0x03, 0x04], [], 0⟩).2 = (⟨[0x81, 0x82, 0x03, 0x04], [], 3⟩, none)
    ∧ (IntBitMap.read 0 ⟨[0x81, 0x82], [], 0⟩).2.2 = some .indexOutOfBounds := by decide

/-- `C17_byte_set`, `C17_short_set`. -/
example := C17_byte_set 0x11 [.set 3, .set 5, .clear 3, .clear 7] (by decide) 7 (by decide)
example := C17_short_set 0x11 [.set 3, .set 15, .clear 3, .clear 7] (by decide) 15 (by decide)

/-- `C18_int_set_partial`, `C18_int_actual`, `C18_long_set_partial`, `C18_long_actual`. -/
example := C18_int_set_partial 0x11 [.set 3, .set 30] (by decide) (by decide) 30 (by decide)
example := C18_int_actual 0x11 [.set 3, .clear 30] (by decide) 30 (by decide)
example := C18_long_set_partial 0x11 [.set 3, .set 60] (by decide) (by decide) 60 (by decide)
example := C18_long_actual 0x11 [.set 3, .clear 60] (by decide) 60 (by decide)

/-- `C19_byte` and the partial ones. -/
example := C19_byte 0xA5 0 ⟨[1, 2], 1, 3⟩ (by decide) [7] [8]
example := C19_short_partial 0xA5A5 0 ⟨[1, 2], 1, 4⟩ (by decide) [7] [8]
example := C19_int_partial 0xA5A5A5A5 0 ⟨[1, 2], 1, 6⟩ (by decide) [7] [8]
example := C19_long_partial 0xA5A5A5A5A5A5A5A5 0 ⟨[1, 2], 1, 10⟩ (by decide) [7] [8]

/-- `C21_int`, `C21_long`: a continuation byte is followed by the last byte. -/
example := C21_int 0 ⟨[1, 0x81, 0x02], [], 1⟩ (by decide)
example := C21_long 0 ⟨[1, 0x81, 0x02], [], 1⟩ (by decide)

end FinProto
