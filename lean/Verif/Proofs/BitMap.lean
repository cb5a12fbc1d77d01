import Verif.Model.BitMap
import Verif.Spec.BitMap
import Verif.Proofs.BinaryCodec
/- Lemmas for C17–C21. -/
namespace FinProto

theorem and31 (k : BitVec 32) : (k &&& 31#32).toNat = k.toNat % 32 := by
  rw [BitVec.toNat_and, show (31#32).toNat = 2 ^ 5 - 1 by decide, Nat.and_two_pow_sub_one_eq_mod]

theorem and63 (k : BitVec 32) : (k &&& 63#32).toNat = k.toNat % 64 := by
  rw [BitVec.toNat_and, show (63#32).toNat = 2 ^ 6 - 1 by decide, Nat.and_two_pow_sub_one_eq_mod]

theorem shl1Int_getLsbD (k : BitVec 32) (i : Nat) : (shl1Int k).getLsbD i = decide (i = k.toNat % 32) := by
  rw [shl1Int, and31]
  have : k.toNat % 32 < 32 := Nat.mod_lt _ (by decide)
  generalize k.toNat % 32 = s at this
  simp only [BitVec.getLsbD_shiftLeft, BitVec.getLsbD_one]
  by_cases h : i = s
  · subst h; simp [this]
  · simp only [h, decide_false]
    by_cases h2 : i < s
    · simp [h2]
    · simp [h2]; omega

theorem shl1Long_getLsbD (k : BitVec 32) (i : Nat) : (shl1Long k).getLsbD i = decide (i = k.toNat % 64) := by
  rw [shl1Long, and63]
  have : k.toNat % 64 < 64 := Nat.mod_lt _ (by decide)
  generalize k.toNat % 64 = s at this
  simp only [BitVec.getLsbD_shiftLeft, BitVec.getLsbD_one]
  by_cases h : i = s
  · subst h; simp [this]
  · simp only [h, decide_false]
    by_cases h2 : i < s
    · simp [h2]
    · simp [h2]; omega

/-- Testing against a one-bit mask. -/
theorem and_mask_ne_zero {w : Nat} (x m : BitVec w) (s : Nat) (hm : ∀ i, m.getLsbD i = decide (i = s)) :
    (x &&& m != 0) = x.getLsbD s := by
  cases hx : x.getLsbD s
  · simp only [bne_eq_false_iff_eq]
    apply BitVec.eq_of_getLsbD_eq
    intro i hi
    rw [BitVec.getLsbD_and, hm]
    by_cases h : i = s
    · subst h; simp [hx]
    · simp [h]
  · simp only [bne_iff_ne, ne_eq]
    intro h
    have := congrArg (·.getLsbD s) h
    simp [hx, hm] at this

theorem shift7 (pos : BitVec 32) : (7#32 - pos).toNat % 32 = (39 - pos.toNat % 32) % 32 := by
  have := pos.isLt
  simp [BitVec.toNat_sub]
  omega
theorem shift15 (pos : BitVec 32) : (15#32 - pos).toNat % 32 = (47 - pos.toNat % 32) % 32 := by
  have := pos.isLt
  simp [BitVec.toNat_sub]
  omega
theorem shift31 (pos : BitVec 32) : (31#32 - pos).toNat % 32 = 31 - pos.toNat % 32 := by
  have := pos.isLt
  simp [BitVec.toNat_sub]
  omega
theorem shift63 (pos : BitVec 32) : (63#32 - pos).toNat % 64 = 63 - pos.toNat % 64 := by
  have := pos.isLt
  simp [BitVec.toNat_sub]
  omega

/-! ### Effect on single bits -/

theorem ByteBitMap.get_eq (bits : BitVec 8) (pos : BitVec 32) :
    ByteBitMap.get bits pos = bits.getLsbD (if pos.toNat % 32 < 8 then 7 - pos.toNat % 32 else 7) := by
  rw [ByteBitMap.get, and_mask_ne_zero _ _ _ (shl1Int_getLsbD _), shift7, BitVec.getLsbD_signExtend, BitVec.msb_eq_getLsbD_last]
  have hp : pos.toNat % 32 < 32 := Nat.mod_lt _ (by decide)
  generalize pos.toNat % 32 = p at hp
  by_cases h : p < 8
  · have : (39 - p) % 32 = 7 - p := by omega
    rw [if_pos h, this, if_pos (by omega)]
    simp [show 7 - p < 32 by omega]
  · have : (39 - p) % 32 = 39 - p := by omega
    rw [if_neg h, this, if_neg (by omega)]
    simp [show 39 - p < 32 by omega]

theorem ByteBitMap.set_getLsbD (bits : BitVec 8) (pos : BitVec 32) (i : Nat) (hi : i < 8) :
    (ByteBitMap.set bits pos).getLsbD i = (bits.getLsbD i || decide (pos.toNat % 32 = 7 - i)) := by
  rw [ByteBitMap.set, BitVec.getLsbD_setWidth, BitVec.getLsbD_or, shl1Int_getLsbD, shift7, BitVec.getLsbD_signExtend]
  have hp : pos.toNat % 32 < 32 := Nat.mod_lt _ (by decide)
  generalize pos.toNat % 32 = p at hp
  have : (i = (39 - p) % 32) ↔ (p = 7 - i) := by omega
  simp [hi, this, show i < 32 by omega]

theorem ByteBitMap.clear_getLsbD (bits : BitVec 8) (pos : BitVec 32) (i : Nat) (hi : i < 8) :
    (ByteBitMap.clear bits pos).getLsbD i = (bits.getLsbD i && !decide (pos.toNat % 32 = 7 - i)) := by
  rw [ByteBitMap.clear, BitVec.getLsbD_setWidth, BitVec.getLsbD_and, BitVec.getLsbD_not, shl1Int_getLsbD, shift7,
    BitVec.getLsbD_signExtend]
  have hp : pos.toNat % 32 < 32 := Nat.mod_lt _ (by decide)
  generalize pos.toNat % 32 = p at hp
  have : (i = (39 - p) % 32) ↔ (p = 7 - i) := by omega
  simp [hi, this, show i < 32 by omega]

theorem ShortBitMap.get_eq (bits : BitVec 16) (pos : BitVec 32) :
    ShortBitMap.get bits pos = bits.getLsbD (if pos.toNat % 32 < 16 then 15 - pos.toNat % 32 else 15) := by
  rw [ShortBitMap.get, and_mask_ne_zero _ _ _ (shl1Int_getLsbD _), shift15, BitVec.getLsbD_signExtend, BitVec.msb_eq_getLsbD_last]
  have hp : pos.toNat % 32 < 32 := Nat.mod_lt _ (by decide)
  generalize pos.toNat % 32 = p at hp
  by_cases h : p < 16
  · have : (47 - p) % 32 = 15 - p := by omega
    rw [if_pos h, this, if_pos (by omega)]
    simp [show 15 - p < 32 by omega]
  · have : (47 - p) % 32 = 47 - p := by omega
    rw [if_neg h, this, if_neg (by omega)]
    simp [show 47 - p < 32 by omega]

theorem ShortBitMap.set_getLsbD (bits : BitVec 16) (pos : BitVec 32) (i : Nat) (hi : i < 16) :
    (ShortBitMap.set bits pos).getLsbD i = (bits.getLsbD i || decide (pos.toNat % 32 = 15 - i)) := by
  rw [ShortBitMap.set, BitVec.getLsbD_setWidth, BitVec.getLsbD_or, shl1Int_getLsbD, shift15, BitVec.getLsbD_signExtend]
  have hp : pos.toNat % 32 < 32 := Nat.mod_lt _ (by decide)
  generalize pos.toNat % 32 = p at hp
  have : (i = (47 - p) % 32) ↔ (p = 15 - i) := by omega
  simp [hi, this, show i < 32 by omega]

theorem ShortBitMap.clear_getLsbD (bits : BitVec 16) (pos : BitVec 32) (i : Nat) (hi : i < 16) :
    (ShortBitMap.clear bits pos).getLsbD i = (bits.getLsbD i && !decide (pos.toNat % 32 = 15 - i)) := by
  rw [ShortBitMap.clear, BitVec.getLsbD_setWidth, BitVec.getLsbD_and, BitVec.getLsbD_not, shl1Int_getLsbD, shift15,
    BitVec.getLsbD_signExtend]
  have hp : pos.toNat % 32 < 32 := Nat.mod_lt _ (by decide)
  generalize pos.toNat % 32 = p at hp
  have : (i = (47 - p) % 32) ↔ (p = 15 - i) := by omega
  simp [hi, this, show i < 32 by omega]

theorem IntBitMap.get_eq (bits : BitVec 32) (pos : BitVec 32) :
    IntBitMap.get bits pos = bits.getLsbD (31 - pos.toNat % 32) := by
  rw [IntBitMap.get, and_mask_ne_zero _ _ _ (shl1Int_getLsbD _), shift31]

theorem IntBitMap.set_getLsbD (bits : BitVec 32) (pos : BitVec 32) (i : Nat) (hi : i < 32) :
    (IntBitMap.set bits pos).getLsbD i = (bits.getLsbD i || decide (pos.toNat % 32 = 31 - i)) := by
  rw [IntBitMap.set, BitVec.getLsbD_or, shl1Int_getLsbD, shift31]
  have hp : pos.toNat % 32 < 32 := Nat.mod_lt _ (by decide)
  generalize pos.toNat % 32 = p at hp
  have : (i = 31 - p) ↔ (p = 31 - i) := by omega
  simp [this]

theorem LongBitMap.get_eq (bits : BitVec 64) (pos : BitVec 32) :
    LongBitMap.get bits pos = bits.getLsbD (63 - pos.toNat % 64) := by
  rw [LongBitMap.get, and_mask_ne_zero _ _ _ (shl1Long_getLsbD _), shift63]

theorem LongBitMap.set_getLsbD (bits : BitVec 64) (pos : BitVec 32) (i : Nat) (hi : i < 64) :
    (LongBitMap.set bits pos).getLsbD i = (bits.getLsbD i || decide (pos.toNat % 64 = 63 - i)) := by
  rw [LongBitMap.set, BitVec.getLsbD_or, shl1Long_getLsbD, shift63]
  have hp : pos.toNat % 64 < 64 := Nat.mod_lt _ (by decide)
  generalize pos.toNat % 64 = p at hp
  have : (i = 63 - p) ↔ (p = 63 - i) := by omega
  simp [this]

/-! ### Histories -/

theorem lastCall_nil (p : Nat) : lastCall [] p = none := rfl

theorem lastCall_snoc (h : List BmCall) (c : BmCall) (p : Nat) :
    lastCall (h ++ [c]) p = if c.pos = p then some (match c with | .set _ => true | .clear _ => false) else lastCall h p := by
  unfold lastCall
  by_cases hc : c.pos = p
  · cases c <;> simp [hc]
  · simp [hc]

theorem snoc_induction {α : Type} {motive : List α → Prop} (nil : motive [])
    (snoc : ∀ (l : List α) (a : α), motive l → motive (l ++ [a])) (l : List α) : motive l := by
  generalize hr : l.reverse = r
  induction r generalizing l with
  | nil =>
    obtain rfl : l = [] := by simpa using hr
    exact nil
  | cons c r ih =>
    obtain rfl : l = r.reverse ++ [c] := by
      rw [← List.reverse_reverse l, hr, List.reverse_cons]
    exact snoc _ _ (ih _ (by simp))

/-- Any store with point-wise correct `set`, `clear`, `get` behaves as a set of positions. -/
theorem runBm_lastCall {σ : Type} (set clear : σ → BitVec 32 → σ) (get : σ → BitVec 32 → Bool) (n : Nat)
    (hset : ∀ s p q, p < n → q < n → get (set s (BitVec.ofNat 32 p)) (BitVec.ofNat 32 q)
      = if p = q then true else get s (BitVec.ofNat 32 q))
    (hclear : ∀ s p q, p < n → q < n → get (clear s (BitVec.ofNat 32 p)) (BitVec.ofNat 32 q)
      = if p = q then false else get s (BitVec.ofNat 32 q))
    (s : σ) (history : List BmCall) (hin : ∀ c ∈ history, c.pos < n) (p : Nat) (hp : p < n) :
    get (runBm set clear s history) (BitVec.ofNat 32 p) = (lastCall history p).getD (get s (BitVec.ofNat 32 p)) := by
  induction history using snoc_induction with
  | nil => rfl
  | snoc h c ih =>
    have ih := ih (fun c' hc' => hin c' (by simp [hc']))
    have hc := hin c (by simp)
    rw [lastCall_snoc, runBm, List.foldl_append, List.foldl_cons, List.foldl_nil]
    rw [runBm] at ih
    cases c with
    | set q =>
      simp only [BmCall.pos] at hc ⊢
      rw [hset _ _ _ hc hp]
      by_cases hq : q = p <;> simp [hq, ih]
    | clear q =>
      simp only [BmCall.pos] at hc ⊢
      rw [hclear _ _ _ hc hp]
      by_cases hq : q = p <;> simp [hq, ih]

/-! ### Reading bytes -/

theorem readNum_i8 (b : RBuf) (h : b.rd < b.data.length) :
    b.readNum .be .i8 = ({ b with rd := b.rd + 1 }, .ok ⟨.i8, b.data[b.rd]⟩) := by
  have : b.rd + PTy.i8.size ≤ b.data.length := h
  rw [RBuf.readNum, if_pos this]
  have h1 : (b.data.drop b.rd).take PTy.i8.size = [b.data[b.rd]] := by
    rw [List.drop_eq_getElem_cons h]
    rfl
  rw [h1]
  have h2 : Num.ofBytes .be .i8 [b.data[b.rd]] = ⟨.i8, b.data[b.rd]⟩ := by
    simp only [Num.ofBytes, ofBytes, leVal, List.reverse_cons, List.reverse_nil, List.nil_append, Nat.mul_zero, Nat.add_zero]
    congr 1
    exact BitVec.ofNat_toNat 8 _ |>.trans (BitVec.setWidth_eq _)
  rw [h2]
  rfl

theorem readNum_i8_end (b : RBuf) (h : ¬ b.rd < b.data.length) :
    b.readNum .be .i8 = (b, .error .indexOutOfBounds) := by
  have : ¬ b.rd + PTy.i8.size ≤ b.data.length := h
  rw [RBuf.readNum, if_neg this]

theorem cont_bit (x : BitVec 8) : (x.signExtend 32 &&& 0x80#32 ≠ 0) ↔ x.msb = true := by
  revert x
  decide

theorem IntBitMap.readLoop_some (f : Nat) (bits shift : BitVec 32) (b : RBuf) (h : b.rd < b.data.length) :
    IntBitMap.readLoop (f + 1) bits shift b =
      let bits' := bits ||| ((b.data[b.rd].signExtend 32 &&& 0x7F#32) <<< (shift &&& 31#32).toNat)
      if b.data[b.rd].msb = true then IntBitMap.readLoop f bits' (shift + 7) { b with rd := b.rd + 1 }
      else (bits', { b with rd := b.rd + 1 }, none) := by
  rw [IntBitMap.readLoop, readNum_i8 b h]
  have := cont_bit b.data[b.rd]
  dsimp only
  by_cases hm : b.data[b.rd].msb = true
  · exact (if_pos (this.2 hm)).trans (if_pos hm).symm
  · exact (if_neg (fun h => hm (this.1 h))).trans (if_neg hm).symm

theorem LongBitMap.readLoop_some (f : Nat) (bits : BitVec 64) (shift : BitVec 32) (b : RBuf) (h : b.rd < b.data.length) :
    LongBitMap.readLoop (f + 1) bits shift b =
      let bits' := bits ||| (((b.data[b.rd].signExtend 32 &&& 0x7F#32).signExtend 64) <<< (shift &&& 63#32).toNat)
      if b.data[b.rd].msb = true then LongBitMap.readLoop f bits' (shift + 7) { b with rd := b.rd + 1 }
      else (bits', { b with rd := b.rd + 1 }, none) := by
  rw [LongBitMap.readLoop, readNum_i8 b h]
  have := cont_bit b.data[b.rd]
  dsimp only
  by_cases hm : b.data[b.rd].msb = true
  · exact (if_pos (this.2 hm)).trans (if_pos hm).symm
  · exact (if_neg (fun h => hm (this.1 h))).trans (if_neg hm).symm

/-- The buffer and the result of the int read loop, as a function of where the first byte below 0x80 is. -/
theorem IntBitMap.readLoop_consumes (f : Nat) (bits shift : BitVec 32) (b : RBuf) (hrd : b.rd ≤ b.data.length)
    (hf : b.data.length - b.rd < f) :
    (IntBitMap.readLoop f bits shift b).2 =
      match b.readable.findIdx? (fun x => !x.msb) with
      | some k => ({ b with rd := b.rd + k + 1 }, none)
      | none => ({ b with rd := b.data.length }, some .indexOutOfBounds) := by
  induction f generalizing bits shift b with
  | zero => omega
  | succ f ih =>
    by_cases h : b.rd < b.data.length
    · rw [IntBitMap.readLoop_some f bits shift b h]
      have hr : b.readable = b.data[b.rd] :: b.data.drop (b.rd + 1) := List.drop_eq_getElem_cons h
      dsimp only
      rw [hr, List.findIdx?_cons]
      by_cases hm : b.data[b.rd].msb = true
      · rw [if_pos hm, ih _ _ _ (by dsimp only; omega) (by dsimp only; omega)]
        simp only [RBuf.readable, hm, Bool.not_true, Bool.false_eq_true, if_false]
        cases (b.data.drop (b.rd + 1)).findIdx? (fun x => !x.msb)
        · rfl
        · simp only [Option.map_some]
          congr 2
          omega
      · rw [if_neg hm]
        simp [hm]
    · have : b.readable = [] := List.drop_of_length_le (by omega)
      rw [IntBitMap.readLoop, readNum_i8_end b h, this]
      have : b.rd = b.data.length := by omega
      simp [← this]

theorem LongBitMap.readLoop_consumes (f : Nat) (bits : BitVec 64) (shift : BitVec 32) (b : RBuf) (hrd : b.rd ≤ b.data.length)
    (hf : b.data.length - b.rd < f) :
    (LongBitMap.readLoop f bits shift b).2 =
      match b.readable.findIdx? (fun x => !x.msb) with
      | some k => ({ b with rd := b.rd + k + 1 }, none)
      | none => ({ b with rd := b.data.length }, some .indexOutOfBounds) := by
  induction f generalizing bits shift b with
  | zero => omega
  | succ f ih =>
    by_cases h : b.rd < b.data.length
    · rw [LongBitMap.readLoop_some f bits shift b h]
      have hr : b.readable = b.data[b.rd] :: b.data.drop (b.rd + 1) := List.drop_eq_getElem_cons h
      dsimp only
      rw [hr, List.findIdx?_cons]
      by_cases hm : b.data[b.rd].msb = true
      · rw [if_pos hm, ih _ _ _ (by dsimp only; omega) (by dsimp only; omega)]
        simp only [RBuf.readable, hm, Bool.not_true, Bool.false_eq_true, if_false]
        cases (b.data.drop (b.rd + 1)).findIdx? (fun x => !x.msb)
        · rfl
        · simp only [Option.map_some]
          congr 2
          omega
      · rw [if_neg hm]
        simp [hm]
    · have : b.readable = [] := List.drop_of_length_le (by omega)
      rw [LongBitMap.readLoop, readNum_i8_end b h, this]
      have : b.rd = b.data.length := by omega
      simp [← this]

/-! ### Round trips -/

theorem IntBitMap.write_fits (bits : BitVec 32) (b : WBuf) (h : b.data.length + 4 ≤ b.maxCap) :
    IntBitMap.write bits b = ({ b with data := b.data ++ (List.range 4).map (IntBitMap.outByte bits) }, none) := by
  have h1 : ∀ (d : List Byte), d.length ≤ b.data.length + 3 → ∀ x, ({ b with data := d } : WBuf).write [x] =
      ({ b with data := d ++ [x] }, none) := by
    intro d hd x
    rw [WBuf.write, if_pos (by simp; omega)]
  have h0 := h1 b.data (by omega)
  rw [IntBitMap.write]
  simp only [IntBitMap.writeLoop]
  rw [show b.write = ({ b with data := b.data } : WBuf).write from rfl, h0]
  dsimp only
  rw [h1 _ (by simp)]
  dsimp only
  rw [h1 _ (by simp)]
  dsimp only
  rw [h1 _ (by simp)]
  simp [List.range, List.range.loop]

theorem LongBitMap.write_fits (bits : BitVec 64) (b : WBuf) (h : b.data.length + 8 ≤ b.maxCap) :
    LongBitMap.write bits b = ({ b with data := b.data ++ (List.range 8).map (LongBitMap.outByte bits) }, none) := by
  have h1 : ∀ (d : List Byte), d.length ≤ b.data.length + 7 → ∀ x, ({ b with data := d } : WBuf).write [x] =
      ({ b with data := d ++ [x] }, none) := by
    intro d hd x
    rw [WBuf.write, if_pos (by simp; omega)]
  have h0 := h1 b.data (by omega)
  rw [LongBitMap.write]
  simp only [LongBitMap.writeLoop]
  rw [show b.write = ({ b with data := b.data } : WBuf).write from rfl, h0]
  dsimp only
  rw [h1 _ (by simp)]
  dsimp only
  rw [h1 _ (by simp)]
  dsimp only
  rw [h1 _ (by simp)]
  dsimp only
  rw [h1 _ (by simp)]
  dsimp only
  rw [h1 _ (by simp)]
  dsimp only
  rw [h1 _ (by simp)]
  dsimp only
  rw [h1 _ (by simp)]
  simp [List.range, List.range.loop]

theorem IntBitMap.outByte_msb (bits : BitVec 32) (i : Nat) : (IntBitMap.outByte bits i).msb = decide (i < 3) := by
  have hz : ∀ x : BitVec 32, ((x &&& 0x7F#32).setWidth 8).msb = false := by
    intro x
    rw [BitVec.msb_eq_getLsbD_last]
    simp
  unfold IntBitMap.outByte
  dsimp only
  by_cases h : i < 3
  · simp [h]
    right; decide
  · simp only [h, if_false, hz]; rfl

theorem LongBitMap.outByte_msb (bits : BitVec 64) (i : Nat) : (LongBitMap.outByte bits i).msb = decide (i < 7) := by
  have hz : ∀ x : BitVec 64, ((x &&& 0x7F#64).setWidth 8).msb = false := by
    intro x
    rw [BitVec.msb_eq_getLsbD_last]
    simp
  unfold LongBitMap.outByte
  dsimp only
  by_cases h : i < 7
  · simp [h]
    right; decide
  · simp only [h, if_false, hz]; rfl

/-- What the int read loop accumulates from a run of bytes. -/
def IntBitMap.accum (bits : BitVec 32) (shift : BitVec 32) : List Byte → BitVec 32
  | [] => bits
  | x :: xs => IntBitMap.accum (bits ||| ((x.signExtend 32 &&& 0x7F#32) <<< (shift &&& 31#32).toNat)) (shift + 7) xs

theorem IntBitMap.readLoop_list (xs : List Byte) (y : Byte) (hx : ∀ x ∈ xs, x.msb = true) (hy : y.msb = false)
    (pre post spare : List Byte) (bits : BitVec 32) (shift : BitVec 32) (f : Nat) (hf : xs.length < f) :
    IntBitMap.readLoop f bits shift ⟨pre ++ xs ++ y :: post, spare, pre.length⟩ =
      (IntBitMap.accum bits shift (xs ++ [y]), ⟨pre ++ xs ++ y :: post, spare, pre.length + xs.length + 1⟩, none) := by
  induction xs generalizing pre bits shift f with
  | nil =>
    obtain ⟨f, rfl⟩ : ∃ g, f = g + 1 := ⟨f - 1, by simp at hf; omega⟩
    rw [IntBitMap.readLoop_some _ _ _ _ (by simp)]
    simp [hy, IntBitMap.accum]
  | cons x xs ih =>
    obtain ⟨f, rfl⟩ : ∃ g, f = g + 1 := ⟨f - 1, by simp at hf; omega⟩
    rw [IntBitMap.readLoop_some _ _ _ _ (by simp)]
    have hx0 : (pre ++ x :: xs ++ y :: post)[pre.length]'(by simp) = x := by simp
    dsimp only
    rw [hx0, if_pos (hx x (by simp))]
    have := ih (fun z hz => hx z (by simp [hz])) (pre ++ [x])
      (bits ||| ((x.signExtend 32 &&& 0x7F#32) <<< (shift &&& 31#32).toNat)) (shift + 7) f (by simpa using hf)
    simp only [List.append_assoc, List.cons_append, List.nil_append, List.length_append, List.length_cons, List.length_nil] at this ⊢
    rw [this]
    simp [IntBitMap.accum]
    omega

theorem IntBitMap.outByte_getLsbD (bits : BitVec 32) (i j : Nat) (hi : i < 4) (hj : j < 7) :
    (IntBitMap.outByte bits i).getLsbD j = bits.getLsbD (24 - i * 7 + j) := by
  have h0 : (((bits.sshiftRight (24 - i * 7)) &&& 0x7F#32).setWidth 8).getLsbD j = bits.getLsbD (24 - i * 7 + j) := by
    have hm : (0x7F#32).getLsbD j = true := by
      revert j
      decide
    simp only [BitVec.getLsbD_setWidth, BitVec.getLsbD_and, hm, BitVec.getLsbD_sshiftRight]
    simp [show j < 8 by omega, show ¬ 32 ≤ j by omega, show 24 - i * 7 + j < 32 by omega]
  have h8 : (0x80#8).getLsbD j = false := by
    clear h0
    revert j
    decide
  unfold IntBitMap.outByte
  dsimp only
  by_cases h : i < 3
  · rw [if_pos h, BitVec.getLsbD_or, h0, h8, Bool.or_false]
  · rw [if_neg h, h0]

theorem IntBitMap.piece_getLsbD (x : Byte) (j : Nat) :
    ((x.signExtend 32 &&& 0x7F#32) : BitVec 32).getLsbD j = (decide (j < 7) && x.getLsbD j) := by
  by_cases hj : j < 32
  · revert j x
    decide +kernel
  · rw [BitVec.getLsbD_of_ge _ _ (by omega), BitVec.getLsbD_of_ge x _ (by omega), Bool.and_false]

/-- What the long read loop accumulates from a run of bytes. -/
def LongBitMap.accum (bits : BitVec 64) (shift : BitVec 32) : List Byte → BitVec 64
  | [] => bits
  | x :: xs => LongBitMap.accum (bits ||| (((x.signExtend 32 &&& 0x7F#32).signExtend 64) <<< (shift &&& 63#32).toNat)) (shift + 7) xs

theorem LongBitMap.readLoop_list (xs : List Byte) (y : Byte) (hx : ∀ x ∈ xs, x.msb = true) (hy : y.msb = false)
    (pre post spare : List Byte) (bits : BitVec 64) (shift : BitVec 32) (f : Nat) (hf : xs.length < f) :
    LongBitMap.readLoop f bits shift ⟨pre ++ xs ++ y :: post, spare, pre.length⟩ =
      (LongBitMap.accum bits shift (xs ++ [y]), ⟨pre ++ xs ++ y :: post, spare, pre.length + xs.length + 1⟩, none) := by
  induction xs generalizing pre bits shift f with
  | nil =>
    obtain ⟨f, rfl⟩ : ∃ g, f = g + 1 := ⟨f - 1, by simp at hf; omega⟩
    rw [LongBitMap.readLoop_some _ _ _ _ (by simp)]
    simp [hy, LongBitMap.accum]
  | cons x xs ih =>
    obtain ⟨f, rfl⟩ : ∃ g, f = g + 1 := ⟨f - 1, by simp at hf; omega⟩
    rw [LongBitMap.readLoop_some _ _ _ _ (by simp)]
    have hx0 : (pre ++ x :: xs ++ y :: post)[pre.length]'(by simp) = x := by simp
    dsimp only
    rw [hx0, if_pos (hx x (by simp))]
    have := ih (fun z hz => hx z (by simp [hz])) (pre ++ [x])
      (bits ||| (((x.signExtend 32 &&& 0x7F#32).signExtend 64) <<< (shift &&& 63#32).toNat)) (shift + 7) f (by simpa using hf)
    simp only [List.append_assoc, List.cons_append, List.nil_append, List.length_append, List.length_cons, List.length_nil] at this ⊢
    rw [this]
    simp [LongBitMap.accum]
    omega

theorem LongBitMap.outByte_getLsbD (bits : BitVec 64) (i j : Nat) (hi : i < 8) (hj : j < 7) :
    (LongBitMap.outByte bits i).getLsbD j = bits.getLsbD (49 - i * 7 + j) := by
  have h0 : (((bits.sshiftRight (49 - i * 7)) &&& 0x7F#64).setWidth 8).getLsbD j = bits.getLsbD (49 - i * 7 + j) := by
    have hm : (0x7F#64).getLsbD j = true := by
      revert j
      decide
    simp only [BitVec.getLsbD_setWidth, BitVec.getLsbD_and, hm, BitVec.getLsbD_sshiftRight]
    simp [show j < 8 by omega, show ¬ 64 ≤ j by omega, show 49 - i * 7 + j < 64 by omega]
  have h8 : (0x80#8).getLsbD j = false := by
    clear h0
    revert j
    decide
  unfold LongBitMap.outByte
  dsimp only
  by_cases h : i < 7
  · rw [if_pos h, BitVec.getLsbD_or, h0, h8, Bool.or_false]
  · rw [if_neg h, h0]

theorem LongBitMap.piece_getLsbD (x : Byte) (j : Nat) :
    (((x.signExtend 32 &&& 0x7F#32).signExtend 64) : BitVec 64).getLsbD j = (decide (j < 7) && x.getLsbD j) := by
  by_cases hj : j < 64
  · revert j x
    decide +kernel
  · rw [BitVec.getLsbD_of_ge _ _ (by omega), BitVec.getLsbD_of_ge x _ (by omega), Bool.and_false]

theorem IntBitMap.accum_out (bits : BitVec 32) (k : Nat) (hk : k < 32) :
    (IntBitMap.accum 0 0 ((List.range 4).map (IntBitMap.outByte bits))).getLsbD k =
      (decide (k < 28) && bits.getLsbD (24 - k / 7 * 7 + k % 7)) := by
  have key : ∀ (i : Nat), i < 4 → (decide (i * 7 ≤ k) && (decide (k - i * 7 < 7) && (IntBitMap.outByte bits i).getLsbD (k - i * 7)))
      = (decide (k / 7 = i) && bits.getLsbD (24 - k / 7 * 7 + k % 7)) := by
    intro i hi
    by_cases h : k / 7 = i
    · subst h
      have h1 : k - k / 7 * 7 = k % 7 := by omega
      have h2 : k % 7 < 7 := Nat.mod_lt _ (by decide)
      rw [h1, IntBitMap.outByte_getLsbD bits (k / 7) (k % 7) hi h2]
      simp [h2, show k / 7 * 7 ≤ k by omega]
    · by_cases h1 : i * 7 ≤ k
      · simp [h, show ¬ k - i * 7 < 7 by omega]
      · simp [h, h1]
  have hl : List.range 4 = [0, 1, 2, 3] := by decide
  have hs : (IntBitMap.accum 0 0 ((List.range 4).map (IntBitMap.outByte bits))).getLsbD k =
      ((decide (0 * 7 ≤ k) && (decide (k - 0 * 7 < 7) && (IntBitMap.outByte bits 0).getLsbD (k - 0 * 7))) || (decide (1 * 7 ≤ k) && (decide (k - 1 * 7 < 7) && (IntBitMap.outByte bits 1).getLsbD (k - 1 * 7))) || (decide (2 * 7 ≤ k) && (decide (k - 2 * 7 < 7) && (IntBitMap.outByte bits 2).getLsbD (k - 2 * 7))) || (decide (3 * 7 ≤ k) && (decide (k - 3 * 7 < 7) && (IntBitMap.outByte bits 3).getLsbD (k - 3 * 7)))) := by
    rw [hl]
    simp only [List.map_cons, List.map_nil, IntBitMap.accum]
    simp only [BitVec.getLsbD_or, BitVec.getLsbD_shiftLeft, IntBitMap.piece_getLsbD, hk, decide_true, Bool.true_and]
    have hn : ∀ a : Nat, (!decide (k < a)) = decide (a ≤ k) := by
      intro a
      rw [← decide_not, decide_eq_decide]
      omega
    simp [hn]
  rw [hs]
  rw [key 0 (by decide), key 1 (by decide), key 2 (by decide), key 3 (by decide)]
  have : k / 7 < 5 := by omega
  by_cases h : k < 28
  · simp only [h, decide_true, Bool.true_and]
    have : k / 7 < 4 := by omega
    generalize bits.getLsbD (24 - k / 7 * 7 + k % 7) = v
    generalize k / 7 = q at *
    clear key hs
    revert q v
    decide
  · have : ¬ k / 7 < 4 := by omega
    simp only [h, decide_false, Bool.false_and]
    simp
    omega

theorem LongBitMap.accum_out (bits : BitVec 64) (k : Nat) (hk : k < 64) :
    (LongBitMap.accum 0 0 ((List.range 8).map (LongBitMap.outByte bits))).getLsbD k =
      (decide (k < 56) && bits.getLsbD (49 - k / 7 * 7 + k % 7)) := by
  have key : ∀ (i : Nat), i < 8 → (decide (i * 7 ≤ k) && (decide (k - i * 7 < 7) && (LongBitMap.outByte bits i).getLsbD (k - i * 7)))
      = (decide (k / 7 = i) && bits.getLsbD (49 - k / 7 * 7 + k % 7)) := by
    intro i hi
    by_cases h : k / 7 = i
    · subst h
      have h1 : k - k / 7 * 7 = k % 7 := by omega
      have h2 : k % 7 < 7 := Nat.mod_lt _ (by decide)
      rw [h1, LongBitMap.outByte_getLsbD bits (k / 7) (k % 7) hi h2]
      simp [h2, show k / 7 * 7 ≤ k by omega]
    · by_cases h1 : i * 7 ≤ k
      · simp [h, show ¬ k - i * 7 < 7 by omega]
      · simp [h, h1]
  have hl : List.range 8 = [0, 1, 2, 3, 4, 5, 6, 7] := by decide
  have hs : (LongBitMap.accum 0 0 ((List.range 8).map (LongBitMap.outByte bits))).getLsbD k =
      ((decide (0 * 7 ≤ k) && (decide (k - 0 * 7 < 7) && (LongBitMap.outByte bits 0).getLsbD (k - 0 * 7))) || (decide (1 * 7 ≤ k) && (decide (k - 1 * 7 < 7) && (LongBitMap.outByte bits 1).getLsbD (k - 1 * 7))) || (decide (2 * 7 ≤ k) && (decide (k - 2 * 7 < 7) && (LongBitMap.outByte bits 2).getLsbD (k - 2 * 7))) || (decide (3 * 7 ≤ k) && (decide (k - 3 * 7 < 7) && (LongBitMap.outByte bits 3).getLsbD (k - 3 * 7))) || (decide (4 * 7 ≤ k) && (decide (k - 4 * 7 < 7) && (LongBitMap.outByte bits 4).getLsbD (k - 4 * 7))) || (decide (5 * 7 ≤ k) && (decide (k - 5 * 7 < 7) && (LongBitMap.outByte bits 5).getLsbD (k - 5 * 7))) || (decide (6 * 7 ≤ k) && (decide (k - 6 * 7 < 7) && (LongBitMap.outByte bits 6).getLsbD (k - 6 * 7))) || (decide (7 * 7 ≤ k) && (decide (k - 7 * 7 < 7) && (LongBitMap.outByte bits 7).getLsbD (k - 7 * 7)))) := by
    rw [hl]
    simp only [List.map_cons, List.map_nil, LongBitMap.accum]
    simp only [BitVec.getLsbD_or, BitVec.getLsbD_shiftLeft, LongBitMap.piece_getLsbD, hk, decide_true, Bool.true_and]
    have hn : ∀ a : Nat, (!decide (k < a)) = decide (a ≤ k) := by
      intro a
      rw [← decide_not, decide_eq_decide]
      omega
    simp [hn]
  rw [hs]
  rw [key 0 (by decide), key 1 (by decide), key 2 (by decide), key 3 (by decide), key 4 (by decide), key 5 (by decide), key 6 (by decide), key 7 (by decide)]
  have : k / 7 < 10 := by omega
  by_cases h : k < 56
  · simp only [h, decide_true, Bool.true_and]
    have : k / 7 < 8 := by omega
    generalize bits.getLsbD (49 - k / 7 * 7 + k % 7) = v
    generalize k / 7 = q at *
    clear key hs
    revert q v
    decide
  · have : ¬ k / 7 < 8 := by omega
    simp only [h, decide_false, Bool.false_and]
    simp
    omega

end FinProto
