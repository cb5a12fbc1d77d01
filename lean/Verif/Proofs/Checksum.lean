import Verif.Model.Checksum
import Verif.Spec.Crc
/- Lemmas for C07–C14. -/
namespace FinProto

/-- The step function behind both tables, any width. -/
def gstep {w : Nat} (poly x : BitVec w) : BitVec w :=
  if x.getLsbD 0 then (x >>> 1) ^^^ poly else x >>> 1

theorem gstep_xor {w : Nat} (poly x y : BitVec w) : gstep poly (x ^^^ y) = gstep poly x ^^^ gstep poly y := by
  have hs : (x ^^^ y) >>> 1 = (x >>> 1) ^^^ (y >>> 1) := by
    ext i hi; simp
  unfold gstep
  rw [hs, BitVec.getLsbD_xor]
  cases x.getLsbD 0 <;> cases y.getLsbD 0 <;> ext i hi <;> simp <;>
    cases x[i + 1]! <;> simp [Bool.xor_comm, Bool.xor_left_comm] <;> grind

theorem gstep_zero {w : Nat} (poly : BitVec w) : gstep poly 0#w = 0#w := by
  simp [gstep]

def gsteps {w : Nat} (poly : BitVec w) : Nat → BitVec w → BitVec w
  | 0, x => x
  | n + 1, x => gstep poly (gsteps poly n x)

theorem gsteps_xor {w : Nat} (poly : BitVec w) (n : Nat) (x y : BitVec w) :
    gsteps poly n (x ^^^ y) = gsteps poly n x ^^^ gsteps poly n y := by
  induction n with
  | zero => rfl
  | succ n ih => rw [gsteps, ih, gstep_xor]; rfl

/-- While the low bits are zero the register just shifts. -/
theorem gsteps_shift {w : Nat} (poly : BitVec w) (n : Nat) (x : BitVec w) (h : ∀ i < n, x.getLsbD i = false) :
    gsteps poly n x = x >>> n := by
  induction n with
  | zero => simp [gsteps]
  | succ n ih =>
    rw [gsteps, ih (fun i hi => h i (by omega)), gstep]
    have : (x >>> n).getLsbD 0 = false := by simpa using h n (by omega)
    rw [this]
    simp [BitVec.shiftRight_add]

theorem crcBit_eq {w : Nat} (hw : 0 < w) (poly reg : BitVec w) (bit : Bool) :
    crcBit poly reg bit = gstep poly (reg ^^^ (BitVec.ofBool bit).setWidth w) := by
  have hs : (reg ^^^ (BitVec.ofBool bit).setWidth w) >>> 1 = reg >>> 1 := by
    ext i hi
    simp
  unfold crcBit gstep
  rw [hs, BitVec.getLsbD_xor]
  have : ((BitVec.ofBool bit).setWidth w).getLsbD 0 = bit := by
    simp [hw]
  rw [this]

/-- Consuming the low `k` bits of a byte one by one. -/
theorem crcBits_prefix {w : Nat} (hw : 8 ≤ w) (poly reg : BitVec w) (b : Byte) (k : Nat) (hk : k ≤ 8) :
    ((List.range k).map fun i => b.getLsbD i).foldl (crcBit poly) reg =
      gsteps poly k (reg ^^^ b.setWidth w) ^^^ (b.setWidth w >>> k) := by
  induction k with
  | zero => simp [gsteps, BitVec.xor_assoc]
  | succ k ih =>
    rw [List.range_succ, List.map_append, List.foldl_append, ih (by omega)]
    simp only [List.map_cons, List.map_nil, List.foldl_cons, List.foldl_nil]
    rw [crcBit_eq (by omega), BitVec.xor_assoc, gstep_xor]
    show gsteps poly (k + 1) _ ^^^ _ = _
    congr 1
    have h0 : ((b.setWidth w >>> k) ^^^ (BitVec.ofBool (b.getLsbD k)).setWidth w).getLsbD 0 = false := by
      simp only [BitVec.getLsbD_xor, BitVec.getLsbD_ushiftRight, BitVec.getLsbD_setWidth]
      simp
      by_cases h : k < w
      · simp [h, show 0 < w by omega]
      · omega
    unfold gstep
    rw [h0]
    ext i hi
    simp
    grind

theorem crcBits_byte {w : Nat} (hw : 8 ≤ w) (poly reg : BitVec w) (b : Byte) :
    (byteBits b).foldl (crcBit poly) reg = gsteps poly 8 (reg ^^^ b.setWidth w) := by
  rw [byteBits, crcBits_prefix hw poly reg b 8 (by omega)]
  have : b.setWidth w >>> 8 = 0#w := by
    ext i hi
    simp
  rw [this]
  simp

theorem msgBits_cons (b : Byte) (bs : List Byte) : msgBits (b :: bs) = byteBits b ++ msgBits bs := by
  simp [msgBits]

theorem msgBits_append (a b : List Byte) : msgBits (a ++ b) = msgBits a ++ msgBits b := by
  simp [msgBits]

/-- Splitting a register into its low byte and the rest. -/
theorem gsteps8_split (poly x : BitVec 32) :
    gsteps poly 8 x = gsteps poly 8 (x &&& 0xFF#32) ^^^ (x >>> 8) := by
  have hx : x = (x &&& 0xFF#32) ^^^ (x &&& ~~~ 0xFF#32) := by
    ext i hi
    rw [BitVec.getElem_xor, BitVec.getElem_and, BitVec.getElem_and, BitVec.getElem_not]
    cases x[i] <;> cases (0xFF#32)[i] <;> rfl
  have h2 : gsteps poly 8 (x &&& ~~~ 0xFF#32) = x >>> 8 := by
    rw [gsteps_shift]
    · ext i hi
      have : (~~~ 0xFF#32 : BitVec 32).getLsbD (8 + i) = decide (8 + i < 32) := by
        have : i < 32 := hi
        revert i
        decide
      simp only [BitVec.getElem_ushiftRight, BitVec.getLsbD_and, this]
      by_cases h : 8 + i < 32
      · simp [h]
      · simp [h, BitVec.getLsbD_of_ge x (8 + i) (by omega)]
    · intro i hi
      have : (~~~ 0xFF#32 : BitVec 32).getLsbD i = false := by
        revert i
        decide
      rw [BitVec.getLsbD_and, this, Bool.and_false]
  conv => lhs; rw [hx]
  rw [gsteps_xor, h2]

theorem and1_ne_zero {w : Nat} (hw : 0 < w) (x : BitVec w) : (x &&& 1 ≠ 0) ↔ x.getLsbD 0 = true := by
  constructor
  · intro h
    refine Classical.byContradiction fun h0 => ?_
    apply h
    ext i hi
    simp
    intro h1 h2
    subst h2
    simp_all
  · intro h h2
    have := congrArg (·.getLsbD 0) h2
    rw [BitVec.getLsbD_and, h] at this
    simp [hw] at this

theorem crc32TabStep_eq (x : BitVec 32) : crc32TabStep x = gstep 0xEDB88320#32 x := by
  have := and1_ne_zero (by decide) x
  unfold crc32TabStep gstep
  by_cases h : x.getLsbD 0 = true
  · rw [if_pos (this.2 h), if_pos h, BitVec.xor_comm]
  · rw [if_neg (fun h' => h (this.1 h')), if_neg h]

theorem crc16TabStep_eq (x : BitVec 32) : crc16TabStep x = gstep 0xA001#32 x := by
  have := and1_ne_zero (by decide) x
  unfold crc16TabStep gstep
  by_cases h : x.getLsbD 0 = true
  · rw [if_pos (this.2 h), if_pos h]
  · rw [if_neg (fun h' => h (this.1 h')), if_neg h]

theorem and255_lt (x : BitVec 32) : (x &&& 0xFF#32).toNat < 256 := by
  rw [BitVec.toNat_and]
  exact Nat.lt_succ_of_le Nat.and_le_right

theorem crc32Table_get (x : BitVec 32) :
    crc32Table.getD (x &&& 0xFF#32).toNat 0 = gsteps 0xEDB88320#32 8 (x &&& 0xFF#32) := by
  have h := and255_lt x
  rw [crc32Table, List.getD_eq_getElem?_getD, List.getElem?_map, List.getElem?_range h]
  simp only [Option.map_some, Option.getD_some, crc32TabEntry, BitVec.ofNat_toNat, BitVec.setWidth_eq]
  rw [funext crc32TabStep_eq]
  rfl

theorem crc16Table_get (x : BitVec 32) :
    crc16Table.getD (x &&& 0xFF#32).toNat 0 = gsteps 0xA001#32 8 (x &&& 0xFF#32) := by
  have h := and255_lt x
  rw [crc16Table, List.getD_eq_getElem?_getD, List.getElem?_map, List.getElem?_range h]
  simp only [Option.map_some, Option.getD_some, crc16TabEntry, BitVec.ofNat_toNat, BitVec.setWidth_eq]
  rw [funext crc16TabStep_eq]
  rfl

theorem shift8_xor_byte (x : BitVec 32) (b : Byte) : (x ^^^ b.setWidth 32) >>> 8 = x >>> 8 := by
  ext i hi
  simp

/-- One table-driven step is eight bit steps. -/
theorem crc32Step_eq (x : BitVec 32) (b : Byte) :
    crc32Step x b = (byteBits b).foldl (crcBit 0xEDB88320#32) x := by
  rw [crcBits_byte (by decide), gsteps8_split, crc32Step, crc32Table_get, shift8_xor_byte]

theorem crc16Step_eq (x : BitVec 32) (b : Byte) :
    crc16Step x b = (byteBits b).foldl (crcBit 0xA001#32) x := by
  rw [crcBits_byte (by decide), gsteps8_split, crc16Step, crc16Table_get, shift8_xor_byte, BitVec.xor_comm]

theorem crcBit_widen (x : BitVec 16) (bit : Bool) :
    crcBit 0xA001#32 (x.setWidth 32) bit = (crcBit 0xA001#16 x bit).setWidth 32 := by
  have h0 : (x.setWidth 32).getLsbD 0 = x.getLsbD 0 := by simp
  have hs : x.setWidth 32 >>> 1 = (x >>> 1).setWidth 32 := by
    ext i hi
    simp
  have hp : (0xA001#32) = (0xA001#16).setWidth 32 := by decide
  unfold crcBit
  rw [h0, hs, hp]
  split <;> simp [BitVec.setWidth_xor]

theorem crcBits_widen (bits : List Bool) (x : BitVec 16) :
    bits.foldl (crcBit 0xA001#32) (x.setWidth 32) = (bits.foldl (crcBit 0xA001#16) x).setWidth 32 := by
  induction bits generalizing x with
  | nil => rfl
  | cons b bits ih => rw [List.foldl_cons, crcBit_widen, ih]; rfl

theorem crc32_fold (bs : List Byte) (x : BitVec 32) :
    bs.foldl crc32Step x = (msgBits bs).foldl (crcBit 0xEDB88320#32) x := by
  induction bs generalizing x with
  | nil => rfl
  | cons b bs ih => rw [List.foldl_cons, ih, msgBits_cons, List.foldl_append, crc32Step_eq]

theorem crc16_fold (bs : List Byte) (x : BitVec 32) :
    bs.foldl crc16Step x = (msgBits bs).foldl (crcBit 0xA001#32) x := by
  induction bs generalizing x with
  | nil => rfl
  | cons b bs ih => rw [List.foldl_cons, ih, msgBits_cons, List.foldl_append, crc16Step_eq]

theorem crc32_eq (bs : List Byte) : crc32 bs = crc32IsoHdlc bs := by
  rw [crc32, crc32_fold]; rfl

theorem crc16_eq (bs : List Byte) : crc16 bs = (crc16Modbus bs).setWidth 32 := by
  have h : (0xFFFF#32) = (0xFFFF#16).setWidth 32 := by decide
  rw [crc16, crc16_fold]
  conv => lhs; lhs; rw [h]
  rw [crcBits_widen, crc16Modbus, crcRef]
  ext i hi
  simp only [BitVec.getElem_and, BitVec.getElem_setWidth, BitVec.getLsbD_xor]
  have : (0xFFFF#32)[i] = decide (i < 16) := by revert i; decide
  rw [this]
  by_cases h : i < 16
  · simp [h]
  · simp [h, BitVec.getLsbD_of_ge _ i (Nat.le_of_not_lt h)]

/-! ### Injectivity and bursts -/

/-- When the polynomial has its top bit set, one step loses nothing. -/
theorem gstep_inj {w : Nat} (poly x y : BitVec (w + 1)) (hp : poly.msb = true) (h : gstep poly x = gstep poly y) : x = y := by
  have hm : ∀ z : BitVec (w + 1), (gstep poly z).msb = z.getLsbD 0 := by
    intro z
    unfold gstep
    cases hz : z.getLsbD 0 <;> simp [hp, BitVec.msb_ushiftRight, BitVec.msb_xor]
  have h0 : x.getLsbD 0 = y.getLsbD 0 := by rw [← hm, ← hm, h]
  have hs : x >>> 1 = y >>> 1 := by
    unfold gstep at h
    rw [h0] at h
    cases hy : y.getLsbD 0
    · simp only [hy, Bool.false_eq_true, if_false] at h
      exact h
    · simp only [hy, if_true] at h
      have := congrArg (· ^^^ poly) h
      simpa [BitVec.xor_assoc] using this
  ext i hi
  cases i with
  | zero => simpa using h0
  | succ i =>
    have := congrArg (·.getLsbD i) hs
    simp only [BitVec.getLsbD_ushiftRight] at this
    rw [← BitVec.getLsbD_eq_getElem, ← BitVec.getLsbD_eq_getElem, Nat.add_comm i 1]
    exact this

theorem crcBit_inj {w : Nat} (poly x y : BitVec (w + 1)) (hp : poly.msb = true) (b : Bool)
    (h : crcBit poly x b = crcBit poly y b) : x = y := by
  rw [crcBit_eq (by omega), crcBit_eq (by omega)] at h
  have := gstep_inj _ _ _ hp h
  have := congrArg (· ^^^ (BitVec.ofBool b).setWidth (w + 1)) this
  simpa [BitVec.xor_assoc] using this

theorem crcBits_inj {w : Nat} (poly : BitVec (w + 1)) (hp : poly.msb = true) (bits : List Bool) (x y : BitVec (w + 1))
    (h : bits.foldl (crcBit poly) x = bits.foldl (crcBit poly) y) : x = y := by
  induction bits generalizing x y with
  | nil => exact h
  | cons b bits ih => exact crcBit_inj poly x y hp b (ih _ _ h)

/-- Linearity over the message. -/
theorem crcBits_xor {w : Nat} (poly : BitVec (w + 1)) (e1 e2 : List Bool) (hl : e1.length = e2.length) (x y : BitVec (w + 1)) :
    e1.foldl (crcBit poly) x ^^^ e2.foldl (crcBit poly) y
      = (List.zipWith (· != ·) e1 e2).foldl (crcBit poly) (x ^^^ y) := by
  induction e1 generalizing e2 x y with
  | nil => cases e2 with
    | nil => rfl
    | cons _ _ => simp at hl
  | cons a e1 ih =>
    cases e2 with
    | nil => simp at hl
    | cons b e2 =>
      rw [List.foldl_cons, List.foldl_cons, ih e2 (by simpa using hl)]
      simp only [List.zipWith_cons_cons, List.foldl_cons]
      congr 1
      rw [crcBit_eq (by omega), crcBit_eq (by omega), crcBit_eq (by omega), ← gstep_xor]
      congr 1
      have : (BitVec.ofBool (a != b)).setWidth (w + 1) =
          (BitVec.ofBool a).setWidth (w + 1) ^^^ (BitVec.ofBool b).setWidth (w + 1) := by
        cases a <;> cases b <;> simp
      rw [this]
      ext i hi
      simp
      grind

/-- If `k ≤ w` message bits drive the register to zero, then the register had only its low `k` bits set, and the first bit
cancelled the register's low bit. -/
theorem crcBits_zero {w : Nat} (poly : BitVec (w + 1)) (hp : poly.msb = true) (e : List Bool) (hk : e.length ≤ w + 1)
    (r : BitVec (w + 1)) (h : e.foldl (crcBit poly) r = 0#(w + 1)) :
    (∀ i, e.length ≤ i → r.getLsbD i = false) ∧ (∀ b e', e = b :: e' → r.getLsbD 0 = b) := by
  induction e generalizing r with
  | nil =>
    simp only [List.foldl_nil] at h
    subst h
    simp
  | cons b e ih =>
    simp only [List.length_cons] at hk
    obtain ⟨h1, _⟩ := ih (by omega) (crcBit poly r b) h
    have hm : (crcBit poly r b).getLsbD w = false := h1 w (by omega)
    have hlow : r.getLsbD 0 = b := by
      unfold crcBit at hm
      refine Classical.byContradiction fun hne => ?_
      have : (r.getLsbD 0 != b) = true := by simpa using hne
      rw [if_pos this] at hm
      have hpm : poly.getLsbD w = true := by simpa [BitVec.msb_eq_getLsbD_last] using hp
      rw [BitVec.getLsbD_xor, hpm, BitVec.getLsbD_ushiftRight, BitVec.getLsbD_of_ge r (1 + w) (by omega)] at hm
      simp at hm
    refine ⟨?_, ?_⟩
    · intro i hi
      simp only [List.length_cons] at hi
      have := h1 (i - 1) (by omega)
      unfold crcBit at this
      rw [hlow, if_neg (by simp), BitVec.getLsbD_ushiftRight] at this
      rwa [show 1 + (i - 1) = i by omega] at this
    · intro b' e' he
      cases he
      exact hlow

theorem crcBits_zero_all {w : Nat} (poly : BitVec (w + 1)) (hp : poly.msb = true) (e : List Bool) (hk : e.length ≤ w + 1)
    (h : e.foldl (crcBit poly) 0#(w + 1) = 0#(w + 1)) : ∀ b ∈ e, b = false := by
  induction e with
  | nil => simp
  | cons b e ih =>
    have hb := (crcBits_zero poly hp _ hk _ h).2 b e rfl
    simp at hb
    subst hb
    have : crcBit poly 0#(w + 1) false = 0#(w + 1) := by simp [crcBit]
    rw [List.foldl_cons, this] at h
    have := ih (by simp at hk; omega) h
    simpa using this

theorem zipWith_bne_all_false (e1 e2 : List Bool) (hl : e1.length = e2.length)
    (h : ∀ b ∈ List.zipWith (· != ·) e1 e2, b = false) : e1 = e2 := by
  induction e1 generalizing e2 with
  | nil => cases e2 with
    | nil => rfl
    | cons _ _ => simp at hl
  | cons a e1 ih =>
    cases e2 with
    | nil => simp at hl
    | cons b e2 =>
      simp only [List.zipWith_cons_cons, List.mem_cons, forall_eq_or_imp] at h
      rw [ih e2 (by simpa using hl) h.2]
      have := h.1
      simp at this
      rw [this]

/-- A burst no longer than the register never goes unnoticed. -/
theorem crcRef_burst {w : Nat} (poly init xorOut : BitVec (w + 1)) (hp : poly.msb = true) (m1 m2 : List Byte)
    (p e1 e2 s : List Bool) (h1 : msgBits m1 = p ++ e1 ++ s) (h2 : msgBits m2 = p ++ e2 ++ s)
    (hl : e1.length = e2.length) (hk : e1.length ≤ w + 1) (hne : e1 ≠ e2) :
    crcRef poly init xorOut m1 ≠ crcRef poly init xorOut m2 := by
  intro h
  unfold crcRef at h
  rw [h1, h2] at h
  have h := congrArg (· ^^^ xorOut) h
  simp only [BitVec.xor_assoc, BitVec.xor_self, BitVec.xor_zero, List.foldl_append] at h
  have h := crcBits_inj poly hp _ _ _ h
  have hx := crcBits_xor poly e1 e2 hl (p.foldl (crcBit poly) init) (p.foldl (crcBit poly) init)
  rw [h, BitVec.xor_self, BitVec.xor_self] at hx
  have := crcBits_zero_all poly hp _ (by simp; omega) hx.symm
  exact hne (zipWith_bne_all_false e1 e2 hl this)

theorem byteBits_inj (a b : Byte) (h : byteBits a = byteBits b) : a = b := by
  apply BitVec.eq_of_getLsbD_eq
  intro i hi
  simp only [byteBits, List.map_inj_left, List.mem_range] at h
  exact h i hi

theorem byteBits_length (a : Byte) : (byteBits a).length = 8 := by simp [byteBits]

theorem msgBits_length (m : List Byte) : (msgBits m).length = 8 * m.length := by
  induction m with
  | nil => rfl
  | cons b m ih => rw [msgBits_cons, List.length_append, ih, byteBits_length, List.length_cons]; omega

theorem msgBits_inj (a b : List Byte) (h : msgBits a = msgBits b) : a = b := by
  induction a generalizing b with
  | nil =>
    cases b with
    | nil => rfl
    | cons y b =>
      have := congrArg List.length h
      rw [msgBits_length, msgBits_length] at this
      simp at this
  | cons x a ih =>
    cases b with
    | nil =>
      have := congrArg List.length h
      rw [msgBits_length, msgBits_length] at this
      simp at this
    | cons y b =>
      rw [msgBits_cons, msgBits_cons] at h
      have := List.append_inj h (by simp [byteBits_length])
      rw [byteBits_inj x y this.1, ih b this.2]

/-! ### Sums -/

theorem sseBin_fold (bs : List Byte) (x : BitVec 32) (hx : x.toNat < 256) :
    (bs.foldl (fun (checksum : BitVec 32) (b : Byte) => (checksum + b.setWidth 32) &&& 0xFF#32) x).toNat
      = (x.toNat + byteSum bs) % 256 := by
  induction bs generalizing x with
  | nil => simp [byteSum, Nat.mod_eq_of_lt hx]
  | cons b bs ih =>
    have hstep : ((x + b.setWidth 32) &&& 0xFF#32).toNat = (x.toNat + b.toNat) % 256 := by
      rw [BitVec.toNat_and, show (0xFF#32).toNat = 2 ^ 8 - 1 by decide, Nat.and_two_pow_sub_one_eq_mod]
      have := b.isLt
      simp [BitVec.toNat_add]
    rw [List.foldl_cons, ih _ (by rw [hstep]; omega), hstep]
    simp [byteSum]
    omega

theorem sseBin_toNat (bs : List Byte) : (sseBin bs).toNat = byteSum bs % 256 := by
  rw [sseBin, sseBin_fold _ _ (by decide)]
  simp

theorem byteSum_le (bs : List Byte) : byteSum bs ≤ 255 * bs.length := by
  induction bs with
  | nil => simp [byteSum]
  | cons b bs ih =>
    have := b.isLt
    simp [byteSum] at *
    omega

theorem szseSum_fold (bs : List Byte) (x : BitVec 64) (hx : x.toNat + byteSum bs < 2 ^ 64) :
    (bs.foldl (fun (sum : BitVec 64) (b : Byte) => sum + b.setWidth 64) x).toNat = x.toNat + byteSum bs := by
  induction bs generalizing x with
  | nil => simp [byteSum]
  | cons b bs ih =>
    have hs : byteSum (b :: bs) = b.toNat + byteSum bs := by simp [byteSum]
    rw [hs] at hx
    have := b.isLt
    have hstep : (x + b.setWidth 64).toNat = x.toNat + b.toNat := by
      simp [BitVec.toNat_add]
      omega
    rw [List.foldl_cons, ih _ (by rw [hstep]; omega), hstep, hs]
    omega

theorem szseSum_toNat (bs : List Byte) (h : bs.length < 2 ^ 31) : (szseSum bs).toNat = byteSum bs := by
  have := byteSum_le bs
  rw [szseSum, szseSum_fold _ _ (by simp; omega)]
  simp

theorem szseBin_toNat (bs : List Byte) (h : bs.length < 2 ^ 31) : (szseBin bs).toNat = byteSum bs % 256 := by
  have hs := szseSum_toNat bs h
  have hle := byteSum_le bs
  have hm : (szseSum bs).msb = false := by
    rw [BitVec.msb_eq_decide, hs]
    simp
    omega
  have : (szseSum bs).srem 256#64 = (szseSum bs).umod 256#64 := by
    unfold BitVec.srem
    rw [hm]
    rfl
  rw [szseBin, this]
  simp [hs]
  omega

theorem calcLoop_eq {α : Type} (step : α → Byte → α) (b : RBuf) (n i : Nat) (acc : α) (h : b.rd + i + n ≤ b.data.length) :
    calcLoop step b n i acc = .ok (((b.data.drop (b.rd + i)).take n).foldl step acc) := by
  induction n generalizing i acc with
  | zero => simp [calcLoop]
  | succ n ih =>
    have hlt : b.rd + i < b.data.length := by omega
    rw [calcLoop, RBuf.getUnsignedByte, List.getElem?_append_left hlt, List.getElem?_eq_getElem hlt]
    dsimp only
    rw [ih (i + 1) _ (by omega), List.drop_eq_getElem_cons hlt, List.take_succ_cons, List.foldl_cons]
    rfl

theorem calcLoop_readable {α : Type} (step : α → Byte → α) (b : RBuf) (acc : α) :
    calcLoop step b (b.data.length - b.rd) 0 acc = .ok (b.readable.foldl step acc) := by
  by_cases h : b.rd ≤ b.data.length
  · rw [calcLoop_eq _ _ _ _ _ (by omega), List.take_of_length_le (by simp)]
    rfl
  · rw [RBuf.readable, List.drop_of_length_le (by omega), Nat.sub_eq_zero_of_le (by omega)]
    rfl

theorem crc16Calc_eq (b : RBuf) : crc16Calc b = .ok (crc16 b.readable) := by
  rw [crc16Calc, calcLoop_readable]; rfl
theorem crc32Calc_eq (b : RBuf) : crc32Calc b = .ok (crc32 b.readable) := by
  rw [crc32Calc, calcLoop_readable]; rfl
theorem sseBinCalc_eq (b : RBuf) : sseBinCalc b = .ok (sseBin b.readable) := by
  rw [sseBinCalc, calcLoop_readable]; rfl
theorem szseBinCalc_eq (b : RBuf) : szseBinCalc b = .ok (szseBin b.readable) := by
  rw [szseBinCalc, calcLoop_readable]; rfl

theorem byteSum_append (a b : List Byte) : byteSum (a ++ b) = byteSum a + byteSum b := by simp [byteSum]

end FinProto
