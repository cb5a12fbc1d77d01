import Verif.Proofs.CrcFlips
import Verif.Proofs.Packed
/-
Three-bit errors and CRC32. A three-bit error escapes exactly when two states of the shift register, as many steps after the start as the
first two flipped bits are away from the third, differ in the top bit only. That the first 91632 states differ elsewhere is a finite
computation, done by the kernel: the states, without their top bits, are sorted, and each is then smaller than the next (`Proofs/Packed`).
-/
namespace FinProto

/-! ### The computation -/

/-- `gstep` of the CRC32 polynomial, on numbers. -/
def nstep (s : Nat) : Nat := Nat.xor (Nat.div s 2) (Nat.mul (Nat.mod s 2) 0xEDB88320)

theorem nstep_eq (x : BitVec 32) : (gstep 0xEDB88320#32 x).toNat = nstep x.toNat := by
  have h0 : x.getLsbD 0 = decide (x.toNat % 2 = 1) := by
    rw [BitVec.getLsbD, Nat.testBit_zero]
  unfold gstep nstep
  rcases Nat.mod_two_eq_zero_or_one x.toNat with h | h
  · rw [h0, h, if_neg (by decide), BitVec.toNat_ushiftRight, Nat.shiftRight_one]
    show x.toNat / 2 = (x.toNat / 2) ^^^ ((x.toNat % 2) * 0xEDB88320)
    rw [h]; simp
  · rw [h0, h, if_pos (by decide), BitVec.toNat_xor, BitVec.toNat_ushiftRight, Nat.shiftRight_one]
    show _ = (x.toNat / 2) ^^^ ((x.toNat % 2) * 0xEDB88320)
    rw [h]; rfl

/-- The columns of the linear map that takes a state to the next. -/
def crcColumns : Nat :=
  96512915286584844628245728378511051864391141962972666110302588848339622525344457492714510344369769690613164074899191459000838491813352951681469958508154367549881869183359289395219657897160346978611576126461167803972559812722474010649717919303082919496053300241782349791290336423510372008149323924385093107905143014176

theorem states_distinct : Packed.statesDistinct 0xEDB88320 2147483648 91632 17 crcColumns 0x7FFFFFFF = true := by decide +kernel

theorem nsteps_eq (n : Nat) (x : BitVec 32) : (gsteps 0xEDB88320#32 n x).toNat = nstep^[n] x.toNat := by
  induction n with
  | zero => rfl
  | succ n ih => rw [gsteps, nstep_eq, ih, Function.iterate_succ_apply']

/-- No two of the first 91632 states differ in the top bit only. -/
theorem states_apart (a b : Nat) (ha : a < 91632) (hb : b < 91632)
    (h : gsteps 0xEDB88320#32 a (topBit 31) ^^^ gsteps 0xEDB88320#32 b (topBit 31) = topBit 31) : a = b := by
  have hi : ∀ i, (gsteps 0xEDB88320#32 i (topBit 31) &&& 0x7FFFFFFF#32).toNat = Nat.land (nstep^[i] 2147483648) 0x7FFFFFFF := by
    intro i
    rw [BitVec.toNat_and, nsteps_eq]
    rfl
  have he : gsteps 0xEDB88320#32 a (topBit 31) &&& 0x7FFFFFFF#32 = gsteps 0xEDB88320#32 b (topBit 31) &&& 0x7FFFFFFF#32 := by
    generalize gsteps 0xEDB88320#32 a (topBit 31) = x at *
    generalize gsteps 0xEDB88320#32 b (topBit 31) = y at *
    have hx : x = y ^^^ topBit 31 := by
      rw [← h, BitVec.xor_comm, BitVec.xor_assoc, BitVec.xor_self, BitVec.xor_zero]
    have h0 : topBit 31 &&& 0x7FFFFFFF#32 = 0#32 := by decide
    rw [hx]
    apply BitVec.eq_of_getLsbD_eq
    intro i _
    have := congrArg (·.getLsbD i) h0
    simp only [BitVec.getLsbD_and, BitVec.getLsbD_xor, BitVec.getLsbD_zero] at this ⊢
    revert this
    cases (topBit 31).getLsbD i <;> cases (0x7FFFFFFF#32).getLsbD i <;> cases y.getLsbD i <;> simp
  have he' : Nat.land (nstep^[a] 2147483648) 0x7FFFFFFF = Nat.land (nstep^[b] 2147483648) 0x7FFFFFFF := by
    rw [← hi, ← hi, he]
  exact Packed.statesDistinct_sound _ _ _ _ _ _ (by decide) (by decide) states_distinct a b ha hb he'

/-! ### Four flips: what is computed -/

namespace CrcFour

/-- The sums of the start and another state and the sums of two other states at the distances `e`, …, `e + c - 1` are distinct. -/
def Part (e c : Nat) : Prop := Packed.sumsDistinct 0xEDB88320 2147483648 3000 12 crcColumns 15 c e = true

noncomputable instance (e c : Nat) : Decidable (Part e c) := inferInstanceAs (Decidable (_ = true))

/-- Computed parts speak about the register. -/
theorem Part.apart {e c : Nat} (h : Part e c) (a b d : Nat) (ha1 : 1 ≤ a) (ha : a < 3000) (hb1 : 1 ≤ b) (h1 : e ≤ d) (h2 : d < e + c)
    (hb : b + d < 3000) :
    gsteps 0xEDB88320#32 a (topBit 31) ^^^ topBit 31 ≠ gsteps 0xEDB88320#32 b (topBit 31) ^^^ gsteps 0xEDB88320#32 (b + d) (topBit 31) := by
  intro hab
  have key : ∀ j, (gsteps 0xEDB88320#32 j (topBit 31)).toNat = Packed.state 0xEDB88320 2147483648 j := fun j => nsteps_eq j _
  obtain ⟨a, rfl⟩ : ∃ a', a = a' + 1 := ⟨a - 1, by omega⟩
  obtain ⟨b, rfl⟩ : ∃ b', b = b' + 1 := ⟨b - 1, by omega⟩
  refine Packed.sumsDistinct_sound _ _ _ _ _ _ _ _ (by decide) (by decide) h a b d ha h1 h2 hb ?_
  have := congrArg BitVec.toNat hab
  rwa [BitVec.toNat_xor, BitVec.toNat_xor, key, key, key] at this

end CrcFour

/-! ### Three flips -/

theorem three_flips {w : Nat} (poly : BitVec (w + 1)) (hp : poly.msb = true) (i j k n : Nat) :
    (List.replicate i false ++ true :: (List.replicate j false ++ true :: (List.replicate k false ++ true :: List.replicate n false))).foldl
        (crcBit poly) 0#(w + 1) = 0#(w + 1)
      ↔ gsteps poly (j + k + 2) (topBit w) ^^^ gsteps poly (k + 1) (topBit w) = topBit w := by
  rw [List.foldl_append, crcBits_zeros, gsteps_zero, List.foldl_cons, List.foldl_append, crcBits_zeros, List.foldl_cons, List.foldl_append,
    crcBits_zeros, List.foldl_cons, crcBits_zeros, crcBit_true_zero]
  have h1 : gsteps poly w (topBit w) = 1#(w + 1) := by
    rw [gsteps_top poly w (Nat.le_refl _), Nat.sub_self]
    apply BitVec.eq_of_getLsbD_eq
    intro k hk
    simp [BitVec.getLsbD_twoPow, BitVec.getLsbD_one]
    omega
  have hs : ∀ j x, gsteps poly j (gstep poly x) = gsteps poly (j + 1) x := by
    intro j x
    rw [gsteps_add]; rfl
  have h3 : (BitVec.ofBool true).setWidth (w + 1) = 1#(w + 1) := by
    apply BitVec.eq_of_toNat_eq
    simp
  rw [hs, crcBit_eq (by omega) poly (gsteps poly (j + 1) 1#(w + 1)) true, h3, hs, crcBit_eq (by omega), h3, gsteps_xor, ← gsteps_add, hs]
  rw [show k + 1 + (j + 1) = j + k + 2 by omega, ← h1]
  rw [gsteps_comm poly (j + k + 2) w, gsteps_comm poly (k + 1) w, ← gsteps_xor, ← gsteps_xor]
  constructor
  · intro h
    have h := gsteps_inj poly hp (n + 1) _ 0#(w + 1) (by rw [h, gsteps_zero])
    have h := gsteps_inj poly hp w _ 0#(w + 1) (by rw [h, gsteps_zero])
    rwa [BitVec.xor_eq_zero_iff] at h
  · intro h
    rw [h, BitVec.xor_self, gsteps_zero, gsteps_zero]

theorem crcRef_three_flips {w : Nat} (poly init xorOut : BitVec (w + 1)) (hp : poly.msb = true) (m1 m2 : List Byte)
    (hl : m1.length = m2.length) (i j k : Nat) (hf : flips m1 m2 = [i, j, k]) :
    i < j ∧ j < k ∧ k < 8 * m1.length ∧ (crcRef poly init xorOut m1 = crcRef poly init xorOut m2
      ↔ gsteps poly (k - i) (topBit w) ^^^ gsteps poly (k - j) (topBit w) = topBit w) := by
  have hs : (flips m1 m2).Pairwise (· < ·) := List.Pairwise.filter _ (List.pairwise_lt_range)
  have hk : k < 8 * m1.length := by
    have : k ∈ flips m1 m2 := by rw [hf]; simp
    rw [flips, List.mem_filter, List.mem_range] at this
    exact this.1
  rw [hf] at hs
  have hij : i < j ∧ j < k := by
    simp at hs
    omega
  refine ⟨hij.1, hij.2, hk, ?_⟩
  rw [crcRef_eq_iff _ _ _ _ _ hl]
  rw [flips_eq _ _ hl] at hf
  obtain ⟨e1, he1, ht1⟩ := onesAt_cons_form _ _ _ hf
  obtain ⟨e2, he2, ht2⟩ := onesAt_cons_form _ _ _ ht1
  obtain ⟨e3, he3, ht3⟩ := onesAt_cons_form _ _ _ ht2
  rw [he1, he2, he3, onesAt_nil e3 ht3, three_flips poly hp]
  rw [show j - (i + 1) + (k - (i + 1) - (j - (i + 1) + 1)) + 2 = k - i by omega,
    show k - (i + 1) - (j - (i + 1) + 1) + 1 = k - j by omega]

theorem flips_pos (m1 m2 : List Byte) (hl : m1.length = m2.length) (hne : m1 ≠ m2) : 1 ≤ (flips m1 m2).length := by
  rcases Nat.eq_zero_or_pos (flips m1 m2).length with h | h
  · exfalso
    apply hne
    apply msgBits_inj m1 m2
    apply List.ext_getElem?
    intro k
    by_cases hk : k < 8 * m1.length
    · have hn := List.length_eq_zero_iff.1 h
      rw [flips, List.filter_eq_nil_iff] at hn
      simpa using hn k (by rw [List.mem_range]; exact hk)
    · rw [List.getElem?_eq_none (by rw [msgBits_length]; omega), List.getElem?_eq_none (by rw [msgBits_length]; omega)]
  · exact h

theorem crcRef_one_flip {w : Nat} (poly init xorOut : BitVec (w + 1)) (hp : poly.msb = true) (m1 m2 : List Byte)
    (hl : m1.length = m2.length) (i : Nat) (hf : flips m1 m2 = [i]) : crcRef poly init xorOut m1 ≠ crcRef poly init xorOut m2 := by
  rw [Ne, crcRef_eq_iff _ _ _ _ _ hl]
  rw [flips_eq _ _ hl] at hf
  obtain ⟨e1, he1, ht1⟩ := onesAt_cons_form _ _ _ hf
  rw [he1, onesAt_nil e1 ht1, List.foldl_append, crcBits_zeros, gsteps_zero, List.foldl_cons, crcBits_zeros, crcBit_true_zero]
  intro h
  have h := gsteps_inj poly hp _ _ 0#(w + 1) (by rw [h, gsteps_zero])
  have h := gstep_inj poly _ 0#(w + 1) hp (by rw [h, gstep_zero])
  exact absurd (congrArg (·.getLsbD 0) h) (by simp)

/-- Two numbers of steps after which the register differs from its start as it does from the other: the first three-bit error CRC32 misses. -/
theorem missed : gsteps 0xEDB88320#32 91639 (topBit 31) ^^^ gsteps 0xEDB88320#32 41678 (topBit 31) = topBit 31 := by
  have key : ∀ bs : List Bool, gsteps 0xEDB88320#32 (bitsVal bs 0) (topBit 31) = fpow 0xEDB88320#32 bs (topBit 31) := by
    intro bs
    rw [← fpow_eq]
    rfl
  have h1 := key (natBits 91639 17)
  have h2 := key (natBits 41678 17)
  rw [show bitsVal (natBits 91639 17) 0 = 91639 by decide +kernel] at h1
  rw [show bitsVal (natBits 41678 17) 0 = 41678 by decide +kernel] at h2
  rw [h1, h2]
  decide +kernel

end FinProto
