import Verif.Proofs.CrcBits
import Verif.Spec.Flips
import Mathlib.Tactic.NormNum.Prime
/-
Which two-bit errors the two CRCs see.
-/
namespace FinProto

/-! ### Error patterns -/

def onesAt (e : List Bool) : List Nat := (List.range e.length).filter fun k => e[k]? == some true

theorem onesAt_cons (b : Bool) (e : List Bool) :
    onesAt (b :: e) = (if b then [0] else []) ++ (onesAt e).map (· + 1) := by
  rw [onesAt, List.length_cons, List.range_succ_eq_map, List.filter_cons, onesAt]
  have h : List.filter (fun k => (b :: e)[k]? == some true) (List.map Nat.succ (List.range e.length))
      = (List.filter (fun k => e[k]? == some true) (List.range e.length)).map (· + 1) := by
    rw [List.filter_map]
    rfl
  rw [h]
  cases b <;> rfl

theorem onesAt_zeros_append (n : Nat) (e : List Bool) :
    onesAt (List.replicate n false ++ e) = (onesAt e).map (· + n) := by
  induction n with
  | zero => simp
  | succ n ih =>
    rw [List.replicate_succ, List.cons_append, onesAt_cons, ih]
    simp [Function.comp_def]
    intro a _
    omega

theorem onesAt_count (e : List Bool) : (onesAt e).length = e.count true := by
  induction e with
  | nil => rfl
  | cons b e ih =>
    rw [onesAt_cons, List.length_append, List.length_map, ih]
    cases b
    · simp
    · simp; omega

theorem onesAt_nil (e : List Bool) (h : onesAt e = []) : e = List.replicate e.length false := by
  induction e with
  | nil => rfl
  | cons b e ih =>
    rw [onesAt_cons] at h
    cases b
    · simp at h
      rw [List.length_cons, List.replicate_succ, ← ih h]
    · simp at h

theorem onesAt_cons_form (e : List Bool) (i : Nat) (t : List Nat) (h : onesAt e = i :: t) :
    ∃ e', e = List.replicate i false ++ true :: e' ∧ onesAt e' = t.map (· - (i + 1)) := by
  induction e generalizing i t with
  | nil => simp [onesAt] at h
  | cons b e ih =>
    rw [onesAt_cons] at h
    cases b
    · simp only [Bool.false_eq_true, if_false, List.nil_append] at h
      cases ho : onesAt e with
      | nil => rw [ho] at h; simp at h
      | cons a r =>
        rw [ho, List.map_cons, List.cons.injEq] at h
        obtain ⟨e', he, ht⟩ := ih a r ho
        refine ⟨e', ?_, ?_⟩
        · rw [← h.1, List.replicate_succ, he]; rfl
        · rw [ht, ← h.2, ← h.1, List.map_map]
          apply List.map_congr_left
          intro x _
          simp only [Function.comp]
          omega
    · simp only [if_true, List.cons_append, List.nil_append, List.cons.injEq] at h
      refine ⟨e, ?_, ?_⟩
      · rw [← h.1]; rfl
      · rw [← h.2, ← h.1, List.map_map]
        conv => lhs; rw [← List.map_id (onesAt e)]
        rfl

theorem flips_eq (m1 m2 : List Byte) (hl : m1.length = m2.length) :
    flips m1 m2 = onesAt (List.zipWith (· != ·) (msgBits m1) (msgBits m2)) := by
  have h1 := msgBits_length m1
  have h2 := msgBits_length m2
  have hlen : (List.zipWith (· != ·) (msgBits m1) (msgBits m2)).length = 8 * m1.length := by
    rw [List.length_zipWith, h1, h2, hl]; simp
  rw [flips, onesAt, hlen]
  apply List.filter_congr
  intro k hk
  rw [List.mem_range] at hk
  have ha : k < (msgBits m1).length := by omega
  have hb : k < (msgBits m2).length := by omega
  rw [List.getElem?_zipWith, List.getElem?_eq_getElem ha, List.getElem?_eq_getElem hb]
  simp only
  cases (msgBits m1)[k] <;> cases (msgBits m2)[k] <;> rfl

/-! ### One CRC difference is the CRC of the error pattern -/

theorem crcRef_eq_iff {w : Nat} (poly init xorOut : BitVec (w + 1)) (m1 m2 : List Byte) (hl : m1.length = m2.length) :
    crcRef poly init xorOut m1 = crcRef poly init xorOut m2
      ↔ (List.zipWith (· != ·) (msgBits m1) (msgBits m2)).foldl (crcBit poly) 0#(w + 1) = 0#(w + 1) := by
  have h := crcBits_xor poly (msgBits m1) (msgBits m2) (by rw [msgBits_length, msgBits_length, hl]) init init
  rw [BitVec.xor_self] at h
  rw [← h]
  unfold crcRef
  constructor
  · intro h'
    have := congrArg (· ^^^ xorOut) h'
    simp only [BitVec.xor_assoc, BitVec.xor_self, BitVec.xor_zero] at this
    rw [this, BitVec.xor_self]
  · intro h'
    rw [BitVec.xor_eq_zero_iff] at h'
    rw [h']

theorem crcBit_true_zero {w : Nat} (poly : BitVec (w + 1)) : crcBit poly 0#(w + 1) true = gstep poly 1#(w + 1) := by
  rw [crcBit_eq (by omega)]
  congr 1
  simp

/-- Two flipped bits at distance `d` cancel exactly when the shift register returns to its start after `d` steps. -/
theorem two_flips {w : Nat} (poly : BitVec (w + 1)) (hp : poly.msb = true) (i j n : Nat) :
    (List.replicate i false ++ true :: (List.replicate j false ++ true :: List.replicate n false)).foldl (crcBit poly) 0#(w + 1)
        = 0#(w + 1)
      ↔ gsteps poly (j + 1) (topBit w) = topBit w := by
  rw [List.foldl_append, crcBits_zeros, gsteps_zero, List.foldl_cons, List.foldl_append, crcBits_zeros, List.foldl_cons, crcBits_zeros,
    crcBit_true_zero]
  have h1 : gsteps poly w (topBit w) = 1#(w + 1) := by
    rw [gsteps_top poly w (Nat.le_refl _), Nat.sub_self]
    apply BitVec.eq_of_getLsbD_eq
    intro k hk
    simp [BitVec.getLsbD_twoPow, BitVec.getLsbD_one]
    omega
  have h2 : gsteps poly j (gstep poly 1#(w + 1)) = gsteps poly (j + 1) 1#(w + 1) := by
    rw [gsteps_add]; rfl
  have h3 : (BitVec.ofBool true).setWidth (w + 1) = 1#(w + 1) := by
    apply BitVec.eq_of_toNat_eq
    simp
  rw [h2, crcBit_eq (by omega), h3]
  constructor
  · intro h
    have h := gsteps_inj poly hp n _ 0#(w + 1) (by rw [h, gsteps_zero])
    have h := gstep_inj poly _ 0#(w + 1) hp (by rw [h, gstep_zero])
    rw [BitVec.xor_eq_zero_iff, ← h1, gsteps_comm] at h
    exact gsteps_inj poly hp w _ _ h
  · intro h
    have : gsteps poly (j + 1) 1#(w + 1) = 1#(w + 1) := by
      rw [← h1, gsteps_comm, h]
    rw [this, BitVec.xor_self, gstep_zero, gsteps_zero]

theorem crcRef_two_flips {w : Nat} (poly init xorOut : BitVec (w + 1)) (hp : poly.msb = true) (N : Nat)
    (hN : Function.minimalPeriod (gstep poly) (topBit w) = N) (m1 m2 : List Byte) (hl : m1.length = m2.length) (i j : Nat)
    (hf : flips m1 m2 = [i, j]) :
    i < j ∧ (crcRef poly init xorOut m1 = crcRef poly init xorOut m2 ↔ N ∣ j - i) := by
  have hij : i < j := by
    have : (flips m1 m2).Pairwise (· < ·) := List.Pairwise.filter _ (List.pairwise_lt_range)
    rw [hf] at this
    simpa using this
  refine ⟨hij, ?_⟩
  rw [crcRef_eq_iff _ _ _ _ _ hl]
  rw [flips_eq _ _ hl] at hf
  obtain ⟨e1, he1, ht1⟩ := onesAt_cons_form _ _ _ hf
  obtain ⟨e2, he2, ht2⟩ := onesAt_cons_form _ _ _ ht1
  rw [he1, he2, onesAt_nil e2 ht2, two_flips poly hp, ← gsteps_iterate]
  have : j - (i + 1) + 1 = j - i := by omega
  rw [this, ← hN]
  exact Function.isPeriodicPt_iff_minimalPeriod_dvd

theorem crcRef_odd_flips {w : Nat} (poly init xorOut : BitVec (w + 1)) (hp : parUpTo poly (w + 1) = true)
    (m1 m2 : List Byte) (hl : m1.length = m2.length) (hf : (flips m1 m2).length % 2 = 1) :
    crcRef poly init xorOut m1 ≠ crcRef poly init xorOut m2 := by
  rw [Ne, crcRef_eq_iff _ _ _ _ _ hl]
  intro h
  have hc := crcBits_parity poly hp (List.zipWith (· != ·) (msgBits m1) (msgBits m2)) 0#(w + 1)
  rw [flips_eq _ _ hl, onesAt_count] at hf
  rw [h, hf] at hc
  cases hz : parUpTo 0#(w + 1) (w + 1) <;> simp [hz] at hc

/-! ### The two periods -/

/-- Most significant bit first. -/
def natBits (n : Nat) : Nat → List Bool
  | 0 => []
  | k + 1 => n.testBit k :: natBits n k

theorem period16 : Function.minimalPeriod (gstep 0xA001#16) (topBit 15) = 32767 := by
  have key : ∀ bs : List Bool, (gstep 0xA001#16)^[bitsVal bs 0] (topBit 15) = fpow 0xA001#16 bs (topBit 15) := by
    intro bs
    rw [gsteps_iterate, ← fpow_eq]
    rfl
  apply minimalPeriod_of
  · have := key (natBits 32767 15)
    rw [show bitsVal (natBits 32767 15) 0 = 32767 by decide +kernel] at this
    rw [this]
    decide +kernel
  · intro p hp hd
    have hpd : p = 7 ∨ p = 31 ∨ p = 151 := by
      rw [show (32767 : Nat) = 7 * (31 * 151) by norm_num, hp.dvd_mul, hp.dvd_mul] at hd
      rwa [Nat.prime_dvd_prime_iff_eq hp (by norm_num), Nat.prime_dvd_prime_iff_eq hp (by norm_num),
        Nat.prime_dvd_prime_iff_eq hp (by norm_num)] at hd
    rcases hpd with h | h | h <;> subst h
    · have := key (natBits 4681 15)
      rw [show bitsVal (natBits 4681 15) 0 = 32767 / 7 by decide +kernel] at this
      rw [this]; decide +kernel
    · have := key (natBits 1057 15)
      rw [show bitsVal (natBits 1057 15) 0 = 32767 / 31 by decide +kernel] at this
      rw [this]; decide +kernel
    · have := key (natBits 217 15)
      rw [show bitsVal (natBits 217 15) 0 = 32767 / 151 by decide +kernel] at this
      rw [this]; decide +kernel

theorem period32 : Function.minimalPeriod (gstep 0xEDB88320#32) (topBit 31) = 4294967295 := by
  have key : ∀ bs : List Bool, (gstep 0xEDB88320#32)^[bitsVal bs 0] (topBit 31) = fpow 0xEDB88320#32 bs (topBit 31) := by
    intro bs
    rw [gsteps_iterate, ← fpow_eq]
    rfl
  apply minimalPeriod_of
  · have := key (natBits 4294967295 32)
    rw [show bitsVal (natBits 4294967295 32) 0 = 4294967295 by decide +kernel] at this
    rw [this]
    decide +kernel
  · intro p hp hd
    have hpd : p = 3 ∨ p = 5 ∨ p = 17 ∨ p = 257 ∨ p = 65537 := by
      rw [show (4294967295 : Nat) = 3 * (5 * (17 * (257 * 65537))) by norm_num, hp.dvd_mul, hp.dvd_mul, hp.dvd_mul, hp.dvd_mul] at hd
      rwa [Nat.prime_dvd_prime_iff_eq hp (by norm_num), Nat.prime_dvd_prime_iff_eq hp (by norm_num),
        Nat.prime_dvd_prime_iff_eq hp (by norm_num), Nat.prime_dvd_prime_iff_eq hp (by norm_num),
        Nat.prime_dvd_prime_iff_eq hp (by norm_num)] at hd
    rcases hpd with h | h | h | h | h <;> subst h
    · have := key (natBits (4294967295 / 3) 32)
      rw [show bitsVal (natBits (4294967295 / 3) 32) 0 = 4294967295 / 3 by decide +kernel] at this
      rw [this]; decide +kernel
    · have := key (natBits (4294967295 / 5) 32)
      rw [show bitsVal (natBits (4294967295 / 5) 32) 0 = 4294967295 / 5 by decide +kernel] at this
      rw [this]; decide +kernel
    · have := key (natBits (4294967295 / 17) 32)
      rw [show bitsVal (natBits (4294967295 / 17) 32) 0 = 4294967295 / 17 by decide +kernel] at this
      rw [this]; decide +kernel
    · have := key (natBits (4294967295 / 257) 32)
      rw [show bitsVal (natBits (4294967295 / 257) 32) 0 = 4294967295 / 257 by decide +kernel] at this
      rw [this]; decide +kernel
    · have := key (natBits (4294967295 / 65537) 32)
      rw [show bitsVal (natBits (4294967295 / 65537) 32) 0 = 4294967295 / 65537 by decide +kernel] at this
      rw [this]; decide +kernel

end FinProto
