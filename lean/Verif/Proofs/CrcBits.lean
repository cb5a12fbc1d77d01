import Verif.Proofs.Checksum
import Mathlib.Dynamics.PeriodicPts.Defs
import Mathlib.Data.Nat.Prime.Basic
import Mathlib.Tactic.Ring
/-
How a CRC register reacts to single flipped bits: parity and the period of the shift register.
-/
namespace FinProto

/-! ### Parity -/

def parUpTo {w : Nat} (x : BitVec w) : Nat → Bool
  | 0 => false
  | k + 1 => parUpTo x k != x.getLsbD k

theorem parUpTo_xor {w : Nat} (x y : BitVec w) (k : Nat) : parUpTo (x ^^^ y) k = (parUpTo x k != parUpTo y k) := by
  induction k with
  | zero => rfl
  | succ k ih =>
    simp only [parUpTo, ih, BitVec.getLsbD_xor]
    cases parUpTo x k <;> cases parUpTo y k <;> cases x.getLsbD k <;> cases y.getLsbD k <;> rfl

theorem parUpTo_shift {w : Nat} (x : BitVec w) (k : Nat) : parUpTo x (k + 1) = (x.getLsbD 0 != parUpTo (x >>> 1) k) := by
  induction k with
  | zero => simp [parUpTo]
  | succ k ih =>
    rw [parUpTo, ih]
    simp only [parUpTo, BitVec.getLsbD_ushiftRight]
    rw [Nat.add_comm 1 k]
    cases x.getLsbD 0 <;> cases parUpTo (x >>> 1) k <;> cases x.getLsbD (k + 1) <;> rfl

theorem crcBit_parity {w : Nat} (poly : BitVec w) (hp : parUpTo poly w = true) (x : BitVec w) (bit : Bool) :
    parUpTo (crcBit poly x bit) w = (parUpTo x w != bit) := by
  have h : parUpTo x w = (x.getLsbD 0 != parUpTo (x >>> 1) w) := by
    have h1 := parUpTo_shift x w
    rw [parUpTo] at h1
    simpa using h1
  unfold crcBit
  by_cases hb : (x.getLsbD 0 != bit) = true
  · rw [if_pos hb, parUpTo_xor, hp, h]
    revert hb
    cases x.getLsbD 0 <;> cases bit <;> cases parUpTo (x >>> 1) w <;> simp
  · rw [if_neg hb, h]
    revert hb
    cases x.getLsbD 0 <;> cases bit <;> cases parUpTo (x >>> 1) w <;> simp

theorem crcBits_parity {w : Nat} (poly : BitVec w) (hp : parUpTo poly w = true) (bits : List Bool) (x : BitVec w) :
    parUpTo (bits.foldl (crcBit poly) x) w = (parUpTo x w != decide (bits.count true % 2 = 1)) := by
  induction bits generalizing x with
  | nil => simp
  | cons b bits ih =>
    rw [List.foldl_cons, ih, crcBit_parity poly hp]
    cases b
    · simp
    · rw [List.count_cons_self]
      rcases Nat.mod_two_eq_zero_or_one (bits.count true) with h | h
      · have : (bits.count true + 1) % 2 = 1 := by omega
        simp [h, this]
      · have : (bits.count true + 1) % 2 = 0 := by omega
        simp [h, this]

/-! ### The register as a shift register with a period -/

theorem gsteps_add {w : Nat} (poly : BitVec w) (m n : Nat) (x : BitVec w) :
    gsteps poly (m + n) x = gsteps poly m (gsteps poly n x) := by
  induction m with
  | zero => simp [gsteps]
  | succ m ih => rw [Nat.succ_add, gsteps, gsteps, ih]

theorem gsteps_inj {w : Nat} (poly : BitVec (w + 1)) (hp : poly.msb = true) (n : Nat) (x y : BitVec (w + 1))
    (h : gsteps poly n x = gsteps poly n y) : x = y := by
  induction n with
  | zero => exact h
  | succ n ih => exact ih (gstep_inj poly _ _ hp h)

theorem gsteps_zero {w : Nat} (poly : BitVec w) (n : Nat) : gsteps poly n 0#w = 0#w := by
  induction n with
  | zero => rfl
  | succ n ih => rw [gsteps, ih, gstep_zero]

theorem gsteps_iterate {w : Nat} (poly : BitVec w) (n : Nat) (x : BitVec w) : (gstep poly)^[n] x = gsteps poly n x := by
  induction n with
  | zero => rfl
  | succ n ih => rw [Function.iterate_succ_apply', ih, gsteps]

/-- Feeding zero bits only shifts. -/
theorem crcBits_zeros {w : Nat} (poly : BitVec (w + 1)) (n : Nat) (x : BitVec (w + 1)) :
    (List.replicate n false).foldl (crcBit poly) x = gsteps poly n x := by
  induction n generalizing x with
  | zero => rfl
  | succ n ih =>
    rw [List.replicate_succ, List.foldl_cons, ih, crcBit_eq (by omega), gsteps_add poly n 1]
    simp [gsteps]

/-- Product of two remainders in reflected representation: xor of `x^i * a` for the coefficients of `b`. -/
def pmul {w : Nat} (poly a : BitVec w) (b : BitVec w) : Nat → BitVec w
  | 0 => 0#w
  | k + 1 => pmul poly a b k ^^^ (if b.getLsbD (w - 1 - k) then gsteps poly k a else 0#w)

/-- The top bit, the reflected representation of the polynomial one. -/
def topBit (w : Nat) : BitVec (w + 1) := BitVec.twoPow (w + 1) w

theorem topBit_get (w i : Nat) : (topBit w).getLsbD i = decide (i = w) := by
  rw [topBit, BitVec.getLsbD_twoPow]
  simp [eq_comm]

theorem gsteps_top {w : Nat} (poly : BitVec (w + 1)) (i : Nat) (hi : i ≤ w) :
    gsteps poly i (topBit w) = BitVec.twoPow (w + 1) (w - i) := by
  rw [gsteps_shift _ _ _ (by intro k hk; rw [topBit_get]; simp; omega)]
  apply BitVec.eq_of_getLsbD_eq
  intro j hj
  rw [BitVec.getLsbD_ushiftRight, topBit_get, BitVec.getLsbD_twoPow]
  have : decide (w - i < w + 1) = true := by simp; omega
  rw [this, Bool.true_and, decide_eq_decide]
  omega

/-- Every register is the xor of the shifted top bits it contains. -/
theorem pmul_top {w : Nat} (poly b : BitVec (w + 1)) (k : Nat) (hk : k ≤ w + 1) (j : Nat) :
    (pmul poly (topBit w) b k).getLsbD j = (decide (w + 1 - k ≤ j) && b.getLsbD j) := by
  induction k with
  | zero =>
    simp only [pmul, BitVec.getLsbD_zero, Nat.sub_zero]
    by_cases h : w + 1 ≤ j
    · simp [BitVec.getLsbD_of_ge b j h]
    · simp [h]
  | succ k ih =>
    rw [pmul, BitVec.getLsbD_xor, ih (by omega)]
    have hw : w + 1 - 1 - k = w - k := by omega
    rw [hw]
    by_cases hj : j = w - k
    · subst hj
      have h1 : ¬ (w + 1 - k ≤ w - k) := by omega
      have h2 : w + 1 - (k + 1) ≤ w - k := by omega
      simp only [h1, decide_false, Bool.false_and, h2, decide_true, Bool.true_and, Bool.false_xor]
      cases hb : b.getLsbD (w - k)
      · simp
      · rw [if_pos rfl, gsteps_top poly k (by omega), BitVec.getLsbD_twoPow]
        simp
        omega
    · have h0 : (if b.getLsbD (w - k) = true then gsteps poly k (topBit w) else 0#(w + 1)).getLsbD j = false := by
        split
        · rw [gsteps_top poly k (by omega), BitVec.getLsbD_twoPow]
          simp
          omega
        · simp
      rw [h0, Bool.xor_false]
      congr 1
      rw [decide_eq_decide]
      omega

theorem pmul_top_eq {w : Nat} (poly b : BitVec (w + 1)) : pmul poly (topBit w) b (w + 1) = b := by
  apply BitVec.eq_of_getLsbD_eq
  intro j hj
  rw [pmul_top poly b (w + 1) (Nat.le_refl _)]
  simp

theorem gsteps_comm {w : Nat} (poly : BitVec w) (m n : Nat) (x : BitVec w) :
    gsteps poly m (gsteps poly n x) = gsteps poly n (gsteps poly m x) := by
  rw [← gsteps_add, ← gsteps_add, Nat.add_comm]

theorem gsteps_pmul {w : Nat} (poly a b : BitVec w) (n k : Nat) :
    gsteps poly n (pmul poly a b k) = pmul poly (gsteps poly n a) b k := by
  induction k with
  | zero => exact gsteps_zero poly n
  | succ k ih =>
    rw [pmul, gsteps_xor, ih, pmul]
    congr 1
    split
    · exact gsteps_comm poly n k a
    · exact gsteps_zero poly n

/-- `n` steps are multiplication by the `n`-th power of the step. -/
theorem gsteps_eq_pmul {w : Nat} (poly b : BitVec (w + 1)) (n : Nat) :
    gsteps poly n b = pmul poly (gsteps poly n (topBit w)) b (w + 1) := by
  conv => lhs; rw [← pmul_top_eq poly b]
  rw [gsteps_pmul]

/-- Fast version of `pmul` for evaluation: carries `x^k * a` along. -/
def fmul {w : Nat} (poly b : BitVec w) : Nat → Nat → BitVec w → BitVec w → BitVec w
  | 0, _, _, acc => acc
  | n + 1, k, a, acc => fmul poly b n (k + 1) (gstep poly a) (if b.getLsbD (w - 1 - k) then acc ^^^ a else acc)

theorem fmul_eq {w : Nat} (poly a b : BitVec w) (n k : Nat) :
    fmul poly b n k (gsteps poly k a) (pmul poly a b k) = pmul poly a b (k + n) := by
  induction n generalizing k with
  | zero => rfl
  | succ n ih =>
    have h : (if b.getLsbD (w - 1 - k) then pmul poly a b k ^^^ gsteps poly k a else pmul poly a b k) = pmul poly a b (k + 1) := by
      rw [pmul]
      split <;> simp
    rw [fmul, h, show gstep poly (gsteps poly k a) = gsteps poly (k + 1) a from rfl, ih]
    congr 1
    omega

def fsq {w : Nat} (poly a : BitVec w) : BitVec w := fmul poly a w 0 a 0#w

theorem fsq_eq {w : Nat} (poly : BitVec (w + 1)) (n : Nat) :
    fsq poly (gsteps poly n (topBit w)) = gsteps poly (n + n) (topBit w) := by
  rw [gsteps_add, gsteps_eq_pmul poly (gsteps poly n (topBit w)) n, fsq]
  have := fmul_eq poly (gsteps poly n (topBit w)) (gsteps poly n (topBit w)) (w + 1) 0
  rw [Nat.zero_add] at this
  exact this

/-- Powers by squaring, most significant bit first. -/
def fpow {w : Nat} (poly : BitVec (w + 1)) : List Bool → BitVec (w + 1) → BitVec (w + 1)
  | [], a => a
  | b :: bs, a => fpow poly bs (if b then gstep poly (fsq poly a) else fsq poly a)

def bitsVal : List Bool → Nat → Nat
  | [], n => n
  | b :: bs, n => bitsVal bs (2 * n + b.toNat)

theorem fpow_eq {w : Nat} (poly : BitVec (w + 1)) (bs : List Bool) (n : Nat) :
    fpow poly bs (gsteps poly n (topBit w)) = gsteps poly (bitsVal bs n) (topBit w) := by
  induction bs generalizing n with
  | nil => rfl
  | cons b bs ih =>
    rw [fpow, bitsVal, ← ih]
    congr 1
    rw [fsq_eq, ← Nat.two_mul]
    cases b
    · rfl
    · rfl

/-- A period is minimal when no maximal proper divisor of it is one. -/
theorem minimalPeriod_of {α : Type} (f : α → α) (x : α) (n : Nat) (h : f^[n] x = x)
    (hp : ∀ p, p.Prime → p ∣ n → f^[n / p] x ≠ x) : Function.minimalPeriod f x = n := by
  have hd : Function.minimalPeriod f x ∣ n := Function.IsPeriodicPt.minimalPeriod_dvd h
  obtain ⟨c, hc⟩ := hd
  by_cases h1 : c = 1
  · rw [hc, h1, Nat.mul_one]
  · exfalso
    obtain ⟨p, hpp, k, hk⟩ := Nat.exists_prime_and_dvd h1
    have hpos : 0 < p := hpp.pos
    refine hp p hpp ⟨Function.minimalPeriod f x * k, by rw [hc, hk]; ring⟩ ?_
    have : n / p = Function.minimalPeriod f x * k := by
      rw [hc, hk, show Function.minimalPeriod f x * (p * k) = p * (Function.minimalPeriod f x * k) by ring,
        Nat.mul_div_cancel_left _ hpos]
    rw [this]
    exact (Function.isPeriodicPt_minimalPeriod f x).mul_const k

end FinProto
