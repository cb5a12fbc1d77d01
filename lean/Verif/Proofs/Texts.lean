import Verif.Proofs.ToString
import Verif.Spec.Texts
/-
Helper lemmas for C100: a number can be read back from its decimal form.
-/
namespace FinProto

/-- The number a row of digits stands for. -/
def readDigits (s : JStr) : Nat := s.foldl (fun a c => 10 * a + (c.toNat - 48)) 0

theorem readDigits_digits (fuel : Nat) : ∀ n, n < 10 ^ fuel → 0 < fuel → readDigits (digits fuel n) = n := by
  induction fuel with
  | zero => intro n _ h; omega
  | succ fuel ih =>
    intro n hn _
    have hd : ∀ d, d < 10 → (BitVec.ofNat 16 (48 + d)).toNat - 48 = d := by
      intro d hd
      rw [BitVec.toNat_ofNat, Nat.mod_eq_of_lt (by omega)]
      omega
    simp only [digits]
    by_cases h : n < 10
    · rw [if_pos h]
      exact (Nat.zero_add _).trans (hd n h)
    · rw [if_neg h]
      have hf : 0 < fuel := by
        cases fuel with
        | zero => simp at hn; omega
        | succ _ => omega
      have := ih (n / 10) (by rw [Nat.pow_succ] at hn; omega) hf
      rw [readDigits] at this
      rw [readDigits, List.foldl_append, this]
      simp only [List.foldl_cons, List.foldl_nil]
      rw [hd _ (Nat.mod_lt n (by omega))]
      omega

/-- The first digit is none that looks like a minus sign. -/
theorem digits_head (fuel : Nat) : ∀ n c, (digits fuel n).head? = some c → 48 ≤ c.toNat := by
  induction fuel with
  | zero => intro n c h; cases h
  | succ fuel ih =>
    intro n c h
    have hd : ∀ d, d < 10 → 48 ≤ (BitVec.ofNat 16 (48 + d)).toNat := by
      intro d hd
      rw [BitVec.toNat_ofNat, Nat.mod_eq_of_lt (by omega)]
      omega
    simp only [digits] at h
    by_cases hn : n < 10
    · rw [if_pos hn] at h
      cases h
      exact hd n hn
    · rw [if_neg hn] at h
      cases hl : digits fuel (n / 10) with
      | nil =>
        rw [hl] at h
        cases h
        exact hd _ (Nat.mod_lt n (by omega))
      | cons a l =>
        rw [hl] at h
        exact ih (n / 10) c (by rw [hl]; exact h)

theorem intStr_inj {i j : Int} (hi : i.natAbs < 10 ^ 20) (hj : j.natAbs < 10 ^ 20) (h : intStr i = intStr j) : i = j := by
  have hm : js "-" = [45#16] := rfl
  have clash : ∀ m n : Nat, js "-" ++ digits 20 m ≠ digits 20 n := by
    intro m n e
    have := digits_head 20 n 45#16 (by rw [← e, hm]; rfl)
    revert this
    decide
  unfold intStr at h
  by_cases h1 : i < 0 <;> by_cases h2 : j < 0
  · rw [if_pos h1, if_pos h2] at h
    have := congrArg readDigits (List.append_cancel_left h)
    rw [readDigits_digits 20 _ hi (by omega), readDigits_digits 20 _ hj (by omega)] at this
    omega
  · rw [if_pos h1, if_neg h2] at h
    exact absurd h (clash _ _)
  · rw [if_neg h1, if_pos h2] at h
    exact absurd h.symm (clash _ _)
  · rw [if_neg h1, if_neg h2] at h
    have := congrArg readDigits h
    rw [readDigits_digits 20 _ hi (by omega), readDigits_digits 20 _ hj (by omega)] at this
    omega

theorem decimal_inj (t : PTy) (u v : BitVec t.bits) (h : js (toString u.toInt) = js (toString v.toInt)) : u = v := by
  rw [← intStr_eq _ (natAbs_bound t u), ← intStr_eq _ (natAbs_bound t v)] at h
  exact BitVec.eq_of_toInt_eq (intStr_inj (natAbs_bound t u) (natAbs_bound t v) h)

theorem keyText_inj {k k' : Key} (ha : k.alike k' = true) (h : keyText k = keyText k') : k = k' := by
  cases k <;> cases k' <;> try cases ha
  · rw [decimal_inj .i32 _ _ h]
  · rw [decimal_inj .i16 _ _ h]
  · exact congrArg Key.str h

end FinProto
