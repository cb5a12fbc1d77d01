import Verif.Spec.HashValue
import Verif.Proofs.ObjectMethods
import Mathlib.Data.Nat.ModEq
import Mathlib.Tactic.Ring
/-
Helper lemmas for C104.
-/
namespace FinProto

theorem hashValues_map (vs : List Val) : hashValues vs = vs.map hashValue := by
  induction vs with
  | nil => rfl
  | cons v vs ih => simp [hashValues, ih]

theorem fold_weighed (s : List (BitVec 16)) : ∀ h : BitVec 32,
    (s.foldl (fun h c => 31 * h + c.setWidth 32) h).toNat = (h.toNat * 31 ^ s.length + weighed (s.map BitVec.toNat)) % 2 ^ 32 := by
  induction s with
  | nil =>
    intro h
    have := h.isLt
    simp only [List.foldl_nil, List.length_nil, List.map_nil, weighed, Nat.pow_zero, Nat.mul_one, Nat.add_zero]
    exact (Nat.mod_eq_of_lt this).symm
  | cons c s ih =>
    intro h
    rw [List.foldl_cons, ih]
    simp only [List.map_cons, weighed, List.length_cons, List.length_map, BitVec.toNat_add, BitVec.toNat_mul, BitVec.toNat_setWidth]
    have hc : c.toNat % 2 ^ 32 = c.toNat := Nat.mod_eq_of_lt (by have := c.isLt; omega)
    have h31 : BitVec.toNat (31 : BitVec 32) = 31 := rfl
    rw [hc, h31]
    have e : h.toNat * 31 ^ (s.length + 1) + (c.toNat * 31 ^ s.length + weighed (s.map BitVec.toNat)) =
        (31 * h.toNat + c.toNat) * 31 ^ s.length + weighed (s.map BitVec.toNat) := by ring
    rw [e]
    show Nat.ModEq (2 ^ 32) _ _
    refine Nat.ModEq.add_right _ (Nat.ModEq.mul_right _ ?_)
    exact (Nat.mod_modEq _ _).trans ((Nat.mod_modEq _ _).add_right _)

theorem hashSeq_value (f : Val → Except JErr (BitVec 32)) (vs : List Val) : ∀ (h r : BitVec 32),
    (∀ v ∈ vs, ∀ k, f v = .ok k → k.toNat = hashValue v) → hashSeq f h vs = .ok r →
    r.toNat = (h.toNat * 31 ^ vs.length + weighed (hashValues vs)) % 2 ^ 32 := by
  induction vs with
  | nil =>
    intro h r _ hr
    simp only [hashSeq, Except.ok.injEq] at hr
    subst hr
    have := h.isLt
    simp only [hashValues, weighed, List.length_nil, Nat.pow_zero, Nat.mul_one, Nat.add_zero]
    exact (Nat.mod_eq_of_lt this).symm
  | cons v vs ih =>
    intro h r hf hr
    simp only [hashSeq] at hr
    rcases hv : f v with e | k
    · rw [hv] at hr; cases hr
    · rw [hv] at hr
      rw [ih _ r (fun x hx => hf x (List.mem_cons_of_mem _ hx)) hr]
      have hk := hf v List.mem_cons_self k hv
      simp only [hashValues, weighed, List.length_cons, BitVec.toNat_add, BitVec.toNat_mul, hk]
      have h31 : BitVec.toNat (31 : BitVec 32) = 31 := rfl
      have hl : (hashValues vs).length = vs.length := by simp [hashValues_map]
      rw [h31, hl]
      have e : h.toNat * 31 ^ (vs.length + 1) + (hashValue v * 31 ^ vs.length + weighed (hashValues vs)) =
          (31 * h.toNat + hashValue v) * 31 ^ vs.length + weighed (hashValues vs) := by ring
      rw [e]
      show Nat.ModEq (2 ^ 32) _ _
      refine Nat.ModEq.add_right _ (Nat.ModEq.mul_right _ ?_)
      exact (Nat.mod_modEq _ _).trans ((Nat.mod_modEq _ _).add_right _)

theorem longHash_value (v : BitVec 64) : (longHash v).toNat = (v.toNat / 2 ^ 32) ^^^ (v.toNat % 2 ^ 32) := by
  have hlt : v.toNat / 2 ^ 32 < 2 ^ 32 := by have := v.isLt; omega
  have hm : v.toNat / 2 ^ 32 % 2 ^ 32 = v.toNat / 2 ^ 32 := Nat.mod_eq_of_lt hlt
  unfold longHash
  rw [BitVec.toNat_setWidth, BitVec.toNat_xor, BitVec.toNat_ushiftRight, Nat.shiftRight_eq_div_pow, Nat.xor_mod_two_pow, hm, Nat.xor_comm]

theorem signed_value {w : Nat} (v : BitVec w) : (v.signExtend 32).toNat = (v.toInt % 2 ^ 32).toNat := by
  simp [BitVec.signExtend, BitVec.toNat_ofInt]

theorem num_value (n : Num) : n.hash.toNat = hashOfNum n := by
  obtain ⟨t, v⟩ := n
  cases t with
  | i8 => exact signed_value v
  | i16 => exact signed_value v
  | i32 =>
    have h : ∀ u : BitVec 32, u.toNat = (u.toInt % 2 ^ 32).toNat := by
      intro u
      have := signed_value u
      rwa [BitVec.signExtend_eq] at this
    exact h v
  | i64 => exact longHash_value v
  | f32 =>
    have h : ∀ u : BitVec 32, (canon32 u).toNat = if (⟨.f32, u⟩ : Num).isNaN then 0x7FC00000 else u.toNat := by
      intro u
      rw [canon32_eq]
      split <;> rfl
    exact h v
  | f64 =>
    have h : ∀ u : BitVec 64, (longHash (canon64 u)).toNat =
        if (⟨.f64, u⟩ : Num).isNaN then 0x7FF80000 else (u.toNat / 2 ^ 32) ^^^ (u.toNat % 2 ^ 32) := by
      intro u
      rw [canon64_eq]
      split
      · rfl
      · exact longHash_value u
    exact h v

theorem hashCode_value (n : Nat) : ∀ v, shaped v = true → ∀ h, v.hashCode n = .ok h → h.toNat = hashValue v := by
  induction n with
  | zero => intro v _ h hh; cases hh
  | succ n ih =>
    intro v hs h hh
    cases v with
    | null => simp only [Val.hashCode, Except.ok.injEq] at hh; subst hh; rfl
    | num x => simp only [Val.hashCode, Except.ok.injEq] at hh; subst hh; exact num_value x
    | str s =>
      simp only [Val.hashCode, Except.ok.injEq] at hh; subst hh
      have := fold_weighed s 0
      simp only [hashValue]
      rw [strHash, this]
      simp
    | list xs =>
      simp only [shaped] at hs
      rw [shapeds_iff] at hs
      have := hashSeq_value _ xs 1 h (fun v hv k hk => ih v (hs v hv) k hk) hh
      rw [this]
      simp [hashValue]
    | obj c fs =>
      have hs0 := hs
      simp only [shaped, Bool.and_eq_true, decide_eq_true_eq] at hs
      rw [hashCode_obj n c fs hs.1] at hh
      split at hh
      · exact ih _ hs0 h hh
      · have hs2 := (shapeds_iff fs).1 hs.2
        have := hashSeq_value _ fs 1 h (fun v hv k hk => ih v (hs2 v hv) k hk) hh
        rw [this]
        simp [hashValue]

theorem weighed_set (l : List Nat) (a b : Nat) : ∀ i, l[i]? = some a → ∃ k,
    weighed l + b * 31 ^ k = weighed (l.set i b) + a * 31 ^ k := by
  induction l with
  | nil => intro i h; simp at h
  | cons x l ih =>
    intro i h
    cases i with
    | zero =>
      simp only [List.getElem?_cons_zero, Option.some.injEq] at h
      subst h
      refine ⟨l.length, ?_⟩
      simp only [List.set_cons_zero, weighed]
      omega
    | succ i =>
      simp only [List.getElem?_cons_succ] at h
      obtain ⟨k, hk⟩ := ih i h
      refine ⟨k, ?_⟩
      simp only [List.set_cons_succ, weighed, List.length_set]
      omega

theorem cancel31 (k a b : Nat) (ha : a < 2 ^ 32) (hb : b < 2 ^ 32) (h : a * 31 ^ k % 2 ^ 32 = b * 31 ^ k % 2 ^ 32) : a = b := by
  have hc : Nat.gcd (2 ^ 32) (31 ^ k) = 1 := by
    apply Nat.Coprime.pow
    decide
  have : a ≡ b [MOD 2 ^ 32] := Nat.ModEq.cancel_right_of_coprime hc h
  rwa [Nat.ModEq, Nat.mod_eq_of_lt ha, Nat.mod_eq_of_lt hb] at this

end FinProto
