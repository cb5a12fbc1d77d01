import Verif.Proofs.HashValue
import Verif.Props.Objects
/-
C104: the value of `hashCode`.
-/
namespace FinProto

/-- **C104.** Whenever `hashCode` of a message (or of a value in a field) returns, it returns the number the documentation of the JDK gives for its contents. -/
theorem C104_value (v : Val) (hv : wellTyped v = true) (n : Nat) (h : BitVec 32) (hh : v.hashCode n = .ok h) : h.toNat = hashValue v :=
  hashCode_value n v (shaped_of_wellTyped v hv) h hh

/-- Two messages that differ in one field. -/
private theorem one_field {c : Cls} {fs : List Val} {i : Nat} {x y : Val} (hx : fs[i]? = some x)
    (heq : hashValue (.obj c fs) = hashValue (.obj c (fs.set i y))) (h1 : hashValue x < 2 ^ 32) (h2 : hashValue y < 2 ^ 32) : hashValue x = hashValue y := by
  have hg : (fs.map hashValue)[i]? = some (hashValue x) := by simp [hx]
  obtain ⟨k, hk⟩ := weighed_set (fs.map hashValue) (hashValue x) (hashValue y) i hg
  simp only [hashValue, List.length_set, hashValues_map] at heq
  have hset : (fs.set i y).map hashValue = (fs.map hashValue).set i (hashValue y) := by rw [List.map_set]
  rw [hset] at heq
  have hm : weighed (fs.map hashValue) ≡ weighed ((fs.map hashValue).set i (hashValue y)) [MOD 2 ^ 32] :=
    Nat.ModEq.add_left_cancel' _ heq
  have h3 : weighed (fs.map hashValue) + hashValue y * 31 ^ k ≡ weighed ((fs.map hashValue).set i (hashValue y)) + hashValue x * 31 ^ k [MOD 2 ^ 32] := by
    rw [hk]
  have h4 : hashValue y * 31 ^ k ≡ hashValue x * 31 ^ k [MOD 2 ^ 32] := Nat.ModEq.add_left_cancel hm h3
  exact (cancel31 k _ _ h2 h1 h4).symm

private theorem hashValue_lt (v : Val) : hashValue v < 2 ^ 32 := by
  cases v with
  | null => simp [hashValue]
  | num n => simp only [hashValue]; rw [← num_value]; exact n.hash.isLt
  | str s => simp only [hashValue]; exact Nat.mod_lt _ (by decide)
  | list xs => simp only [hashValue]; exact Nat.mod_lt _ (by decide)
  | obj c fs => simp only [hashValue]; exact Nat.mod_lt _ (by decide)

/-- **C104.** Two messages that differ in one field have different hash codes whenever the two values of that field have different hash codes. -/
theorem C104_one_field (c : Cls) (fs : List Val) (i : Nat) (x y : Val) (hv : wellTyped (.obj c fs) = true) (hv' : wellTyped (.obj c (fs.set i y)) = true)
    (hx : fs[i]? = some x) (hne : hashValue x ≠ hashValue y) (n m : Nat) (h h' : BitVec 32)
    (hh : (Val.obj c fs).hashCode n = .ok h) (hh' : (Val.obj c (fs.set i y)).hashCode m = .ok h') : h ≠ h' := by
  intro e
  subst e
  have h1 := C104_value _ hv n h hh
  have h2 := C104_value _ hv' m h hh'
  exact hne (one_field hx (h1.symm.trans h2) (hashValue_lt x) (hashValue_lt y))

/-- **C104.** … in particular if it is a field of type `int`, `short` or `byte` and its values differ. -/
theorem C104_int_field (c : Cls) (fs : List Val) (i : Nat) (t : PTy) (ht : t = .i8 ∨ t = .i16 ∨ t = .i32) (x y : BitVec t.bits) (hxy : x ≠ y)
    (hv : wellTyped (.obj c fs) = true) (hv' : wellTyped (.obj c (fs.set i (.num ⟨t, y⟩))) = true)
    (hx : fs[i]? = some (.num ⟨t, x⟩)) (n m : Nat) (h h' : BitVec 32)
    (hh : (Val.obj c fs).hashCode n = .ok h) (hh' : (Val.obj c (fs.set i (.num ⟨t, y⟩))).hashCode m = .ok h') : h ≠ h' := by
  refine C104_one_field c fs i _ _ hv hv' hx ?_ n m h h' hh hh'
  intro e
  simp only [hashValue, hashOfNum] at e
  have key : ∀ w, w ≤ 32 → ∀ u v : BitVec w, (u.toInt % 2 ^ 32).toNat = (v.toInt % 2 ^ 32).toNat → u = v := by
    intro w hw u v he
    apply BitVec.eq_of_toInt_eq
    have hp : (2 : Int) ^ w ≤ 2 ^ 32 := by
      have := Nat.pow_le_pow_right (show 0 < 2 by decide) hw
      exact_mod_cast this
    have u1 := BitVec.toInt_lt (x := u)
    have u2 := BitVec.le_toInt (x := u)
    have v1 := BitVec.toInt_lt (x := v)
    have v2 := BitVec.le_toInt (x := v)
    have hp2 : (2 : Int) ^ (w - 1) ≤ 2 ^ 31 := by
      have := Nat.pow_le_pow_right (show 0 < 2 by decide) (show w - 1 ≤ 31 by omega)
      exact_mod_cast this
    omega
  rcases ht with rfl | rfl | rfl
  · exact hxy (key _ (by decide) x y e)
  · exact hxy (key _ (by decide) x y e)
  · exact hxy (key _ (by decide) x y e)

/-- **C104.** For `long` fields and strings this is false: different order numbers and different texts may collide. -/
theorem C104_collisions :
    hashValue (.num ⟨.i64, 0⟩) = hashValue (.num ⟨.i64, 0xFFFFFFFFFFFFFFFF⟩) ∧ hashValue (.str (js "Aa")) = hashValue (.str (js "BB")) := by
  decide +kernel

/-! ### Examples -/

private def exHash (status : BitVec 8) : List Val := [.str (js "A1"), .num ⟨.i8, status⟩, .null]

example : wellTyped (.obj .risk_RiskResult (exHash 3)) = true ∧ wellTyped (.obj .risk_RiskResult (exHash 0xFF)) = true := by decide +kernel
/-- `((31 + (65 * 31 + 49)) * 31 + 3) * 31 + 0 = 2013388`. -/
example : ((Val.obj .risk_RiskResult (exHash 3)).hashCode 3).toOption = some 2013388 ∧ hashValue (.obj .risk_RiskResult (exHash 3)) = 2013388 := by decide +kernel
example := C104_value (.obj .risk_RiskResult (exHash 3)) (by decide +kernel) 3 2013388 (by rfl)
example := C104_int_field .risk_RiskResult (exHash 3) 1 .i8 (.inl rfl) 3 0xFF (by decide) (by decide +kernel) (by decide +kernel) rfl 3 3 2013388 2013264 (by rfl) (by rfl)
example := C104_one_field .risk_RiskResult (exHash 3) 0 (.str (js "A1")) (.str (js "A2")) (by decide +kernel) (by decide +kernel) rfl (by decide +kernel) 3 3 2013388
  2014349 (by rfl) (by rfl)

end FinProto
