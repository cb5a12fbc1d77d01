import Verif.Proofs.ObjectTables
import Verif.Proofs.Canonical
/-
Helper lemmas about equals, hashCode, toString and the accessors.
-/
namespace FinProto

/-! ### Shapes -/

mutual
/-- Objects have as many fields as their class. -/
def shaped : Val → Bool
  | .obj c fs => decide (fs.length = (layout c).length) && shapeds fs
  | .list xs => shapeds xs
  | _ => true
def shapeds : List Val → Bool
  | [] => true
  | v :: vs => shaped v && shapeds vs
end

theorem shapeds_iff (vs : List Val) : shapeds vs = true ↔ ∀ v ∈ vs, shaped v = true := by
  induction vs with
  | nil => simp [shapeds]
  | cons v vs ih => simp [shapeds, ih]

def ShapeP (v : Val) : Prop := (∀ t, hasType t v = true → shaped v = true) ∧ (∀ e, elemHasType e v = true → shaped v = true)

theorem shape_fields (fs : List Val) (h : ∀ x ∈ fs, ShapeP x) : ∀ ts, fieldsHaveType ts fs = true → shapeds fs = true := by
  induction fs with
  | nil => intros; rfl
  | cons v vs ih =>
    intro ts ht
    cases ts with
    | nil => simp [fieldsHaveType] at ht
    | cons t ts =>
      simp only [fieldsHaveType, Bool.and_eq_true] at ht
      simp only [shapeds, Bool.and_eq_true]
      exact ⟨(h v (by simp)).1 t ht.1, ih (fun x hx => h x (by simp [hx])) ts ht.2⟩

theorem shape_elems (fs : List Val) (h : ∀ x ∈ fs, ShapeP x) : ∀ e, elemsHaveType e fs = true → shapeds fs = true := by
  induction fs with
  | nil => intros; rfl
  | cons v vs ih =>
    intro e ht
    simp only [elemsHaveType, Bool.and_eq_true] at ht
    simp only [shapeds, Bool.and_eq_true]
    exact ⟨(h v (by simp)).2 e ht.1, ih (fun x hx => h x (by simp [hx])) e ht.2⟩

theorem shapeP (v : Val) : ShapeP v := by
  refine Val.ind ?_ ?_ ?_ ?_ ?_ v
  · exact ⟨fun _ _ => rfl, fun _ _ => rfl⟩
  · exact fun _ => ⟨fun _ _ => rfl, fun _ _ => rfl⟩
  · exact fun _ => ⟨fun _ _ => rfl, fun _ _ => rfl⟩
  · intro xs h
    refine ⟨fun t ht => ?_, fun e he => by simp [elemHasType] at he⟩
    cases t <;> simp [hasType] at ht
    exact shape_elems xs h _ ht
  · intro c fs h
    have key : fieldsHaveType (javaTypes c) fs = true → shaped (.obj c fs) = true := by
      intro ht
      simp only [shaped, Bool.and_eq_true, decide_eq_true_eq]
      refine ⟨?_, shape_fields fs h _ ht⟩
      rw [fields_length c fs ht]
      simp [wire]
    constructor
    · intro t ht
      simp only [hasType, Bool.and_eq_true] at ht
      exact key ht.2
    · intro t ht
      simp only [elemHasType, Bool.and_eq_true] at ht
      exact key ht.2

theorem shaped_of_wellTyped (v : Val) (h : wellTyped v = true) : shaped v = true := by
  cases v with
  | obj c fs => exact (shapeP _).1 .codec h
  | _ => simp [wellTyped] at h

/-! ### equals -/

theorem and_shift (n m k : Nat) : n &&& (m <<< k) = ((n >>> k) &&& m) <<< k := by
  apply Nat.eq_of_testBit_eq
  intro i
  simp only [Nat.testBit_and, Nat.testBit_shiftLeft, Nat.testBit_shiftRight]
  by_cases h : k ≤ i
  · simp [h, Nat.add_sub_cancel' h]
  · simp [h]

theorem mask_iff (n k l : Nat) : n &&& ((2 ^ k - 1) <<< l) = (2 ^ k - 1) <<< l ↔ n / 2 ^ l % 2 ^ k = 2 ^ k - 1 := by
  rw [and_shift, Nat.and_two_pow_sub_one_eq_mod, Nat.shiftRight_eq_div_pow, Nat.shiftLeft_eq, Nat.shiftLeft_eq]
  constructor
  · intro h; exact Nat.eq_of_mul_eq_mul_right (Nat.two_pow_pos l) h
  · intro h; rw [h]

theorem canon32_iff (v : BitVec 32) :
    (v &&& 0x7F800000#32 = 0x7F800000#32 ∧ v &&& 0x007FFFFF#32 ≠ 0) ↔ (⟨.f32, v⟩ : Num).isNaN = true := by
  have h1 := mask_iff v.toNat 8 23
  have h2 := Nat.and_two_pow_sub_one_eq_mod v.toNat 23
  simp only [Num.isNaN, Bool.and_eq_true, beq_iff_eq, bne_iff_ne, ne_eq, ← BitVec.toNat_inj, BitVec.toNat_and]
  show (v.toNat &&& (2 ^ 8 - 1) <<< 23 = (2 ^ 8 - 1) <<< 23 ∧ ¬ v.toNat &&& (2 ^ 23 - 1) = 0) ↔ _
  rw [h1, h2]
  exact Iff.rfl

theorem canon64_iff (v : BitVec 64) :
    (v &&& 0x7FF0000000000000#64 = 0x7FF0000000000000#64 ∧ v &&& 0x000FFFFFFFFFFFFF#64 ≠ 0) ↔ (⟨.f64, v⟩ : Num).isNaN = true := by
  have h1 := mask_iff v.toNat 11 52
  have h2 := Nat.and_two_pow_sub_one_eq_mod v.toNat 52
  simp only [Num.isNaN, Bool.and_eq_true, beq_iff_eq, bne_iff_ne, ne_eq, ← BitVec.toNat_inj, BitVec.toNat_and]
  show (v.toNat &&& (2 ^ 11 - 1) <<< 52 = (2 ^ 11 - 1) <<< 52 ∧ ¬ v.toNat &&& (2 ^ 52 - 1) = 0) ↔ _
  rw [h1, h2]
  exact Iff.rfl

theorem canon32_eq (v : BitVec 32) : canon32 v = if (⟨.f32, v⟩ : Num).isNaN = true then 0x7FC00000#32 else v := by
  simp only [canon32, canon32_iff]

theorem canon64_eq (v : BitVec 64) : canon64 v = if (⟨.f64, v⟩ : Num).isNaN = true then 0x7FF8000000000000#64 else v := by
  simp only [canon64, canon64_iff]

theorem canon32_inj (x y : BitVec 32) : canon32 x = canon32 y ↔
    x = y ∨ ((⟨.f32, x⟩ : Num).isNaN = true ∧ (⟨.f32, y⟩ : Num).isNaN = true) := by
  rw [canon32_eq, canon32_eq]
  by_cases hx : (⟨.f32, x⟩ : Num).isNaN = true <;> by_cases hy : (⟨.f32, y⟩ : Num).isNaN = true
  · simp [hx, hy]
  · rw [if_pos hx, if_neg hy]
    constructor
    · intro h; rw [← h] at hy; exact absurd (by decide) hy
    · rintro (h | h)
      · rw [h] at hx; exact absurd hx hy
      · exact absurd h.2 hy
  · rw [if_neg hx, if_pos hy]
    constructor
    · intro h; rw [h] at hx; exact absurd (by decide) hx
    · rintro (h | h)
      · rw [h] at hx; exact absurd hy hx
      · exact absurd h.1 hx
  · simp [hx, hy]

theorem canon64_inj (x y : BitVec 64) : canon64 x = canon64 y ↔
    x = y ∨ ((⟨.f64, x⟩ : Num).isNaN = true ∧ (⟨.f64, y⟩ : Num).isNaN = true) := by
  rw [canon64_eq, canon64_eq]
  by_cases hx : (⟨.f64, x⟩ : Num).isNaN = true <;> by_cases hy : (⟨.f64, y⟩ : Num).isNaN = true
  · simp [hx, hy]
  · rw [if_pos hx, if_neg hy]
    constructor
    · intro h; rw [← h] at hy; exact absurd (by decide) hy
    · rintro (h | h)
      · rw [h] at hx; exact absurd hx hy
      · exact absurd h.2 hy
  · rw [if_neg hx, if_pos hy]
    constructor
    · intro h; rw [h] at hx; exact absurd (by decide) hx
    · rintro (h | h)
      · rw [h] at hx; exact absurd hy hx
      · exact absurd h.1 hx
  · simp [hx, hy]

theorem Num.mk_inj' (t : PTy) (a b : BitVec t.bits) : (⟨t, a⟩ : Num) = ⟨t, b⟩ ↔ a = b := by simp

theorem eqv_iff (a b : Num) : a.eqv b = true ↔ sameNum a b := by
  obtain ⟨t, x⟩ := a
  obtain ⟨s, y⟩ := b
  simp only [Num.eqv, decide_eq_true_eq, sameNum]
  by_cases hts : t = s
  · subst hts
    cases t with
    | f32 =>
      rw [Num.mk_inj' .f32 x y]
      refine (Num.mk_inj' .f32 (canon32 x) (canon32 y)).trans ((canon32_inj x y).trans ?_)
      simp only [true_and]
      exact Iff.rfl
    | f64 =>
      rw [Num.mk_inj' .f64 x y]
      refine (Num.mk_inj' .f64 (canon64 x) (canon64 y)).trans ((canon64_inj x y).trans ?_)
      simp only [true_and]
      exact Iff.rfl
    | _ => simp [Num.canon, Num.isNaN]
  · have : ∀ n : Num, n.canon.ty = n.ty := by rintro ⟨u, z⟩; cases u <;> rfl
    constructor
    · intro h
      have := (this ⟨t, x⟩).symm.trans ((congrArg Num.ty h).trans (this ⟨s, y⟩))
      exact absurd this hts
    · rintro (h | ⟨h, _⟩)
      · exact absurd (congrArg Num.ty h) hts
      · exact absurd h hts

theorem equalsFns_eq (fs : List Val) : Val.equalsFns fs = fs.map fun x y => Val.equals x y := by
  induction fs with
  | nil => rfl
  | cons v vs ih => simp [Val.equalsFns, ih]

theorem equalsList_iff (xs ys : List Val) : Val.equalsList xs ys = true ↔
    xs.length = ys.length ∧ ∀ i (h : i < xs.length) (h' : i < ys.length), xs[i].equals ys[i] = true := by
  induction xs generalizing ys with
  | nil =>
    cases ys <;> simp [Val.equalsList]
  | cons x xs ih =>
    cases ys with
    | nil => simp [Val.equalsList]
    | cons y ys =>
      simp only [Val.equalsList, Bool.and_eq_true, ih, List.length_cons, Nat.add_right_cancel_iff]
      constructor
      · rintro ⟨h1, h2, h3⟩
        refine ⟨h2, fun i h h' => ?_⟩
        cases i with
        | zero => exact h1
        | succ i => exact h3 i (by omega) (by omega)
      · rintro ⟨h2, h3⟩
        exact ⟨h3 0 (by omega) (by omega), h2, fun i h h' => h3 (i + 1) (by omega) (by omega)⟩

theorem equals_obj (c d : Cls) (fs gs : List Val) (hf : fs.length = (layout c).length) (hg : gs.length = (layout d).length) :
    (Val.obj c fs).equals (.obj d gs) = true ↔ c = d ∧ Val.equalsList fs gs = true := by
  simp only [Val.equals, Bool.and_eq_true, decide_eq_true_eq, eqs_table, equalsFns_eq, List.all_map, List.all_eq_true,
    List.mem_range, Function.comp_apply, List.getElem?_map]
  constructor
  · rintro ⟨rfl, h⟩
    refine ⟨rfl, (equalsList_iff _ _).mpr ⟨hf.trans hg.symm, fun i h1 h2 => ?_⟩⟩
    have := h i (hf ▸ h1)
    simpa [List.getElem?_eq_getElem h1, List.getElem?_eq_getElem h2] using this
  · rintro ⟨rfl, h⟩
    refine ⟨rfl, fun i hi => ?_⟩
    have h1 : i < fs.length := hf ▸ hi
    have h2 : i < gs.length := hg ▸ hi
    have := ((equalsList_iff _ _).mp h).2 i h1 h2
    simpa [List.getElem?_eq_getElem h1, List.getElem?_eq_getElem h2] using this

theorem equalsList_same (xs : List Val) (hx : shapeds xs = true)
    (h : ∀ x ∈ xs, ∀ b, shaped x = true → shaped b = true → (x.equals b = true ↔ same x b)) :
    ∀ ys, shapeds ys = true → (Val.equalsList xs ys = true ↔ sameAll xs ys) := by
  induction xs with
  | nil => intro ys _; cases ys <;> simp [Val.equalsList, sameAll]
  | cons x xs ih =>
    intro ys hy
    simp only [shapeds, Bool.and_eq_true] at hx
    cases ys with
    | nil => simp [Val.equalsList, sameAll]
    | cons y ys =>
      simp only [shapeds, Bool.and_eq_true] at hy
      simp only [Val.equalsList, sameAll, Bool.and_eq_true, ih hx.2 (fun x hx => h x (by simp [hx])) ys hy.2,
        h x (by simp) y hx.1 hy.1, List.cons.injEq]
      constructor
      · rintro ⟨a, b⟩; exact ⟨y, ys, ⟨rfl, rfl⟩, a, b⟩
      · rintro ⟨z, zs, ⟨rfl, rfl⟩, a, b⟩; exact ⟨a, b⟩

theorem equals_same (a : Val) : ∀ b, shaped a = true → shaped b = true → (a.equals b = true ↔ same a b) := by
  refine Val.ind (P := fun a => ∀ b, shaped a = true → shaped b = true → (a.equals b = true ↔ same a b)) ?_ ?_ ?_ ?_ ?_ a
  · intro b _ _; cases b <;> simp [Val.equals, same]
  · intro n b _ _; cases b <;> simp [Val.equals, same, eqv_iff]
  · intro n b _ _; cases b <;> simp [Val.equals, same]
    exact ⟨fun h => h.symm, fun h => h.symm⟩
  · intro xs h b hs hb
    cases b <;> simp [Val.equals, same]
    exact equalsList_same xs hs h _ hb
  · intro c fs h b hs hb
    cases b with
    | obj d gs =>
      simp only [shaped, Bool.and_eq_true, decide_eq_true_eq] at hs hb
      rw [equals_obj c d fs gs hs.1 hb.1, equalsList_same fs hs.2 h gs hb.2]
      simp only [same, Val.obj.injEq]
      constructor
      · rintro ⟨rfl, h⟩; exact ⟨gs, ⟨rfl, rfl⟩, h⟩
      · rintro ⟨_, ⟨rfl, rfl⟩, h⟩; exact ⟨rfl, h⟩
    | _ => simp [Val.equals, same]

/-! ### `same` is an equivalence -/

theorem sameNum_refl (a : Num) : sameNum a a := Or.inl rfl
theorem sameNum_symm {a b : Num} (h : sameNum a b) : sameNum b a := by
  rcases h with h | ⟨h1, h2, h3⟩
  · exact Or.inl h.symm
  · exact Or.inr ⟨h1.symm, h3, h2⟩
theorem sameNum_trans {a b c : Num} (h : sameNum a b) (h' : sameNum b c) : sameNum a c := by
  rcases h with rfl | ⟨h1, h2, h3⟩
  · exact h'
  · rcases h' with rfl | ⟨k1, k2, k3⟩
    · exact Or.inr ⟨h1, h2, h3⟩
    · exact Or.inr ⟨h1.trans k1, h2, k3⟩

theorem sameAll_refl (xs : List Val) (h : ∀ x ∈ xs, same x x) : sameAll xs xs := by
  induction xs with
  | nil => simp [sameAll]
  | cons x xs ih => simp only [sameAll]; exact ⟨x, xs, rfl, h x (by simp), ih fun y hy => h y (by simp [hy])⟩

theorem same_refl (a : Val) : same a a := by
  refine Val.ind (P := fun a => same a a) ?_ ?_ ?_ ?_ ?_ a
  · simp [same]
  · intro n; simp only [same]; exact ⟨n, rfl, sameNum_refl n⟩
  · simp [same]
  · intro xs h; simp only [same]; exact ⟨xs, rfl, sameAll_refl xs h⟩
  · intro c xs h; simp only [same]; exact ⟨xs, rfl, sameAll_refl xs h⟩

theorem sameAll_symm (xs : List Val) (h : ∀ x ∈ xs, ∀ b, same x b → same b x) : ∀ ys, sameAll xs ys → sameAll ys xs := by
  induction xs with
  | nil => intro ys hy; simp only [sameAll] at hy; subst hy; simp [sameAll]
  | cons x xs ih =>
    intro ys hy
    simp only [sameAll] at hy
    obtain ⟨z, zs, rfl, h1, h2⟩ := hy
    simp only [sameAll]
    exact ⟨x, xs, rfl, h x (by simp) z h1, ih (fun y hy => h y (by simp [hy])) zs h2⟩

theorem same_symm (a : Val) : ∀ b, same a b → same b a := by
  refine Val.ind (P := fun a => ∀ b, same a b → same b a) ?_ ?_ ?_ ?_ ?_ a
  · intro b h; simp only [same] at h; subst h; simp [same]
  · intro n b h; simp only [same] at h; obtain ⟨y, rfl, h⟩ := h; simp only [same]; exact ⟨n, rfl, sameNum_symm h⟩
  · intro s b h; simp only [same] at h; subst h; simp [same]
  · intro xs ih b h; simp only [same] at h; obtain ⟨y, rfl, h⟩ := h; simp only [same]; exact ⟨xs, rfl, sameAll_symm xs ih y h⟩
  · intro c xs ih b h; simp only [same] at h; obtain ⟨y, rfl, h⟩ := h; simp only [same]; exact ⟨xs, rfl, sameAll_symm xs ih y h⟩

theorem sameAll_trans (xs : List Val) (h : ∀ x ∈ xs, ∀ b c, same x b → same b c → same x c) :
    ∀ ys zs, sameAll xs ys → sameAll ys zs → sameAll xs zs := by
  induction xs with
  | nil => intro ys zs hy hz; simp only [sameAll] at hy; subst hy; exact hz
  | cons x xs ih =>
    intro ys zs hy hz
    simp only [sameAll] at hy
    obtain ⟨y, ys, rfl, h1, h2⟩ := hy
    simp only [sameAll] at hz
    obtain ⟨z, zs, rfl, h3, h4⟩ := hz
    simp only [sameAll]
    exact ⟨z, zs, rfl, h x (by simp) y z h1 h3, ih (fun y hy => h y (by simp [hy])) ys zs h2 h4⟩

theorem same_trans (a : Val) : ∀ b c, same a b → same b c → same a c := by
  refine Val.ind (P := fun a => ∀ b c, same a b → same b c → same a c) ?_ ?_ ?_ ?_ ?_ a
  · intro b d h h'; simp only [same] at h; subst h; exact h'
  · intro n b d h h'
    simp only [same] at h; obtain ⟨y, rfl, h⟩ := h
    simp only [same] at h'; obtain ⟨z, rfl, h'⟩ := h'
    simp only [same]; exact ⟨z, rfl, sameNum_trans h h'⟩
  · intro s b d h h'; simp only [same] at h; subst h; exact h'
  · intro xs ih b d h h'
    simp only [same] at h; obtain ⟨y, rfl, h⟩ := h
    simp only [same] at h'; obtain ⟨z, rfl, h'⟩ := h'
    simp only [same]; exact ⟨z, rfl, sameAll_trans xs ih y z h h'⟩
  · intro c xs ih b d h h'
    simp only [same] at h; obtain ⟨y, rfl, h⟩ := h
    simp only [same] at h'; obtain ⟨z, rfl, h'⟩ := h'
    simp only [same]; exact ⟨z, rfl, sameAll_trans xs ih y z h h'⟩

/-- Without NaNs the same values are identical. -/
theorem sameAll_eq (xs : List Val) (hx : noNaNs xs = true) (h : ∀ x ∈ xs, ∀ b, noNaN x = true → same x b → x = b) :
    ∀ ys, sameAll xs ys → xs = ys := by
  induction xs with
  | nil => intro ys hy; simp only [sameAll] at hy; exact hy.symm
  | cons x xs ih =>
    intro ys hy
    simp only [sameAll] at hy
    obtain ⟨z, zs, rfl, h1, h2⟩ := hy
    simp only [noNaNs, Bool.and_eq_true] at hx
    rw [h x (by simp) z hx.1 h1, ih hx.2 (fun y hy => h y (by simp [hy])) zs h2]

theorem same_eq (a : Val) : ∀ b, noNaN a = true → same a b → a = b := by
  refine Val.ind (P := fun a => ∀ b, noNaN a = true → same a b → a = b) ?_ ?_ ?_ ?_ ?_ a
  · intro b _ h; simp only [same] at h; exact h.symm
  · intro n b hn h
    simp only [same] at h; obtain ⟨y, rfl, h⟩ := h
    rcases h with rfl | ⟨_, h, _⟩
    · rfl
    · simp [noNaN, h] at hn
  · intro s b _ h; simp only [same] at h; exact h.symm
  · intro xs ih b hn h
    simp only [same] at h; obtain ⟨y, rfl, h⟩ := h
    rw [sameAll_eq xs hn ih y h]
  · intro c xs ih b hn h
    simp only [same] at h; obtain ⟨y, rfl, h⟩ := h
    rw [sameAll_eq xs hn ih y h]

/-! ### hashCode -/

theorem hash_same {a b : Num} (h : sameNum a b) : a.hash = b.hash := by
  have := (eqv_iff a b).mpr h
  simp only [Num.eqv, decide_eq_true_eq] at this
  unfold Num.hash
  rw [this]

theorem sameAll_length (xs : List Val) : ∀ ys, sameAll xs ys → xs.length = ys.length := by
  induction xs with
  | nil => intro ys hy; simp only [sameAll] at hy; subst hy; rfl
  | cons x xs ih =>
    intro ys hy
    simp only [sameAll] at hy
    obtain ⟨z, zs, rfl, h1, h2⟩ := hy
    simp [ih zs h2]

theorem hashSeq_same (n : Nat) (f : ∀ a b, shaped a = true → same a b → a.hashCode n = b.hashCode n) :
    ∀ (xs ys : List Val) (h : BitVec 32), shapeds xs = true → sameAll xs ys →
      hashSeq (Val.hashCode n) h xs = hashSeq (Val.hashCode n) h ys := by
  intro xs
  induction xs with
  | nil => intro ys h _ hy; simp only [sameAll] at hy; subst hy; rfl
  | cons x xs ih =>
    intro ys h hs hy
    simp only [sameAll] at hy
    obtain ⟨z, zs, rfl, h1, h2⟩ := hy
    simp only [shapeds, Bool.and_eq_true] at hs
    simp only [hashSeq, f x z hs.1 h1]
    cases z.hashCode n with
    | error e => rfl
    | ok k => exact ih zs _ hs.2 h2

theorem pick_range (fs : List Val) : pick fs (List.range fs.length) = some fs := by
  have key : ∀ (is : List Nat), (∀ i ∈ is, i < fs.length) → pick fs is = some (is.filterMap fun i => fs[i]?) := by
    intro is
    induction is with
    | nil => intro _; rfl
    | cons i is ih =>
      intro h
      have hi : i < fs.length := h i (by simp)
      simp [pick, ih (fun j hj => h j (by simp [hj])), List.getElem?_eq_getElem hi]
  rw [key _ (by simp)]
  congr 1
  have key : ∀ (pre r : List Val), (List.range' pre.length r.length).filterMap (fun i => (pre ++ r)[i]?) = r := by
    intro pre r
    induction r generalizing pre with
    | nil => rfl
    | cons v r ih =>
      have := ih (pre ++ [v])
      simp only [List.length_append, List.length_singleton, List.append_assoc, List.singleton_append] at this
      simp only [List.length_cons, List.range'_succ, List.filterMap_cons, this]
      simp
  have := key [] fs
  simpa [List.range_eq_range'] using this

theorem hashCode_obj (n : Nat) (c : Cls) (fs : List Val) (h : fs.length = (layout c).length) :
    (Val.obj c fs).hashCode (n + 1) =
      if fieldLess c then (Val.obj c fs).hashCode n else hashSeq (Val.hashCode n) 1 fs := by
  simp only [Val.hashCode, hash_table]
  by_cases hc : fieldLess c = true
  · rw [if_pos hc, if_pos hc]
  · rw [if_neg hc, if_neg hc]
    simp only [← h, pick_range]

theorem hashCode_same (n : Nat) : ∀ a b, shaped a = true → same a b → a.hashCode n = b.hashCode n := by
  induction n with
  | zero => intros; rfl
  | succ n ih =>
    intro a b hs h
    cases a with
    | null => simp only [same] at h; subst h; rfl
    | num x => simp only [same] at h; obtain ⟨y, rfl, h⟩ := h; simp only [Val.hashCode, hash_same h]
    | str x => simp only [same] at h; subst h; rfl
    | list x =>
      simp only [same] at h; obtain ⟨y, rfl, h⟩ := h
      simp only [Val.hashCode]
      exact hashSeq_same n ih _ _ _ hs h
    | obj c x =>
      have h0 := h
      have hs0 := hs
      simp only [same] at h; obtain ⟨y, rfl, h⟩ := h
      simp only [shaped, Bool.and_eq_true, decide_eq_true_eq] at hs
      rw [hashCode_obj n c x hs.1, hashCode_obj n c y ((sameAll_length _ _ h).symm.trans hs.1), ih _ _ hs0 h0,
        hashSeq_same n ih _ _ _ hs.2 h]

/-- The hash code does not depend on the stack once it exists. -/
theorem hashSeq_mono (f g : Val → Except JErr (BitVec 32)) (fg : ∀ v k, f v = .ok k → g v = .ok k) :
    ∀ (xs : List Val) (h k : BitVec 32), hashSeq f h xs = .ok k → hashSeq g h xs = .ok k := by
  intro xs
  induction xs with
  | nil => intro h k hk; exact hk
  | cons x xs ih =>
    intro h k hk
    simp only [hashSeq] at hk ⊢
    cases hx : f x with
    | error e => rw [hx] at hk; exact absurd hk (by simp)
    | ok j =>
      rw [hx] at hk
      rw [fg x j hx]
      exact ih _ _ hk

theorem hashCode_succ (n : Nat) : ∀ (v : Val) (k : BitVec 32), v.hashCode n = .ok k → v.hashCode (n + 1) = .ok k := by
  induction n with
  | zero => intro v k h; simp [Val.hashCode] at h
  | succ n ih =>
    intro v k h
    cases v with
    | null => exact h
    | num _ => exact h
    | str _ => exact h
    | list xs => exact hashSeq_mono _ _ ih _ _ _ h
    | obj c fs =>
      rw [Val.hashCode] at h ⊢
      cases hc : (decl c).hash with
      | self => rw [hc] at h; exact ih _ _ h
      | fields is =>
        rw [hc] at h
        simp only at h ⊢
        cases hp : pick fs is with
        | none => rw [hp] at h; exact absurd h (by simp)
        | some vs => rw [hp] at h; exact hashSeq_mono _ _ ih _ _ _ h

theorem hashCode_mono (n m : Nat) (hm : n ≤ m) (v : Val) (k : BitVec 32) (h : v.hashCode n = .ok k) : v.hashCode m = .ok k := by
  obtain ⟨d, rfl⟩ := Nat.exists_eq_add_of_le hm
  clear hm
  induction d with
  | zero => exact h
  | succ d ih => exact hashCode_succ _ _ _ ih

theorem heights_mem (vs : List Val) (v : Val) (h : v ∈ vs) : height v ≤ heights vs := by
  induction vs with
  | nil => simp at h
  | cons x xs ih =>
    simp only [heights]
    rcases List.mem_cons.mp h with rfl | h
    · omega
    · have := ih h; omega

theorem hashables_mem (vs : List Val) : hashables vs = true ↔ ∀ v ∈ vs, hashable v = true := by
  induction vs with
  | nil => simp [hashables]
  | cons v vs ih => simp [hashables, ih]

theorem hashSeq_ok (f : Val → Except JErr (BitVec 32)) : ∀ (xs : List Val) (h : BitVec 32),
    (∀ x ∈ xs, ∃ k, f x = .ok k) → ∃ k, hashSeq f h xs = .ok k := by
  intro xs
  induction xs with
  | nil => intro h _; exact ⟨h, rfl⟩
  | cons x xs ih =>
    intro h hx
    obtain ⟨k, hk⟩ := hx x (by simp)
    simp only [hashSeq, hk]
    exact ih _ fun y hy => hx y (by simp [hy])

theorem hashCode_ok (n : Nat) : ∀ v, shaped v = true → hashable v = true → height v ≤ n → ∃ k, v.hashCode n = .ok k := by
  induction n with
  | zero => intro v _ _ h; cases v <;> simp [height] at h
  | succ n ih =>
    intro v hs hh hn
    cases v with
    | null => exact ⟨_, rfl⟩
    | num _ => exact ⟨_, rfl⟩
    | str _ => exact ⟨_, rfl⟩
    | list xs =>
      simp only [height] at hn
      refine hashSeq_ok _ _ _ fun x hx => ih x ((shapeds_iff xs).mp hs x hx) ((hashables_mem xs).mp hh x hx) ?_
      have := heights_mem xs x hx
      omega
    | obj c fs =>
      simp only [height] at hn
      simp only [shaped, Bool.and_eq_true, decide_eq_true_eq] at hs
      simp only [hashable, Bool.and_eq_true, Bool.not_eq_true'] at hh
      rw [hashCode_obj n c fs hs.1, hh.1]
      refine hashSeq_ok _ _ _ fun x hx => ih x ((shapeds_iff fs).mp hs.2 x hx) ((hashables_mem fs).mp hh.2 x hx) ?_
      have := heights_mem fs x hx
      omega

theorem hashSeq_err (f : Val → Except JErr (BitVec 32)) : ∀ (xs : List Val) (h : BitVec 32),
    (∀ x ∈ xs, f x = .error .stackOverflow ∨ ∃ k, f x = .ok k) → (∃ x ∈ xs, f x = .error .stackOverflow) →
    hashSeq f h xs = .error .stackOverflow := by
  intro xs
  induction xs with
  | nil => intro h _ ⟨x, hx, _⟩; simp at hx
  | cons x xs ih =>
    intro h hx hex
    simp only [hashSeq]
    rcases hx x (by simp) with h1 | ⟨k, hk⟩
    · rw [h1]
    · rw [hk]
      refine ih _ (fun y hy => hx y (by simp [hy])) ?_
      obtain ⟨y, hy, hye⟩ := hex
      rcases List.mem_cons.mp hy with rfl | hy
      · rw [hk] at hye; exact absurd hye (by simp)
      · exact ⟨y, hy, hye⟩

theorem hashSeq_only (f : Val → Except JErr (BitVec 32)) : ∀ (xs : List Val) (h : BitVec 32),
    (∀ x ∈ xs, f x = .error .stackOverflow ∨ ∃ k, f x = .ok k) →
    hashSeq f h xs = .error .stackOverflow ∨ ∃ k, hashSeq f h xs = .ok k := by
  intro xs h hx
  by_cases he : ∃ x ∈ xs, f x = .error .stackOverflow
  · exact Or.inl (hashSeq_err f xs h hx he)
  · refine Or.inr (hashSeq_ok f xs h fun x hm => ?_)
    rcases hx x hm with h1 | h1
    · exact absurd ⟨x, hm, h1⟩ he
    · exact h1

/-- `hashCode` returns or overflows the stack; nothing else. -/
theorem hashCode_only (n : Nat) : ∀ v, shaped v = true → v.hashCode n = .error .stackOverflow ∨ ∃ k, v.hashCode n = .ok k := by
  induction n with
  | zero => intro v _; exact Or.inl rfl
  | succ n ih =>
    intro v hs
    cases v with
    | null => exact Or.inr ⟨_, rfl⟩
    | num _ => exact Or.inr ⟨_, rfl⟩
    | str _ => exact Or.inr ⟨_, rfl⟩
    | list xs => exact hashSeq_only _ _ _ fun x hx => ih x ((shapeds_iff xs).mp hs x hx)
    | obj c fs =>
      have hs0 := hs
      simp only [shaped, Bool.and_eq_true, decide_eq_true_eq] at hs
      rw [hashCode_obj n c fs hs.1]
      split
      · exact ih _ hs0
      · exact hashSeq_only _ _ _ fun x hx => ih x ((shapeds_iff fs).mp hs.2 x hx)

theorem hashCode_never (n : Nat) : ∀ v, shaped v = true → hashable v = false → v.hashCode n = .error .stackOverflow := by
  induction n with
  | zero => intros; rfl
  | succ n ih =>
    intro v hs hh
    have inner : ∀ xs, shapeds xs = true → hashables xs = false → ∀ h, hashSeq (Val.hashCode n) h xs = .error .stackOverflow := by
      intro xs hsx hhx h
      refine hashSeq_err _ _ _ (fun x hx => hashCode_only n x ((shapeds_iff xs).mp hsx x hx)) ?_
      have : ¬ ∀ v ∈ xs, hashable v = true := by rw [← hashables_mem]; simp [hhx]
      obtain ⟨x, hx⟩ := Classical.not_forall.mp this
      obtain ⟨hm, hx⟩ := Classical.not_imp.mp hx
      exact ⟨x, hm, ih x ((shapeds_iff xs).mp hsx x hm) (by simpa using hx)⟩
    cases v with
    | null => simp [hashable] at hh
    | num _ => simp [hashable] at hh
    | str _ => simp [hashable] at hh
    | list xs => exact inner xs hs hh _
    | obj c fs =>
      have hs0 := hs
      have hh0 := hh
      simp only [shaped, Bool.and_eq_true, decide_eq_true_eq] at hs
      rw [hashCode_obj n c fs hs.1]
      split
      · exact ih _ hs0 hh0
      · rename_i hc
        refine inner fs hs.2 ?_ _
        simpa [hashable, hc] using hh

end FinProto
