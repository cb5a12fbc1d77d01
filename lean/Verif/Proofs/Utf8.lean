import Verif.Spec.FixedText
/- UTF-8: decoding inverts encoding. -/
namespace FinProto

/-- Unicode scalar value. -/
def isScalar (u : Nat) : Prop := u < 0xD800 ∨ (0xE000 ≤ u ∧ u < 0x110000)

theorem ofNat8 (x : Nat) (h : x < 256) : (BitVec.ofNat 8 x).toNat = x := by
  simp; omega

theorem isCont_ofNat (x : Nat) (h : x < 0x40) : isCont (BitVec.ofNat 8 (0x80 + x)) = true := by
  simp [isCont]; omega

theorem utf8DecGo_scalar (u : Nat) (h : isScalar u) (rest : List Byte) :
    utf8DecGo 0 (utf8Scalar u ++ rest) = utf16Scalar u ++ utf8DecGo 0 rest := by
  unfold isScalar at h
  unfold utf8Scalar
  split
  · next h1 =>
    have e1 : (BitVec.ofNat 8 u).toNat = u := ofNat8 _ (by omega)
    simp only [List.cons_append, List.nil_append, utf8DecGo, utf8Step, e1, utf16Scalar]
    simp [h1, show u < 0x10000 by omega]
  · split
    · next h1 h2 =>
      have e1 : (BitVec.ofNat 8 (0xC0 + u / 0x40)).toNat = 0xC0 + u / 0x40 := ofNat8 _ (by omega)
      have e2 : (BitVec.ofNat 8 (0x80 + u % 0x40)).toNat = 0x80 + u % 0x40 := ofNat8 _ (by omega)
      have c2 := isCont_ofNat (u % 0x40) (by omega)
      simp only [List.cons_append, List.nil_append, utf8DecGo, utf8Step, e1, e2, c2, utf16Scalar]
      have a1 : ¬ (0xC0 + u / 0x40 < 0x80) := by omega
      have a2 : (decide (0xC2 ≤ 0xC0 + u / 0x40) && decide (0xC0 + u / 0x40 < 0xE0)) = true := by simp; omega
      have a3 : u < 0x10000 := by omega
      have a4 : (0xC0 + u / 0x40 - 0xC0) * 0x40 + (0x80 + u % 0x40 - 0x80) = u := by omega
      simp only [a1, a2, a3, a4, if_true, if_false]
      simp [utf8DecGo]
    · split
      · next h1 h2 h3 =>
        have e1 : (BitVec.ofNat 8 (0xE0 + u / 0x1000)).toNat = 0xE0 + u / 0x1000 := ofNat8 _ (by omega)
        have e2 : (BitVec.ofNat 8 (0x80 + u / 0x40 % 0x40)).toNat = 0x80 + u / 0x40 % 0x40 := ofNat8 _ (by omega)
        have e3 : (BitVec.ofNat 8 (0x80 + u % 0x40)).toNat = 0x80 + u % 0x40 := ofNat8 _ (by omega)
        have c2 := isCont_ofNat (u / 0x40 % 0x40) (by omega)
        have c3 := isCont_ofNat (u % 0x40) (by omega)
        simp only [List.cons_append, List.nil_append, utf8DecGo, utf8Step, e1, e2, e3, c2, c3, utf16Scalar]
        have a1 : ¬ (0xE0 + u / 0x1000 < 0x80) := by omega
        have a2 : (decide (0xC2 ≤ 0xE0 + u / 0x1000) && decide (0xE0 + u / 0x1000 < 0xE0)) = false := by simp
        have a3 : (decide (0xE0 ≤ 0xE0 + u / 0x1000) && decide (0xE0 + u / 0x1000 < 0xF0)) = true := by simp; omega
        have a4 : (0xE0 + u / 0x1000 == 0xE0 && decide (0x80 + u / 0x40 % 0x40 < 0xA0) || !true) = false := by simp; omega
        have a5 : (0xE0 + u / 0x1000 - 0xE0) * 0x1000 + (0x80 + u / 0x40 % 0x40 - 0x80) * 0x40 + (0x80 + u % 0x40 - 0x80) = u := by omega
        have a6 : (decide (0xD800 ≤ u) && decide (u < 0xE000)) = false := by simp; omega
        have a7 : u < 0x10000 := by omega
        simp only [a1, a2, a3, a4, a5, a6, a7, if_true, if_false]
        simp [utf8DecGo]
      · next h1 h2 h3 =>
        have e1 : (BitVec.ofNat 8 (0xF0 + u / 0x40000)).toNat = 0xF0 + u / 0x40000 := ofNat8 _ (by omega)
        have e2 : (BitVec.ofNat 8 (0x80 + u / 0x1000 % 0x40)).toNat = 0x80 + u / 0x1000 % 0x40 := ofNat8 _ (by omega)
        have e3 : (BitVec.ofNat 8 (0x80 + u / 0x40 % 0x40)).toNat = 0x80 + u / 0x40 % 0x40 := ofNat8 _ (by omega)
        have e4 : (BitVec.ofNat 8 (0x80 + u % 0x40)).toNat = 0x80 + u % 0x40 := ofNat8 _ (by omega)
        have c2 := isCont_ofNat (u / 0x1000 % 0x40) (by omega)
        have c3 := isCont_ofNat (u / 0x40 % 0x40) (by omega)
        have c4 := isCont_ofNat (u % 0x40) (by omega)
        simp only [List.cons_append, List.nil_append, utf8DecGo, utf8Step, e1, e2, e3, e4, c2, c3, c4]
        have a1 : ¬ (0xF0 + u / 0x40000 < 0x80) := by omega
        have a2 : (decide (0xC2 ≤ 0xF0 + u / 0x40000) && decide (0xF0 + u / 0x40000 < 0xE0)) = false := by simp; omega
        have a3 : (decide (0xE0 ≤ 0xF0 + u / 0x40000) && decide (0xF0 + u / 0x40000 < 0xF0)) = false := by simp
        have a4 : (decide (0xF0 ≤ 0xF0 + u / 0x40000) && decide (0xF0 + u / 0x40000 < 0xF8)) = true := by simp; omega
        have a5 : (decide (0xF4 < 0xF0 + u / 0x40000) || 0xF0 + u / 0x40000 == 0xF0 && decide (0x80 + u / 0x1000 % 0x40 < 0x90)
          || 0xF0 + u / 0x40000 == 0xF4 && decide (0x90 ≤ 0x80 + u / 0x1000 % 0x40) || !true) = false := by simp; omega
        have a6 : (0xF0 + u / 0x40000 - 0xF0) * 0x40000 + (0x80 + u / 0x1000 % 0x40 - 0x80) * 0x1000 + (0x80 + u / 0x40 % 0x40 - 0x80) * 0x40 + (0x80 + u % 0x40 - 0x80) = u := by omega
        simp only [a1, a2, a3, a4, a5, a6, if_true, if_false]
        simp [utf8DecGo]

theorem scalars_isScalar (s : JStr) : ∀ u ∈ scalars s, isScalar u := by
  fun_induction scalars s with
  | case1 => simp
  | case2 c =>
    have := c.isLt
    simp only [List.mem_singleton, forall_eq, isScalar]
    by_cases h : (isHigh c || isLow c) = true
    · rw [if_pos h]; left; omega
    · rw [if_neg h]; simp [isHigh, isLow] at h; omega
  | case3 c d t h1 h2 ih =>
    simp only [List.mem_cons, forall_eq_or_imp]
    refine ⟨?_, ih⟩
    simp [isHigh, isLow] at h1 h2
    unfold isScalar; omega
  | case4 c d t h1 h2 ih =>
    simp only [List.mem_cons, forall_eq_or_imp]
    exact ⟨by unfold isScalar; omega, ih⟩
  | case5 c d t h1 ih =>
    have := c.isLt
    simp only [List.mem_cons, forall_eq_or_imp]
    refine ⟨?_, ih⟩
    simp [isHigh] at h1
    unfold isScalar isLow
    split
    · omega
    · next h => simp at h; omega

/-- What survives a UTF-8 round trip: the string with unpaired surrogates replaced by `'?'`. -/
def sanitize (s : JStr) : JStr := (scalars s).flatMap utf16Scalar

theorem utf8DecGo_flatMap (us : List Nat) (h : ∀ u ∈ us, isScalar u) (rest : List Byte) :
    utf8DecGo 0 (us.flatMap utf8Scalar ++ rest) = us.flatMap utf16Scalar ++ utf8DecGo 0 rest := by
  induction us with
  | nil => simp
  | cons u us ih =>
    simp only [List.flatMap_cons, List.append_assoc]
    rw [utf8DecGo_scalar u (h u (by simp)), ih (fun x hx => h x (by simp [hx]))]

theorem utf8Dec_enc_append (s : JStr) (rest : List Byte) :
    utf8Dec (utf8Enc s ++ rest) = sanitize s ++ utf8Dec rest :=
  utf8DecGo_flatMap _ (scalars_isScalar s) rest

theorem utf8Dec_enc (s : JStr) : utf8Dec (utf8Enc s) = sanitize s := by
  have := utf8Dec_enc_append s []
  simpa [utf8Dec, utf8DecGo] using this

theorem utf16_small (c : JChar) : utf16Scalar c.toNat = [c] := by
  have := c.isLt
  simp [utf16Scalar]
  omega

theorem sanitize_eq (s : JStr) (h : validUtf16 s = true) : sanitize s = s := by
  unfold sanitize
  fun_induction scalars s with
  | case1 => rfl
  | case2 c =>
    simp [validUtf16] at h
    simp [h.1, h.2, utf16_small]
  | case3 c d t h1 h2 ih =>
    simp [validUtf16, h1, h2] at h
    simp only [List.flatMap_cons, ih h]
    simp [isHigh, isLow] at h1 h2
    have hc := c.isLt
    have hd := d.isLt
    unfold utf16Scalar
    rw [if_neg (by omega)]
    simp only [List.cons_append, List.nil_append, List.cons.injEq, and_true]
    constructor
    · apply BitVec.eq_of_toNat_eq; simp only [BitVec.toNat_ofNat]; omega
    · apply BitVec.eq_of_toNat_eq; simp only [BitVec.toNat_ofNat]; omega
  | case4 c d t h1 h2 ih => simp [validUtf16, h1, h2] at h
  | case5 c d t h1 ih =>
    simp [validUtf16, h1] at h
    simp [h.1, utf16_small, ih h.2]

theorem utf8Scalar_ne_nil (u : Nat) : utf8Scalar u ≠ [] := by
  unfold utf8Scalar; split <;> (try split) <;> (try split) <;> simp

theorem utf8Scalar_length_pos (u : Nat) : 0 < (utf8Scalar u).length :=
  List.length_pos_iff.mpr (utf8Scalar_ne_nil u)

theorem scalars_ne_nil (c : JChar) (cs : JStr) : scalars (c :: cs) ≠ [] := by
  cases cs with
  | nil => simp [scalars]
  | cons d t => simp only [scalars]; split <;> (try split) <;> simp

theorem utf8Enc_ne_nil (c : JChar) (cs : JStr) : utf8Enc (c :: cs) ≠ [] := by
  unfold utf8Enc
  cases h : scalars (c :: cs) with
  | nil => exact absurd h (scalars_ne_nil c cs)
  | cons u us => simp [utf8Scalar_ne_nil]

@[simp] theorem utf8Enc_nil : utf8Enc [] = [] := rfl
@[simp] theorem utf8Dec_nil : utf8Dec [] = [] := rfl

theorem utf8Enc_eq_nil (s : JStr) : utf8Enc s = [] ↔ s = [] := by
  cases s with
  | nil => simp
  | cons c cs => simp [utf8Enc_ne_nil]

/-- The decoder never emits more code units than it consumes bytes. -/
theorem utf8Step_length (b : Byte) (t : List Byte) :
    (utf8Step b t).1.length ≤ 1 + (utf8Step b t).2 ∧ (utf8Step b t).2 ≤ t.length := by
  have h16 : ∀ u, (utf16Scalar u).length ≤ 2 := by intro u; unfold utf16Scalar; split <;> simp
  unfold utf8Step
  dsimp only
  repeat' split
  all_goals (try simp)
  all_goals (first | omega | (have := h16; rename_i h _ ; exact Nat.le_trans (h16 _) (by omega)))

theorem utf8DecGo_length (bs : List Byte) : ∀ k, (utf8DecGo k bs).length + min k bs.length ≤ bs.length := by
  induction bs with
  | nil => intro k; cases k <;> simp [utf8DecGo]
  | cons b t ih =>
    intro k
    cases k with
    | zero =>
      have h := utf8Step_length b t
      have := ih (utf8Step b t).2
      simp only [utf8DecGo, List.length_append, List.length_cons]
      omega
    | succ k =>
      have := ih k
      simp only [utf8DecGo, List.length_cons]
      omega

theorem utf8Dec_length (bs : List Byte) : (utf8Dec bs).length ≤ bs.length := by
  have := utf8DecGo_length bs 0
  unfold utf8Dec; omega

/-- ASCII bytes decode to themselves. -/
theorem utf8DecGo_ascii (bs rest : List Byte) (h : ∀ b ∈ bs, b.toNat < 0x80) :
    utf8DecGo 0 (bs ++ rest) = bs.map (·.setWidth 16) ++ utf8DecGo 0 rest := by
  induction bs with
  | nil => simp
  | cons b bs ih =>
    have hb := h b (by simp)
    have e : BitVec.ofNat 16 b.toNat = b.setWidth 16 := by
      apply BitVec.eq_of_toNat_eq; simp
    simp only [List.cons_append, utf8DecGo, utf8Step, hb, if_true, List.map_cons, List.nil_append, e]
    rw [ih (fun x hx => h x (by simp [hx]))]

theorem utf8Dec_ascii (bs rest : List Byte) (h : ∀ b ∈ bs, b.toNat < 0x80) :
    utf8Dec (bs ++ rest) = bs.map (·.setWidth 16) ++ utf8Dec rest := utf8DecGo_ascii bs rest h

/-- ASCII strings encode to one byte per character. -/
theorem utf8Enc_ascii (s : JStr) (h : ∀ c ∈ s, c.toNat < 0x80) : utf8Enc s = s.map (·.setWidth 8) := by
  unfold utf8Enc
  have one : ∀ c : JChar, c.toNat < 0x80 → utf8Scalar c.toNat = [c.setWidth 8] := by
    intro c hc
    simp only [utf8Scalar, hc, if_true, List.cons.injEq, and_true]
    apply BitVec.eq_of_toNat_eq; simp
  have nh : ∀ c : JChar, c.toNat < 0x80 → isHigh c = false ∧ isLow c = false := by
    intro c hc; simp [isHigh, isLow]; omega
  fun_induction scalars s with
  | case1 => rfl
  | case2 c =>
    have hc := h c (by simp)
    simp [(nh c hc).1, (nh c hc).2, one c hc]
  | case3 c d t h1 h2 ih => simp [(nh c (h c (by simp))).1] at h1
  | case4 c d t h1 h2 ih => simp [(nh c (h c (by simp))).1] at h1
  | case5 c d t h1 ih =>
    have hc := h c (by simp)
    simp only [List.flatMap_cons, ih (fun x hx => h x (by simp_all)), (nh c hc).2]
    simp [one c hc]

theorem validUtf16_ascii (s : JStr) (h : ∀ c ∈ s, c.toNat < 0x80) : validUtf16 s = true := by
  have nh : ∀ c : JChar, c.toNat < 0x80 → isHigh c = false ∧ isLow c = false := by
    intro c hc; simp [isHigh, isLow]; omega
  fun_induction validUtf16 s with
  | case1 => rfl
  | case2 c => have := nh c (h c (by simp)); simp [this.1, this.2]
  | case3 c d t h1 ih => simp [(nh c (h c (by simp))).1] at h1
  | case4 c d t h1 ih =>
    have := nh c (h c (by simp))
    simp [this.2, ih (fun x hx => h x (by simp_all))]

end FinProto
