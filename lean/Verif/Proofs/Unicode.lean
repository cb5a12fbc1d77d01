import Verif.Proofs.Utf8Valid
import Verif.Spec.Unicode
/- The JDK's UTF-8 codec against the standard's. -/
namespace FinProto

theorem char_isScalar (c : Char) : isScalar c.toNat := by
  have h := c.valid
  simp only [UInt32.isValidChar, Nat.isValidChar] at h
  unfold isScalar Char.toNat
  omega

def ofScalar (u : Nat) : Char := Char.ofNat u

theorem ofScalar_toNat (u : Nat) (h : isScalar u) : (Char.ofNat u).toNat = u := by
  have hv : u.isValidChar := by
    unfold isScalar at h
    unfold Nat.isValidChar
    omega
  rw [Char.ofNat, dif_pos hv]
  simp [Char.toNat, Char.ofNatAux]

theorem char_eq (c d : Char) (h : c.toNat = d.toNat) : c = d := by
  apply Char.ext
  exact UInt32.toNat_inj.mp h

theorem utf8EncodeChar_eq (c : Char) : (String.utf8EncodeChar c).map (·.toBitVec) = utf8Scalar c.toNat := by
  have hs := char_isScalar c
  unfold isScalar at hs
  have hv : c.val.toNat = c.toNat := rfl
  have key : ∀ x y : Nat, x = y → (UInt8.ofNat x).toBitVec = BitVec.ofNat 8 y := by
    intro x y h; subst h; rfl
  unfold String.utf8EncodeChar utf8Scalar
  simp only [hv]
  by_cases h1 : c.toNat ≤ 0x7f
  · have h1' : c.toNat < 0x80 := by omega
    simp only [h1, h1', if_true, List.map_cons, List.map_nil, key _ _ rfl]
  · have h1' : ¬ c.toNat < 0x80 := by omega
    by_cases h2 : c.toNat ≤ 0x7ff
    · have h2' : c.toNat < 0x800 := by omega
      simp only [h1, h1', h2, h2', if_true, if_false, List.map_cons, List.map_nil]
      rw [key _ (0xC0 + c.toNat / 0x40) (by omega), key _ (0x80 + c.toNat % 0x40) (by omega)]
    · have h2' : ¬ c.toNat < 0x800 := by omega
      by_cases h3 : c.toNat ≤ 0xffff
      · have h3' : c.toNat < 0x10000 := by omega
        simp only [h1, h1', h2, h2', h3, h3', if_true, if_false, List.map_cons, List.map_nil]
        rw [key _ (0xE0 + c.toNat / 0x1000) (by omega), key _ (0x80 + c.toNat / 0x40 % 0x40) (by omega),
          key _ (0x80 + c.toNat % 0x40) (by omega)]
      · have h3' : ¬ c.toNat < 0x10000 := by omega
        simp only [h1, h1', h2, h2', h3, h3', if_false, List.map_cons, List.map_nil]
        rw [key _ (0xF0 + c.toNat / 0x40000) (by omega), key _ (0x80 + c.toNat / 0x1000 % 0x40) (by omega),
          key _ (0x80 + c.toNat / 0x40 % 0x40) (by omega), key _ (0x80 + c.toNat % 0x40) (by omega)]

theorem stdUtf8_eq (t : String) : stdUtf8 t = (t.toList.map Char.toNat).flatMap utf8Scalar := by
  have h : t.toByteArray.data.toList = t.toList.flatMap String.utf8EncodeChar := by
    have := String.utf8Encode_toList (b := t)
    rw [← this]
    simp [List.utf8Encode]
  rw [stdUtf8, h, List.map_flatMap, List.flatMap_map]
  simp only [utf8EncodeChar_eq]

theorem Spells.loosely {s : JStr} {cs : List Char} (h : Spells s cs) : SpellsLoosely s cs := by
  induction h with
  | nil => exact .nil
  | unit u c s cs h _ ih => exact .unit u c s cs h ih
  | pair hi lo c s cs hh hl h _ ih => exact .pair hi lo c s cs hh hl h ih

theorem isHigh_iff (c : JChar) : isHigh c = true ↔ 0xD800 ≤ c.toNat ∧ c.toNat < 0xDC00 := by
  simp [isHigh]

theorem isLow_iff (c : JChar) : isLow c = true ↔ 0xDC00 ≤ c.toNat ∧ c.toNat < 0xE000 := by
  simp [isLow]

theorem scalars_cons_plain (u : JChar) (s : JStr) (h1 : isHigh u = false) :
    scalars (u :: s) = (if isLow u then 0x3F else u.toNat) :: scalars s := by
  cases s with
  | nil => simp [scalars, h1]
  | cons d t => simp [scalars, h1]

theorem scalars_lone_high (u : JChar) (s : JStr) (h1 : isHigh u = true) (h2 : ∀ lo s', s = lo :: s' → isLow lo = false) :
    scalars (u :: s) = 0x3F :: scalars s := by
  cases s with
  | nil => simp [scalars, h1]
  | cons d t => simp [scalars, h1, h2 d t rfl]

theorem SpellsLoosely.scalars {s : JStr} {cs : List Char} (h : SpellsLoosely s cs) : scalars s = cs.map Char.toNat := by
  induction h with
  | nil => rfl
  | unit u c s cs h _ ih =>
    have hc := char_isScalar c
    unfold isScalar at hc
    have h1 : isHigh u = false := by
      cases hh : isHigh u
      · rfl
      · rw [isHigh_iff] at hh; omega
    have h2 : isLow u = false := by
      cases hh : isLow u
      · rfl
      · rw [isLow_iff] at hh; omega
    rw [scalars_cons u s h1 h2, ih, List.map_cons, h]
  | pair hi lo c s cs hh hl h _ ih =>
    rw [FinProto.scalars, if_pos ((isHigh_iff _).2 hh), if_pos ((isLow_iff _).2 hl), ih, List.map_cons, h]
  | loneHigh u s cs hu hn _ ih =>
    rw [scalars_lone_high u s ((isHigh_iff _).2 hu), ih]
    · rfl
    · intro lo s' hs
      cases hh : isLow lo
      · rfl
      · exact absurd ((isLow_iff _).1 hh) (hn lo s' hs)
  | loneLow u s cs hu _ ih =>
    have h1 : isHigh u = false := by
      cases hh : isHigh u
      · rfl
      · rw [isHigh_iff] at hh; omega
    rw [scalars_cons_plain u s h1, if_pos ((isLow_iff _).2 hu), ih]
    rfl

theorem spellsLoosely_exists (s : JStr) : SpellsLoosely s ((scalars s).map Char.ofNat) := by
  have hq : Char.ofNat 0x3F = '?' := rfl
  have plain : ∀ c : JChar, isHigh c = false → isLow c = false → (Char.ofNat c.toNat).toNat = c.toNat := by
    intro c h1 h2
    apply ofScalar_toNat
    have h1 : ¬ isHigh c = true := by simp [h1]
    have h2 : ¬ isLow c = true := by simp [h2]
    rw [isHigh_iff] at h1
    rw [isLow_iff] at h2
    have := c.isLt
    unfold isScalar
    omega
  fun_induction scalars s with
  | case1 => exact .nil
  | case2 c =>
    by_cases h : isHigh c || isLow c
    · rw [if_pos h]
      cases hh : isHigh c
      · rw [hh, Bool.false_or] at h
        exact .loneLow c [] [] ((isLow_iff _).1 h) .nil
      · exact .loneHigh c [] [] ((isHigh_iff _).1 hh) (by simp) .nil
    · rw [if_neg h]
      simp only [Bool.or_eq_true, not_or, Bool.not_eq_true] at h
      exact .unit c _ [] [] (plain c h.1 h.2) .nil
  | case3 c d t h1 h2 ih =>
    rw [isHigh_iff] at h1
    rw [isLow_iff] at h2
    refine .pair c d _ t _ h1 h2 (ofScalar_toNat _ ?_) ih
    unfold isScalar
    omega
  | case4 c d t h1 h2 ih =>
    refine .loneHigh c (d :: t) _ ((isHigh_iff _).1 h1) ?_ ih
    intro lo s' hs
    cases hs
    rw [← isLow_iff]
    exact h2
  | case5 c d t h1 ih =>
    rw [List.map_cons]
    by_cases h2 : isLow c = true
    · rw [if_pos h2]
      exact .loneLow c (d :: t) _ ((isLow_iff _).1 h2) ih
    · rw [if_neg h2]
      exact .unit c _ (d :: t) _ (plain c (by simpa using h1) (by simpa using h2)) ih

theorem spells_append_char (c : Char) (s : JStr) (cs : List Char) (h : Spells s cs) : Spells (utf16Scalar c.toNat ++ s) (c :: cs) := by
  have hc := char_isScalar c
  unfold isScalar at hc
  unfold utf16Scalar
  split
  · next hlt =>
    refine .unit _ c s cs ?_ h
    simp; omega
  · next hge =>
    refine .pair _ _ c s cs ?_ ?_ ?_ h <;> simp <;> omega

/-- The one spelling of a text. -/
def spelling (cs : List Char) : JStr := cs.flatMap fun c => utf16Scalar c.toNat

theorem spelling_spells (cs : List Char) : Spells (spelling cs) cs := by
  induction cs with
  | nil => exact .nil
  | cons c cs ih => exact spells_append_char c _ _ ih

theorem utf16Scalar_pair (hi lo : JChar) (n : Nat) (hh : 0xD800 ≤ hi.toNat ∧ hi.toNat < 0xDC00)
    (hl : 0xDC00 ≤ lo.toNat ∧ lo.toNat < 0xE000) (h : n = 0x10000 + (hi.toNat - 0xD800) * 0x400 + (lo.toNat - 0xDC00)) :
    utf16Scalar n = [hi, lo] := by
  have h1 : (0xD800 + (n - 0x10000) / 0x400) % 2 ^ 16 = hi.toNat := by omega
  have h2 : (0xDC00 + (n - 0x10000) % 0x400) % 2 ^ 16 = lo.toNat := by omega
  have h3 : ¬ n < 0x10000 := by omega
  clear h
  rw [utf16Scalar, if_neg h3]
  have e1 : BitVec.ofNat 16 (0xD800 + (n - 0x10000) / 0x400) = hi := by
    apply BitVec.eq_of_toNat_eq
    rw [BitVec.toNat_ofNat, h1]
  have e2 : BitVec.ofNat 16 (0xDC00 + (n - 0x10000) % 0x400) = lo := by
    apply BitVec.eq_of_toNat_eq
    rw [BitVec.toNat_ofNat, h2]
  rw [e1, e2]

theorem Spells.unique {s : JStr} {cs : List Char} (h : Spells s cs) : s = spelling cs := by
  induction h with
  | nil => rfl
  | unit u c s cs h _ ih =>
    have hu := u.isLt
    rw [spelling, List.flatMap_cons, ← spelling, ← ih, utf16Scalar, if_pos (by omega), h]
    simp
  | pair hi lo c s cs hh hl h _ ih =>
    have e := utf16Scalar_pair hi lo c.toNat hh hl h
    rw [spelling, List.flatMap_cons, e, ← spelling, ← ih]
    simp

theorem spelling_valid (cs : List Char) : validUtf16 (spelling cs) = true := by
  induction cs with
  | nil => rfl
  | cons c cs ih =>
    rw [spelling, List.flatMap_cons, valid_utf16 _ (char_isScalar c)]
    exact ih

theorem spelling_ofNat (us : List Nat) (h : ∀ u ∈ us, isScalar u) : spelling (us.map Char.ofNat) = us.flatMap utf16Scalar := by
  induction us with
  | nil => rfl
  | cons u us ih =>
    have hu := ofScalar_toNat u (h u (by simp))
    have hi := ih (fun x hx => h x (by simp [hx]))
    unfold spelling at hi ⊢
    rw [List.map_cons, List.flatMap_cons, List.flatMap_cons, hi, hu]

theorem spells_valid (s : JStr) : (∃ cs, Spells s cs) ↔ validUtf16 s = true := by
  constructor
  · intro ⟨cs, h⟩
    rw [h.unique]
    exact spelling_valid cs
  · intro h
    have hs := spelling_spells ((scalars s).map Char.ofNat)
    have he : spelling ((scalars s).map Char.ofNat) = s := (spelling_ofNat _ (scalars_isScalar s)).trans (sanitize_eq s h)
    rw [he] at hs
    exact ⟨_, hs⟩

theorem utf8Enc_spells {s : JStr} {t : String} (h : SpellsLoosely s t.toList) : utf8Enc s = stdUtf8 t := by
  rw [utf8Enc, stdUtf8_eq, h.scalars]

theorem utf8Dec_spells {s : JStr} {t : String} (h : Spells s t.toList) : utf8Dec (stdUtf8 t) = s := by
  rw [← utf8Enc_spells h.loosely, utf8Dec_enc, sanitize_eq]
  exact (spells_valid s).1 ⟨_, h⟩

end FinProto
