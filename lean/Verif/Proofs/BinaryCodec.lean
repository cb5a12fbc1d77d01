import Verif.Model.BinaryCodec
import Verif.Proofs.Utf8
import Verif.Proofs.Bytes
import Verif.Spec.FixedText
namespace FinProto

@[simp] theorem WBuf.write_fits (b : WBuf) (bs : List Byte) (h : b.data.length + bs.length ≤ b.maxCap) :
    b.write bs = ({ b with data := b.data ++ bs }, none) := by
  simp [WBuf.write, h]

theorem WBuf.write_full (b : WBuf) (bs : List Byte) (h : ¬ b.data.length + bs.length ≤ b.maxCap) :
    b.write bs = (b, some .indexOutOfBounds) := by
  simp [WBuf.write, h]

theorem padChar_fits (n : Nat) (c : JChar) (b : WBuf) (h : b.data.length + n ≤ b.maxCap) :
    padChar b n c = ({ b with data := b.data ++ List.replicate n (c.setWidth 8) }, none) := by
  induction n generalizing b with
  | zero => simp [padChar]
  | succ n ih =>
    have h1 : b.data.length + ([c.setWidth 8] : List Byte).length ≤ b.maxCap := by simp; omega
    simp only [padChar, WBuf.write_fits _ _ h1]
    rw [ih]
    · simp [List.replicate_succ]
    · simp; omega

theorem padChar_full (n : Nat) (c : JChar) (b : WBuf) (hb : b.data.length ≤ b.maxCap)
    (h : ¬ b.data.length + n ≤ b.maxCap) :
    padChar b n c =
      ({ b with data := b.data ++ List.replicate (b.maxCap - b.data.length) (c.setWidth 8) }, some .indexOutOfBounds) := by
  induction n generalizing b with
  | zero => omega
  | succ n ih =>
    by_cases h1 : b.data.length + ([c.setWidth 8] : List Byte).length ≤ b.maxCap
    · simp only [padChar, WBuf.write_fits _ _ h1]
      simp at h1
      rw [ih]
      · simp only [List.length_append, List.length_singleton]
        rw [show b.maxCap - b.data.length = (b.maxCap - (b.data.length + 1)) + 1 by omega]
        simp [List.replicate_succ]
      · simp; omega
      · simp; omega
    · simp only [padChar, WBuf.write_full _ _ h1]
      simp at h1
      rw [show b.maxCap - b.data.length = 0 by omega]
      simp

theorem fixedField_length (n : Nat) (pad : JChar) (left : Bool) (s : JStr) :
    (fixedField n pad left s).length = n := by
  simp only [fixedField]
  split <;> simp <;> omega

theorem trimStart_eq (ch : JChar) (s : JStr) : trimStart ch s = s.dropWhile (· == ch) := by
  induction s with
  | nil => rfl
  | cons c cs ih =>
    by_cases h : c = ch
    · simp [trimStart, h, ih]
    · simp [trimStart, h]

theorem trimEndIdx_le (s : JStr) (ch : JChar) (n : Nat) : trimEndIdx s ch n ≤ n := by
  induction n with
  | zero => simp [trimEndIdx]
  | succ n ih => simp only [trimEndIdx]; split <;> omega

theorem trimEndIdx_append (s t : JStr) (ch : JChar) (n : Nat) (h : n ≤ s.length) :
    trimEndIdx (s ++ t) ch n = trimEndIdx s ch n := by
  induction n with
  | zero => rfl
  | succ n ih =>
    simp only [trimEndIdx]
    rw [List.getElem?_append_left (by omega), ih (by omega)]

theorem trimEnd_concat (s : JStr) (c ch : JChar) :
    (s ++ [c]).take (trimEndIdx (s ++ [c]) ch (s ++ [c]).length) =
      if c = ch then s.take (trimEndIdx s ch s.length) else s ++ [c] := by
  simp only [List.length_append, List.length_singleton, trimEndIdx]
  rw [List.getElem?_append_right (by omega)]
  simp only [Nat.sub_self, List.getElem?_cons_zero, Option.some.injEq]
  split
  · rw [trimEndIdx_append _ _ _ _ (Nat.le_refl _), List.take_append_of_le_length (trimEndIdx_le _ _ _)]
  · rw [show s.length + 1 = (s ++ [c]).length by simp, List.take_length]

theorem trimEnd_eq (ch : JChar) (s : JStr) :
    s.take (trimEndIdx s ch s.length) = (s.reverse.dropWhile (· == ch)).reverse := by
  suffices h : ∀ r : JStr, r.reverse.take (trimEndIdx r.reverse ch r.reverse.length) = (r.dropWhile (· == ch)).reverse by
    have := h s.reverse
    simpa using this
  intro r
  induction r with
  | nil => rfl
  | cons c cs ih =>
    rw [List.reverse_cons, trimEnd_concat]
    by_cases hc : c = ch
    · rw [if_pos hc, ih]; simp [hc]
    · rw [if_neg hc]; simp [hc]

/-- `trimByChar` is the specification's `stripPad`. -/
theorem trimByChar_eq (s : JStr) (ch : JChar) (left : Bool) : trimByChar s ch left = stripPad ch left s := by
  cases left
  · simp [trimByChar, stripPad, trimEnd_eq]
  · simp [trimByChar, stripPad, trimStart_eq]

theorem min_take (l : List Byte) (n : Nat) : l.take (min l.length n) = l.take n := by
  by_cases h : l.length ≤ n
  · rw [Nat.min_eq_left h, List.take_length, List.take_of_length_le h]
  · rw [Nat.min_eq_right (by omega)]

/-- Non-degenerate case of `writeFixedString`. -/
theorem writeFixedString_fits (b : WBuf) (v : Option JStr) (n : Nat) (pad : JChar) (left : Bool)
    (hq : left = false ∨ isNullOrEmpty v = false) (h : b.data.length + n ≤ b.maxCap) :
    writeFixedString b v n pad left = ({ b with data := b.data ++ fixedField n pad left (v.getD []) }, none) := by
  match v with
  | some (c :: cs) =>
    simp only [writeFixedString, min_take, Option.getD_some]
    generalize hB : utf8Enc (c :: cs) = B
    cases left
    · simp only [Bool.false_and, Bool.not_false, Bool.true_and, decide_eq_true_eq]
      have h1 : b.data.length + (B.take n).length ≤ b.maxCap := by simp; omega
      simp only [Bool.false_eq_true, if_false, WBuf.write_fits _ _ h1]
      split
      · rw [padChar_fits _ _ _ (by simp; omega)]
        simp only [fixedField, hB, List.append_assoc, List.length_take]
        rw [Nat.min_comm]; simp
      · simp only [fixedField, hB, List.length_take]
        rw [show n - min n B.length = 0 by omega]
        simp
    · simp only [Bool.true_and, Bool.not_true, Bool.false_and, decide_eq_true_eq]
      by_cases hlt : min B.length n < n
      · simp only [hlt, if_true]
        rw [padChar_fits _ _ _ (by omega)]
        dsimp only
        have h1 : (b.data ++ List.replicate (n - min B.length n) (pad.setWidth 8)).length + (B.take n).length ≤ b.maxCap := by simp; omega
        simp only [WBuf.write, h1, if_true]
        simp only [fixedField, hB, List.append_assoc, List.length_take]
        rw [Nat.min_comm]; simp
      · simp only [hlt, if_false]
        have h1 : b.data.length + (B.take n).length ≤ b.maxCap := by simp; omega
        simp only [WBuf.write_fits _ _ h1]
        simp only [fixedField, hB, List.length_take]
        rw [show n - min n B.length = 0 by omega]
        simp
  | some [] =>
    cases left
    · simp only [writeFixedString, Bool.not_false, Bool.true_and, decide_eq_true_eq]
      split
      · rw [padChar_fits _ _ _ (by omega)]; simp [fixedField]
      · rw [show n = 0 by omega]; simp [fixedField]
    · simp [isNullOrEmpty] at hq
  | none =>
    cases left
    · simp only [writeFixedString, Bool.not_false, Bool.true_and, decide_eq_true_eq]
      split
      · rw [padChar_fits _ _ _ (by omega)]; simp [fixedField]
      · rw [show n = 0 by omega]; simp [fixedField]
    · simp [isNullOrEmpty] at hq

/-- The degenerate case: null or empty with left padding writes nothing. -/
theorem writeFixedString_left_empty (b : WBuf) (v : Option JStr) (n : Nat) (pad : JChar)
    (hv : isNullOrEmpty v = true) : writeFixedString b v n pad true = (b, none) := by
  match v with
  | some (c :: cs) => simp [isNullOrEmpty] at hv
  | some [] => simp [writeFixedString]
  | none => simp [writeFixedString]

/-- A field that does not fit throws and leaves at most a prefix of it behind. -/
theorem writeFixedString_full (b : WBuf) (v : Option JStr) (n : Nat) (pad : JChar) (left : Bool)
    (hb : b.data.length ≤ b.maxCap)
    (hq : left = false ∨ isNullOrEmpty v = false) (h : ¬ b.data.length + n ≤ b.maxCap) :
    ∃ part, writeFixedString b v n pad left = ({ b with data := b.data ++ part }, some .indexOutOfBounds)
      ∧ part <+: fixedField n pad left (v.getD []) := by
  match v with
  | some (c :: cs) =>
    simp only [writeFixedString, min_take, Option.getD_some]
    generalize hB : utf8Enc (c :: cs) = B
    cases left
    · simp only [Bool.false_and, Bool.not_false, Bool.true_and, decide_eq_true_eq]
      by_cases h1 : b.data.length + (B.take n).length ≤ b.maxCap
      · simp only [Bool.false_eq_true, if_false, WBuf.write_fits _ _ h1]
        simp at h1
        rw [if_pos (by omega), padChar_full _ _ _ (by simp; omega) (by simp; omega)]
        refine ⟨_, by rw [List.append_assoc], ?_⟩
        simp only [fixedField, hB, Bool.false_eq_true, if_false]
        rw [List.prefix_append_right_inj]
        refine ⟨List.replicate (n - (B.take n).length - (b.maxCap - (b.data ++ B.take n).length)) (pad.setWidth 8), ?_⟩
        rw [List.replicate_append_replicate]
        congr 1
        simp
        omega
      · simp only [Bool.false_eq_true, if_false, WBuf.write_full _ _ h1]
        exact ⟨[], by simp, by simp⟩
    · simp only [Bool.true_and, Bool.not_true, Bool.false_and, decide_eq_true_eq]
      by_cases hlt : min B.length n < n
      · simp only [hlt, if_true]
        by_cases h2 : b.data.length + (n - min B.length n) ≤ b.maxCap
        · rw [padChar_fits _ _ _ h2]
          dsimp only
          have h1 : ¬ (b.data ++ List.replicate (n - min B.length n) (pad.setWidth 8)).length + (B.take n).length ≤ b.maxCap := by simp; omega
          simp only [WBuf.write, h1, if_false]
          refine ⟨_, rfl, ?_⟩
          simp only [fixedField, hB, List.length_take]
          rw [Nat.min_comm]; simp
        · rw [padChar_full _ _ _ hb h2]
          refine ⟨_, rfl, ?_⟩
          simp only [fixedField, hB, if_true]
          refine List.IsPrefix.trans ?_ (List.prefix_append _ _)
          refine ⟨List.replicate (n - (B.take n).length - (b.maxCap - b.data.length)) (pad.setWidth 8), ?_⟩
          rw [List.replicate_append_replicate]
          congr 1
          simp
          omega
      · simp only [hlt, if_false]
        have h1 : ¬ b.data.length + (B.take n).length ≤ b.maxCap := by simp; omega
        simp only [WBuf.write_full _ _ h1]
        exact ⟨[], by simp, by simp⟩
  | some [] =>
    cases left
    · simp only [writeFixedString, Bool.not_false, Bool.true_and, decide_eq_true_eq]
      rw [if_pos (by omega), padChar_full _ _ _ hb (by omega)]
      refine ⟨_, rfl, ?_⟩
      refine ⟨List.replicate (n - (b.maxCap - b.data.length)) (pad.setWidth 8), ?_⟩
      simp [fixedField]; omega
    · simp [isNullOrEmpty] at hq
  | none =>
    cases left
    · simp only [writeFixedString, Bool.not_false, Bool.true_and, decide_eq_true_eq]
      rw [if_pos (by omega), padChar_full _ _ _ hb (by omega)]
      refine ⟨_, rfl, ?_⟩
      refine ⟨List.replicate (n - (b.maxCap - b.data.length)) (pad.setWidth 8), ?_⟩
      simp [fixedField]; omega
    · simp [isNullOrEmpty] at hq

/-- A strict text read inside the written region. -/
theorem readText_within (b : RBuf) (n : Nat) (h : b.rd + n ≤ b.data.length) :
    b.readText n = ({ b with rd := b.rd + n }, .ok (utf8Dec ((b.data.drop b.rd).take n))) := by
  unfold RBuf.readText
  split
  · next h0 => subst h0; simp
  · rw [if_pos (by simp; omega)]
    have : (((b.data ++ b.spare).drop b.rd).take n) = (b.data.drop b.rd).take n := by
      rw [List.drop_append_of_le_length (by omega), List.take_append_of_le_length (by simp; omega)]
    rw [this]

theorem readFixedString_within (b : RBuf) (n : Nat) (pad : JChar) (left : Bool) (h : b.rd + n ≤ b.data.length) :
    readFixedString b n pad left =
      ({ b with rd := b.rd + n }, .ok (stripPad pad left (utf8Dec ((b.data.drop b.rd).take n)))) := by
  simp only [readFixedString, readText_within b n h, trimByChar_eq]
  cases left <;> simp

theorem utf8Dec_replicate (n : Nat) (pad : JChar) (hp : pad.toNat < 0x80) (rest : List Byte) :
    utf8Dec (List.replicate n (pad.setWidth 8) ++ rest) = List.replicate n pad ++ utf8Dec rest := by
  rw [utf8Dec_ascii]
  · simp only [List.map_replicate]
    congr 2
    apply BitVec.eq_of_toNat_eq
    simp
    omega
  · intro b hb
    rw [List.mem_replicate] at hb
    rw [hb.2]
    simp
    omega

theorem dropWhile_replicate (n : Nat) (p : JChar) (s : JStr) :
    (List.replicate n p ++ s).dropWhile (· == p) = s.dropWhile (· == p) := by
  induction n with
  | zero => rfl
  | succ n ih => simp [List.replicate_succ, ih]

theorem stripPad_fill_left (n : Nat) (p : JChar) (s : JStr) :
    stripPad p true (List.replicate n p ++ s) = stripPad p true s := by
  simp [stripPad]

theorem stripPad_fill_right (n : Nat) (p : JChar) (s : JStr) :
    stripPad p false (s ++ List.replicate n p) = stripPad p false s := by
  simp [stripPad, List.reverse_append, List.reverse_replicate]

/-- Decoding a field whose text fits. -/
theorem strip_dec_fixedField (n : Nat) (pad : JChar) (left : Bool) (s : JStr) (hp : pad.toNat < 0x80)
    (hfit : (utf8Enc s).length ≤ n) :
    stripPad pad left (utf8Dec (fixedField n pad left s)) = stripPad pad left (sanitize s) := by
  simp only [fixedField, List.take_of_length_le hfit]
  cases left
  · simp only [Bool.false_eq_true, if_false]
    rw [utf8Dec_enc_append]
    have := utf8Dec_replicate (n - (utf8Enc s).length) pad hp []
    simp at this
    rw [this, stripPad_fill_right]
  · simp only [if_true]
    rw [utf8Dec_replicate _ _ hp, stripPad_fill_left, utf8Dec_enc]

theorem stripPad_of_not_touches (pad : JChar) (left : Bool) (s : JStr) (h : touchesPad pad left s = false) :
    stripPad pad left s = s := by
  cases left
  · simp only [stripPad, touchesPad, Bool.false_eq_true, if_false] at *
    rcases List.eq_nil_or_concat s with rfl | ⟨t, c, rfl⟩
    · rfl
    · simp at h; simp [h]
  · simp only [stripPad, touchesPad, if_true] at *
    cases s with
    | nil => rfl
    | cons c cs => simp at h; simp [h]

end FinProto
