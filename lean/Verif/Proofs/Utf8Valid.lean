import Verif.Proofs.Utf8
/- UTF-8: what the decoder emits is well formed; encoding inverts decoding when no replacement character was emitted. -/
namespace FinProto

/-- One step of the decoder: a replacement character, or one scalar value whose UTF-8 form is exactly what the step consumes. -/
theorem utf8Step_cases (b : Byte) (t : List Byte) :
    (utf8Step b t).1 = [repl] ∨
      ∃ u, isScalar u ∧ (utf8Step b t).1 = utf16Scalar u ∧ b :: t.take (utf8Step b t).2 = utf8Scalar u := by
  have hb := b.isLt
  have mk : ∀ (x : Byte) (n : Nat), n = x.toNat → BitVec.ofNat 8 n = x := by
    intro x n h; subst h; simp
  unfold utf8Step
  dsimp only
  split
  · next h =>
    refine .inr ⟨b.toNat, .inl (by omega), ?_, ?_⟩
    · rw [utf16Scalar, if_pos (by omega)]
    · simp [utf8Scalar, h]
  · next h =>
    split
    · next h2 =>
      simp only [Bool.and_eq_true, decide_eq_true_eq] at h2
      cases t with
      | nil => exact .inl rfl
      | cons c t =>
        dsimp only
        split
        · next hc =>
          simp only [isCont, Bool.and_eq_true, decide_eq_true_eq] at hc
          refine .inr ⟨(b.toNat - 0xC0) * 0x40 + (c.toNat - 0x80), .inl (by omega), ?_, ?_⟩
          · rw [utf16Scalar, if_pos (by omega)]
          · rw [utf8Scalar, if_neg (by omega), if_pos (by omega), mk b _ (by omega), mk c _ (by omega)]
            rfl
        · exact .inl rfl
    · next h2 =>
      split
      · next h3 =>
        simp only [Bool.and_eq_true, decide_eq_true_eq] at h3
        match t with
        | [] => exact .inl rfl
        | [c] => dsimp only; split <;> exact .inl rfl
        | c :: d :: t =>
          dsimp only
          split
          · exact .inl rfl
          · next h4 =>
            split
            · exact .inl rfl
            · next h5 =>
              split
              · exact .inl rfl
              · next h6 =>
                simp only [isCont, Bool.and_eq_true, Bool.or_eq_true, decide_eq_true_eq, Bool.not_eq_true', beq_iff_eq,
                  not_or, not_and, Bool.not_eq_false] at h4 h5 h6
                refine .inr ⟨(b.toNat - 0xE0) * 0x1000 + (c.toNat - 0x80) * 0x40 + (d.toNat - 0x80), ?_, ?_, ?_⟩
                · unfold isScalar; omega
                · rw [utf16Scalar, if_pos (by omega)]
                · rw [utf8Scalar, if_neg (by omega), if_neg (by omega), if_pos (by omega), mk b _ (by omega), mk c _ (by omega), mk d _ (by omega)]
                  rfl
      · next h3 =>
        split
        · next h4 =>
          simp only [Bool.and_eq_true, decide_eq_true_eq] at h4
          match t with
          | [] => exact .inl rfl
          | [c] => dsimp only; split <;> exact .inl rfl
          | [c, d] => dsimp only; split <;> (try split) <;> exact .inl rfl
          | c :: d :: f :: t =>
            dsimp only
            split
            · exact .inl rfl
            · next h5 =>
              split
              · exact .inl rfl
              · next h6 =>
                split
                · exact .inl rfl
                · next h7 =>
                  simp only [isCont, Bool.and_eq_true, Bool.or_eq_true, decide_eq_true_eq, Bool.not_eq_true', beq_iff_eq,
                    not_or, not_and, Bool.not_eq_false] at h5 h6 h7
                  refine .inr ⟨(b.toNat - 0xF0) * 0x40000 + (c.toNat - 0x80) * 0x1000 + (d.toNat - 0x80) * 0x40 + (f.toNat - 0x80), ?_, by dsimp only, ?_⟩
                  · unfold isScalar; omega
                  · rw [utf8Scalar, if_neg (by omega), if_neg (by omega), if_neg (by omega), mk b _ (by omega), mk c _ (by omega), mk d _ (by omega), mk f _ (by omega)]
                    rfl
        · exact .inl rfl

theorem utf8DecGo_drop (bs : List Byte) : ∀ k, utf8DecGo k bs = utf8DecGo 0 (bs.drop k) := by
  induction bs with
  | nil => intro k; cases k <;> simp [utf8DecGo]
  | cons b t ih =>
    intro k
    cases k with
    | zero => simp
    | succ k => simp only [utf8DecGo, List.drop_succ_cons]; exact ih k

theorem utf8Dec_cons (b : Byte) (t : List Byte) : utf8Dec (b :: t) = (utf8Step b t).1 ++ utf8Dec (t.drop (utf8Step b t).2) := by
  simp only [utf8Dec, utf8DecGo]
  rw [utf8DecGo_drop]

theorem scalars_utf16 (u : Nat) (h : isScalar u) (s : JStr) : scalars (utf16Scalar u ++ s) = u :: scalars s := by
  unfold isScalar at h
  unfold utf16Scalar
  by_cases hu : u < 0x10000
  · rw [if_pos hu]
    have e : (BitVec.ofNat 16 u).toNat = u := by simp; omega
    have h1 : isHigh (BitVec.ofNat 16 u) = false := by
      simp only [isHigh, e, Bool.and_eq_false_iff, decide_eq_false_iff_not]; omega
    have h2 : isLow (BitVec.ofNat 16 u) = false := by
      simp only [isLow, e, Bool.and_eq_false_iff, decide_eq_false_iff_not]; omega
    cases s with
    | nil => simp only [List.append_nil, scalars, h1, h2, e, Bool.or_self, Bool.false_eq_true, if_false]
    | cons c t => simp only [List.cons_append, List.nil_append, scalars, h1, h2, e, Bool.false_eq_true, if_false]
  · rw [if_neg hu]
    have e1 : (BitVec.ofNat 16 (0xD800 + (u - 0x10000) / 0x400)).toNat = 0xD800 + (u - 0x10000) / 0x400 := by
      rw [BitVec.toNat_ofNat]; omega
    have e2 : (BitVec.ofNat 16 (0xDC00 + (u - 0x10000) % 0x400)).toNat = 0xDC00 + (u - 0x10000) % 0x400 := by
      rw [BitVec.toNat_ofNat]; omega
    have h1 : isHigh (BitVec.ofNat 16 (0xD800 + (u - 0x10000) / 0x400)) = true := by
      simp only [isHigh, e1, Bool.and_eq_true, decide_eq_true_eq]; omega
    have h2 : isLow (BitVec.ofNat 16 (0xDC00 + (u - 0x10000) % 0x400)) = true := by
      simp only [isLow, e2, Bool.and_eq_true, decide_eq_true_eq]; omega
    simp only [List.cons_append, List.nil_append, scalars, h1, h2, if_true, e1, e2, List.cons.injEq, and_true]
    omega

theorem valid_utf16 (u : Nat) (h : isScalar u) (s : JStr) : validUtf16 (utf16Scalar u ++ s) = validUtf16 s := by
  unfold isScalar at h
  unfold utf16Scalar
  by_cases hu : u < 0x10000
  · rw [if_pos hu]
    have e : (BitVec.ofNat 16 u).toNat = u := by simp; omega
    have h1 : isHigh (BitVec.ofNat 16 u) = false := by
      simp only [isHigh, e, Bool.and_eq_false_iff, decide_eq_false_iff_not]; omega
    have h2 : isLow (BitVec.ofNat 16 u) = false := by
      simp only [isLow, e, Bool.and_eq_false_iff, decide_eq_false_iff_not]; omega
    cases s with
    | nil => simp [validUtf16, h1, h2]
    | cons c t => simp [validUtf16, h1, h2]
  · rw [if_neg hu]
    have e1 : (BitVec.ofNat 16 (0xD800 + (u - 0x10000) / 0x400)).toNat = 0xD800 + (u - 0x10000) / 0x400 := by
      rw [BitVec.toNat_ofNat]; omega
    have e2 : (BitVec.ofNat 16 (0xDC00 + (u - 0x10000) % 0x400)).toNat = 0xDC00 + (u - 0x10000) % 0x400 := by
      rw [BitVec.toNat_ofNat]; omega
    have h1 : isHigh (BitVec.ofNat 16 (0xD800 + (u - 0x10000) / 0x400)) = true := by
      simp only [isHigh, e1, Bool.and_eq_true, decide_eq_true_eq]; omega
    have h2 : isLow (BitVec.ofNat 16 (0xDC00 + (u - 0x10000) % 0x400)) = true := by
      simp only [isLow, e2, Bool.and_eq_true, decide_eq_true_eq]; omega
    simp [validUtf16, h1, h2]

theorem repl_scalar : [repl] = utf16Scalar 0xFFFD ∧ isScalar 0xFFFD := ⟨rfl, by unfold isScalar; omega⟩

/-- Everything the decoder returns is well-formed UTF-16. -/
theorem utf8Dec_valid (bs : List Byte) : validUtf16 (utf8Dec bs) = true := by
  obtain ⟨n, hn⟩ : ∃ n, bs.length ≤ n := ⟨_, Nat.le_refl _⟩
  induction n generalizing bs with
  | zero =>
    have : bs = [] := by simpa using hn
    subst this; rfl
  | succ n ih =>
    cases bs with
    | nil => rfl
    | cons b t =>
      rw [utf8Dec_cons]
      have hr : validUtf16 (utf8Dec (t.drop (utf8Step b t).2)) = true := ih _ (by simp at hn ⊢; omega)
      rcases utf8Step_cases b t with h | ⟨u, h1, h2, _⟩
      · rw [h, repl_scalar.1, valid_utf16 _ repl_scalar.2]; exact hr
      · rw [h2, valid_utf16 u h1]; exact hr

/-- Encoding gives back the bytes when the decoder replaced nothing. -/
theorem utf8Enc_dec (bs : List Byte) (h : repl ∉ utf8Dec bs) : utf8Enc (utf8Dec bs) = bs := by
  obtain ⟨n, hn⟩ : ∃ n, bs.length ≤ n := ⟨_, Nat.le_refl _⟩
  induction n generalizing bs with
  | zero =>
    have : bs = [] := by simpa using hn
    subst this; rfl
  | succ n ih =>
    cases bs with
    | nil => rfl
    | cons b t =>
      rw [utf8Dec_cons] at h ⊢
      rcases utf8Step_cases b t with h1 | ⟨u, h1, h2, h3⟩
      · rw [h1] at h; simp at h
      · have hr := ih (t.drop (utf8Step b t).2) (fun hm => h (by simp [hm])) (by simp at hn ⊢; omega)
        unfold utf8Enc at hr ⊢
        rw [h2, scalars_utf16 u h1, List.flatMap_cons, ← h3, hr]
        simp [List.take_append_drop]

/-- A character outside the surrogate range is a scalar value of its own. -/
theorem scalars_cons (c : JChar) (s : JStr) (h1 : isHigh c = false) (h2 : isLow c = false) : scalars (c :: s) = c.toNat :: scalars s := by
  cases s <;> simp [scalars, h1, h2]

theorem ascii_plain (c : JChar) (h : c.toNat < 0x80) : isHigh c = false ∧ isLow c = false := by
  simp [isHigh, isLow]; omega

theorem scalars_append_cons (s : JStr) (c : JChar) (t : JStr) (h : isLow c = false) :
    scalars (s ++ c :: t) = scalars s ++ scalars (c :: t) := by
  fun_induction scalars s with
  | case1 => simp
  | case2 d =>
    simp only [List.cons_append, List.nil_append, scalars, h, Bool.false_eq_true, if_false]
    by_cases hd : isHigh d = true
    · simp [hd]
    · simp [hd]
  | case3 d e t' h1 h2 ih => simp only [List.cons_append, scalars, h1, h2, if_true, ih]
  | case4 d e t' h1 h2 ih => simp only [List.cons_append, scalars, h1, h2, if_true, if_false, Bool.false_eq_true, List.cons.injEq, true_and]; exact ih
  | case5 d e t' h1 ih => simp only [List.cons_append, scalars, h1, if_false, Bool.false_eq_true, List.cons.injEq, true_and]; exact ih

theorem valid_append_cons (s : JStr) (c : JChar) (t : JStr) (h : isLow c = false) :
    validUtf16 (s ++ c :: t) = (validUtf16 s && validUtf16 (c :: t)) := by
  fun_induction validUtf16 s with
  | case1 => simp
  | case2 d =>
    simp only [List.cons_append, List.nil_append, validUtf16, h, Bool.false_and]
    by_cases hd : isHigh d = true
    · simp [hd]
    · simp [hd]
  | case3 d e t' h1 ih => simp only [List.cons_append, validUtf16, h1, if_true, ih, Bool.and_assoc]
  | case4 d e t' h1 ih =>
    simp only [List.cons_append] at ih
    simp only [List.cons_append, validUtf16, h1, if_false, Bool.false_eq_true, ih, Bool.and_assoc]

theorem valid_cons (c : JChar) (s : JStr) (h1 : isHigh c = false) (h2 : isLow c = false) : validUtf16 (c :: s) = validUtf16 s := by
  cases s <;> simp [validUtf16, h1, h2]

/-- Cutting off pad characters leaves a well-formed text well formed and takes one byte each. -/
theorem stripPad_facts (pad : JChar) (left : Bool) (hp : pad.toNat < 0x80) (s : JStr) (h : validUtf16 s = true) :
    validUtf16 (stripPad pad left s) = true ∧ (utf8Enc (stripPad pad left s)).length ≤ (utf8Enc s).length
      ∧ touchesPad pad left (stripPad pad left s) = false := by
  have hpl := ascii_plain pad hp
  cases left with
  | true =>
    simp only [stripPad, touchesPad, if_true]
    induction s with
    | nil => exact ⟨rfl, Nat.le_refl _, rfl⟩
    | cons c s ih =>
      by_cases hc : c = pad
      · subst hc
        rw [valid_cons c s hpl.1 hpl.2] at h
        obtain ⟨a1, a2, a3⟩ := ih h
        simp only [List.dropWhile_cons, beq_self_eq_true, if_true]
        refine ⟨a1, Nat.le_trans a2 ?_, a3⟩
        simp only [utf8Enc, scalars_cons c s hpl.1 hpl.2, List.flatMap_cons, List.length_append]
        omega
      · have : (c == pad) = false := by simpa using hc
        simp only [List.dropWhile_cons, this, Bool.false_eq_true, if_false]
        exact ⟨h, Nat.le_refl _, by simpa using hc⟩
  | false =>
    simp only [stripPad, touchesPad, Bool.false_eq_true, if_false]
    obtain ⟨r, hr⟩ : ∃ r, r = s.reverse := ⟨_, rfl⟩
    rw [← hr]
    have hs : s = r.reverse := by rw [hr]; simp
    rw [hs] at h ⊢
    clear hs hr s
    induction r with
    | nil => exact ⟨rfl, Nat.le_refl _, rfl⟩
    | cons c r ih =>
      by_cases hc : c = pad
      · subst hc
        rw [List.reverse_cons, valid_append_cons _ _ _ hpl.2, Bool.and_eq_true] at h
        obtain ⟨a1, a2, a3⟩ := ih h.1
        simp only [List.dropWhile_cons, beq_self_eq_true, if_true]
        refine ⟨a1, Nat.le_trans a2 ?_, a3⟩
        simp only [List.reverse_cons, utf8Enc, scalars_append_cons _ _ _ hpl.2, List.flatMap_append, List.length_append]
        omega
      · have : (c == pad) = false := by simpa using hc
        simp only [List.dropWhile_cons, this, Bool.false_eq_true, if_false]
        exact ⟨h, Nat.le_refl _, by simpa using hc⟩

/-- Cutting off ASCII pad characters does not remove a replacement character. -/
theorem not_repl_of_strip (pad : JChar) (left : Bool) (hp : pad.toNat < 0x80) (bs : List Byte) (hr : repl ∉ stripPad pad left (utf8Dec bs)) :
    repl ∉ utf8Dec bs := by
  have hne : pad ≠ repl := by intro h; subst h; revert hp; decide
  intro hm
  apply hr
  have key : ∀ l : JStr, repl ∈ l → repl ∈ l.dropWhile (· == pad) := by
    intro l
    induction l with
    | nil => simp
    | cons c l ih =>
      intro h
      simp only [List.dropWhile_cons]
      split
      · next hc =>
        rcases List.mem_cons.mp h with h | h
        · simp only [beq_iff_eq] at hc; exact absurd (hc.symm.trans h.symm) hne
        · exact ih h
      · exact h
  cases left with
  | true => simp only [stripPad, if_true]; exact key _ hm
  | false =>
    simp only [stripPad, Bool.false_eq_true, if_false, List.mem_reverse]
    exact key _ (by simpa using hm)

/-- A text read from a field without replaced bytes fits into that field again. -/
theorem strip_dec_canonical (pad : JChar) (left : Bool) (hp : pad.toNat < 0x80) (bs : List Byte) (hr : repl ∉ stripPad pad left (utf8Dec bs)) :
    (utf8Enc (stripPad pad left (utf8Dec bs))).length ≤ bs.length := by
  have h1 := (stripPad_facts pad left hp (utf8Dec bs) (utf8Dec_valid bs)).2.1
  refine Nat.le_trans h1 ?_
  rw [utf8Enc_dec bs (not_repl_of_strip pad left hp bs hr)]
  exact Nat.le_refl _

end FinProto
