import Verif.Proofs.Canonical
import Verif.Proofs.Utf8Valid
/-
Helper lemmas: a text that came out of a fixed-width field comes out of such a field unchanged.
-/
namespace FinProto

/-- A cut through the UTF-8 form of a text falls between two characters or inside one. -/
theorem flatMap_cut (us : List Nat) : ∀ n : Nat, ∃ (vs : List Nat) (p : List Byte),
    (us.flatMap utf8Scalar).take n = vs.flatMap utf8Scalar ++ p ∧ (∀ v ∈ vs, v ∈ us)
      ∧ (p = [] ∨ ∃ u ∈ us, ∃ q, q ≠ [] ∧ p ≠ [] ∧ p ++ q = utf8Scalar u) := by
  induction us with
  | nil => intro n; exact ⟨[], [], by simp, by simp, .inl rfl⟩
  | cons u us ih =>
    intro n
    by_cases h : (utf8Scalar u).length ≤ n
    · obtain ⟨vs, p, h1, h2, h3⟩ := ih (n - (utf8Scalar u).length)
      refine ⟨u :: vs, p, ?_, ?_, ?_⟩
      · rw [List.flatMap_cons, List.take_append, List.take_of_length_le h, h1, List.flatMap_cons, List.append_assoc]
      · intro v hv
        rcases List.mem_cons.mp hv with rfl | hv
        · simp
        · exact List.mem_cons_of_mem _ (h2 v hv)
      · rcases h3 with h3 | ⟨x, hx, q, h4⟩
        · exact .inl h3
        · exact .inr ⟨x, List.mem_cons_of_mem _ hx, q, h4⟩
    · refine ⟨[], (utf8Scalar u).take n, ?_, by simp, ?_⟩
      · rw [List.flatMap_cons, List.take_append_of_le_length (by omega)]; rfl
      · by_cases hn : n = 0
        · subst hn; exact .inl rfl
        · refine .inr ⟨u, by simp, (utf8Scalar u).drop n, ?_, ?_, List.take_append_drop _ _⟩
          · intro h0; have := congrArg List.length h0; simp at this; omega
          · intro h0; have := congrArg List.length h0; rw [List.length_take, List.length_nil] at this; omega

/-- The beginning of a character is decoded to one U+FFFD. -/
theorem utf8Dec_partial (u : Nat) (hu : isScalar u) (p q : List Byte) (hp : p ≠ []) (hq : q ≠ []) (h : p ++ q = utf8Scalar u) :
    utf8Dec p = [repl] := by
  unfold isScalar at hu
  unfold utf8Scalar at h
  by_cases h1 : u < 0x80
  · rw [if_pos h1] at h
    cases p with
    | nil => exact absurd rfl hp
    | cons a p => cases p <;> cases q <;> simp_all
  rw [if_neg h1] at h
  by_cases h2 : u < 0x800
  · rw [if_pos h2] at h
    match p, q, hp, hq, h with
    | [a], _, _, _, h =>
      simp only [List.cons_append, List.cons.injEq] at h
      obtain ⟨rfl, _⟩ := h
      have ha := ofNat8 (0xC0 + u / 0x40) (by omega)
      rw [utf8Dec_cons]
      unfold utf8Step
      dsimp only
      rw [ha, if_neg (by omega), if_pos (by simp <;> omega)]
      rfl
    | [a, b], c :: q, _, _, h => simp at h
    | a :: b :: c :: p, q, _, _, h => simp at h
  rw [if_neg h2] at h
  by_cases h3 : u < 0x10000
  · rw [if_pos h3] at h
    have ha := ofNat8 (0xE0 + u / 0x1000) (by omega)
    have hb := ofNat8 (0x80 + u / 0x40 % 0x40) (by omega)
    have hcb := isCont_ofNat (u / 0x40 % 0x40) (by omega)
    match p, q, hp, hq, h with
    | [a], _, _, _, h =>
      simp only [List.cons_append, List.cons.injEq] at h
      obtain ⟨rfl, _⟩ := h
      rw [utf8Dec_cons]
      unfold utf8Step
      dsimp only
      rw [ha, if_neg (by omega), if_neg (by simp <;> omega), if_pos (by simp <;> omega)]
      rfl
    | [a, b], _, _, _, h =>
      simp only [List.cons_append, List.cons.injEq] at h
      obtain ⟨rfl, rfl, _⟩ := h
      rw [utf8Dec_cons]
      unfold utf8Step
      dsimp only
      rw [ha, if_neg (by omega), if_neg (by simp <;> omega), if_pos (by simp <;> omega), hcb, hb]
      split <;> rename_i hx
      · simp at hx; omega
      · rfl
    | [a, b, c], d :: q, _, _, h => simp at h
    | a :: b :: c :: d :: p, q, _, _, h => simp at h
  rw [if_neg h3] at h
  have ha := ofNat8 (0xF0 + u / 0x40000) (by omega)
  have hb := ofNat8 (0x80 + u / 0x1000 % 0x40) (by omega)
  have hcb := isCont_ofNat (u / 0x1000 % 0x40) (by omega)
  have hcc := isCont_ofNat (u / 0x40 % 0x40) (by omega)
  match p, q, hp, hq, h with
  | [a], _, _, _, h =>
    simp only [List.cons_append, List.cons.injEq] at h
    obtain ⟨rfl, _⟩ := h
    rw [utf8Dec_cons]
    unfold utf8Step
    dsimp only
    rw [ha, if_neg (by omega), if_neg (by simp <;> omega), if_neg (by simp <;> omega), if_pos (by simp <;> omega)]
    rfl
  | [a, b], _, _, _, h =>
    simp only [List.cons_append, List.cons.injEq] at h
    obtain ⟨rfl, rfl, _⟩ := h
    rw [utf8Dec_cons]
    unfold utf8Step
    dsimp only
    rw [ha, if_neg (by omega), if_neg (by simp <;> omega), if_neg (by simp <;> omega), if_pos (by simp <;> omega), hcb, hb]
    split <;> rename_i hx
    · simp at hx; omega
    · rfl
  | [a, b, c], _, _, _, h =>
    simp only [List.cons_append, List.cons.injEq] at h
    obtain ⟨rfl, rfl, rfl, _⟩ := h
    rw [utf8Dec_cons]
    unfold utf8Step
    dsimp only
    rw [ha, if_neg (by omega), if_neg (by simp <;> omega), if_neg (by simp <;> omega), if_pos (by simp <;> omega), hcb, hb]
    split <;> rename_i hx
    · simp at hx; omega
    · rw [hcc]; rfl
  | [a, b, c, d], e :: q, _, _, h => simp at h
  | a :: b :: c :: d :: e :: p, q, _, _, h => simp at h

theorem utf8Scalar_length_le (u : Nat) : (utf8Scalar u).length ≤ 4 := by
  unfold utf8Scalar; split <;> (try split) <;> (try split) <;> simp

theorem utf8Enc_repl : utf8Enc [repl] = [0xEF, 0xBF, 0xBD] := by decide

theorem utf8Enc_append_repl (V : JStr) : utf8Enc (V ++ [repl]) = utf8Enc V ++ [0xEF, 0xBF, 0xBD] := by
  rw [← utf8Enc_repl]
  unfold utf8Enc
  rw [scalars_append_cons V repl [] (by decide), List.flatMap_append]

/-- A text that ends with U+FFFD, for which at least one byte is left, is read back unchanged. -/
theorem textReceived_repl (n : Nat) (pad : JChar) (left : Bool) (V : JStr) (hp : pad.toNat < 0x80) (hv : validUtf16 V = true)
    (hn : (utf8Enc V).length + 1 ≤ n) (ht : touchesPad pad left (V ++ [repl]) = false) :
    textReceived n pad left (V ++ [repl]) = V ++ [repl] := by
  have hval : validUtf16 (V ++ [repl]) = true := by
    rw [valid_append_cons V repl [] (by decide), hv]; decide
  have hlen : (utf8Enc (V ++ [repl])).length = (utf8Enc V).length + 3 := by rw [utf8Enc_append_repl]; simp
  by_cases hfit : (utf8Enc V).length + 3 ≤ n
  · rw [textReceived, strip_dec_fixedField n pad left _ hp (by omega), sanitize_eq _ hval, stripPad_of_not_touches _ _ _ ht]
  · have htake : (utf8Enc (V ++ [repl])).take n = utf8Enc V ++ ([0xEF, 0xBF, 0xBD] : List Byte).take (n - (utf8Enc V).length) := by
      rw [utf8Enc_append_repl, List.take_append, List.take_of_length_le (by omega)]
    have hl : ((utf8Enc (V ++ [repl])).take n).length = n := by
      rw [List.length_take, hlen]; omega
    have hfield : fixedField n pad left (V ++ [repl]) = (utf8Enc (V ++ [repl])).take n := by
      simp only [fixedField, hl, Nat.sub_self, List.replicate_zero]
      cases left <;> simp
    have hpart : utf8Dec (([0xEF, 0xBF, 0xBD] : List Byte).take (n - (utf8Enc V).length)) = [repl] := by
      have : n - (utf8Enc V).length = 1 ∨ n - (utf8Enc V).length = 2 := by omega
      rcases this with h | h <;> rw [h] <;> decide
    rw [textReceived, hfield, htake, utf8Dec_enc_append, hpart, sanitize_eq V hv, stripPad_of_not_touches _ _ _ ht]

theorem stripPad_append_repl (pad : JChar) (left : Bool) (hp : pad.toNat < 0x80) (U : JStr) :
    ∃ V, stripPad pad left (U ++ [repl]) = V ++ [repl] ∧ (left = false → V = U) ∧ (left = true → V = U.dropWhile (· == pad)) := by
  have hne : (repl == pad) = false := by
    rw [beq_eq_false_iff_ne]; intro h; subst h; revert hp; decide
  cases left with
  | false => exact ⟨U, by simp [stripPad, hne], fun _ => rfl, by simp⟩
  | true =>
    refine ⟨U.dropWhile (· == pad), ?_, by simp, fun _ => rfl⟩
    simp only [stripPad, if_true]
    induction U with
    | nil => simp [hne]
    | cons c cs ih =>
      simp only [List.cons_append, List.dropWhile_cons]
      split
      · exact ih
      · rfl

theorem scalars_flatMap (vs : List Nat) (h : ∀ v ∈ vs, isScalar v) : scalars (vs.flatMap utf16Scalar) = vs := by
  induction vs with
  | nil => rfl
  | cons v vs ih => rw [List.flatMap_cons, scalars_utf16 v (h v (by simp)), ih (fun x hx => h x (by simp [hx]))]

theorem valid_flatMap (vs : List Nat) (h : ∀ v ∈ vs, isScalar v) : validUtf16 (vs.flatMap utf16Scalar) = true := by
  induction vs with
  | nil => rfl
  | cons v vs ih => rw [List.flatMap_cons, valid_utf16 v (h v (by simp)), ih (fun x hx => h x (by simp [hx]))]

/-- A text that fits and does not touch the padding is read back unchanged. -/
theorem textReceived_fits (n : Nat) (pad : JChar) (left : Bool) (s : JStr) (hp : pad.toNat < 0x80) (hv : validUtf16 s = true)
    (hfit : (utf8Enc s).length ≤ n) (ht : touchesPad pad left s = false) : textReceived n pad left s = s := by
  rw [textReceived, strip_dec_fixedField n pad left s hp hfit, sanitize_eq s hv, stripPad_of_not_touches _ _ _ ht]

/-- **Reading back a text that was read back changes nothing.** -/
theorem textReceived_idem (n : Nat) (pad : JChar) (left : Bool) (s : JStr) (hp : pad.toNat < 0x80) :
    textReceived n pad left (textReceived n pad left s) = textReceived n pad left s := by
  by_cases hfit : (utf8Enc s).length ≤ n
  · have h1 : textReceived n pad left s = stripPad pad left (sanitize s) := strip_dec_fixedField n pad left s hp hfit
    have hsv : validUtf16 (sanitize s) = true := valid_flatMap _ (scalars_isScalar s)
    have hse : utf8Enc (sanitize s) = utf8Enc s := by
      unfold utf8Enc sanitize; rw [scalars_flatMap _ (scalars_isScalar s)]
    obtain ⟨f1, f2, f3⟩ := stripPad_facts pad left hp (sanitize s) hsv
    rw [h1]
    exact textReceived_fits n pad left _ hp f1 (by rw [hse] at f2; omega) f3
  · have hl : ((utf8Enc s).take n).length = n := by rw [List.length_take]; omega
    have hfield : fixedField n pad left s = (utf8Enc s).take n := by
      simp only [fixedField, hl, Nat.sub_self, List.replicate_zero]
      cases left <;> simp
    obtain ⟨vs, p, h1, h2, h3⟩ := flatMap_cut (scalars s) n
    have h1' : (utf8Enc s).take n = vs.flatMap utf8Scalar ++ p := h1
    have hvs : ∀ v ∈ vs, isScalar v := fun v hv => scalars_isScalar s v (h2 v hv)
    have hU : utf8Enc (vs.flatMap utf16Scalar) = vs.flatMap utf8Scalar := by unfold utf8Enc; rw [scalars_flatMap vs hvs]
    have hUv := valid_flatMap vs hvs
    have hdec : utf8Dec ((utf8Enc s).take n) = vs.flatMap utf16Scalar ++ utf8Dec p := by
      rw [h1', ← hU, utf8Dec_enc_append, sanitize_eq _ hUv]
    have hlen : (vs.flatMap utf8Scalar).length + p.length = n := by rw [← hl, h1', List.length_append]
    rcases h3 with rfl | ⟨u, hu, q, hq, hpn, hpq⟩
    · have h4 : textReceived n pad left s = stripPad pad left (vs.flatMap utf16Scalar) := by
        rw [textReceived, hfield, hdec]
        simp [utf8Dec, utf8DecGo]
      obtain ⟨f1, f2, f3⟩ := stripPad_facts pad left hp _ hUv
      rw [h4]
      rw [hU] at f2
      simp only [List.length_nil] at hlen
      exact textReceived_fits n pad left _ hp f1 (by omega) f3
    · have h4 : textReceived n pad left s = stripPad pad left (vs.flatMap utf16Scalar ++ [repl]) := by
        rw [textReceived, hfield, hdec, utf8Dec_partial u (scalars_isScalar s u hu) p q hpn hq hpq]
      have hppos : 0 < p.length := List.length_pos_iff.mpr hpn
      have hval : validUtf16 (vs.flatMap utf16Scalar ++ [repl]) = true := by
        rw [valid_append_cons _ repl [] (by decide), hUv]; decide
      obtain ⟨f1, f2, f3⟩ := stripPad_facts pad left hp _ hval
      obtain ⟨V, hV, hV1, hV2⟩ := stripPad_append_repl pad left hp (vs.flatMap utf16Scalar)
      rw [h4, hV]
      rw [hV] at f1 f2 f3
      rw [utf8Enc_append_repl, utf8Enc_append_repl, hU] at f2
      simp only [List.length_append, List.length_cons, List.length_nil] at f2
      refine textReceived_repl n pad left V hp ?_ (by omega) f3
      rw [valid_append_cons _ repl [] (by decide)] at f1
      simp only [Bool.and_eq_true] at f1
      exact f1.1

end FinProto
