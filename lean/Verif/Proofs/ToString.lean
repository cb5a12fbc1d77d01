import Verif.Proofs.ObjectMethods
/-
Helper lemmas about toString and the accessors.
-/
namespace FinProto

theorem js_append (a b : String) : js (a ++ b) = js a ++ js b := by simp [js]

theorem digits_eq (fuel : Nat) : ∀ n, n < 10 ^ fuel → 0 < fuel → digits fuel n = js n.repr := by
  induction fuel with
  | zero => intro n _ h; omega
  | succ fuel ih =>
    intro n hn _
    simp only [digits]
    by_cases h : n < 10
    · rw [if_pos h, Nat.repr_of_lt h]
      simp [js, Nat.toNat_digitChar_of_lt_ten h]
    · rw [if_neg h, Nat.repr_of_ge (by omega), js_append]
      have hf : 0 < fuel := by
        cases fuel with
        | zero => simp at hn; omega
        | succ _ => omega
      rw [ih (n / 10) (by rw [Nat.pow_succ] at hn; omega) hf]
      simp [js, Nat.toNat_digitChar_of_lt_ten (Nat.mod_lt n (by omega : 0 < 10))]

theorem intStr_eq (i : Int) (h : i.natAbs < 10 ^ 20) : intStr i = js (toString i) := by
  unfold intStr
  rw [digits_eq 20 _ h (by omega)]
  cases i with
  | ofNat m =>
    rw [if_neg (show ¬ (Int.ofNat m < 0) from Int.not_lt.mpr (Int.natCast_nonneg m))]
    rfl
  | negSucc m =>
    rw [if_pos (by omega), ← js_append]
    rfl

theorem natAbs_bound (t : PTy) (v : BitVec t.bits) : v.toInt.natAbs < 10 ^ 20 := by
  have h1 := v.toInt_lt
  have h2 := v.le_toInt
  have h3 : (2 : Int) ^ (t.bits - 1) ≤ 2 ^ 63 := by cases t <;> decide
  omega

theorem numStr_eq (flt : Num → JStr) (n : Num) : n.toStr flt = if n.ty = .f32 ∨ n.ty = .f64 then flt n else js (toString n.bits.toInt) := by
  unfold Num.toStr
  rw [intStr_eq _ (natAbs_bound _ _)]
  obtain ⟨t, v⟩ := n
  cases t <;> rfl

theorem commaSep_cons (x : JStr) (r : List JStr) : commaSep (x :: r) = x ++ (r.map (js ", " ++ ·)).flatten := by
  induction r generalizing x with
  | nil => simp [commaSep]
  | cons y r ih =>
    have := ih y
    simp only [commaSep] at this
    simp only [commaSep, List.intersperse_cons_cons, List.flatten_cons, this, List.map_cons, List.append_assoc]

theorem joinComma_eq (l : List JStr) : joinComma l = commaSep l := by
  induction l with
  | nil => rfl
  | cons x r ih =>
    cases r with
    | nil => simp [joinComma, commaSep]
    | cons y r => simp [joinComma, ih, commaSep]

theorem allSome_append {α β : Type} (f : α → Option β) (xs ys : List α) (a b : List β)
    (h1 : allSome f xs = some a) (h2 : allSome f ys = some b) : allSome f (xs ++ ys) = some (a ++ b) := by
  induction xs generalizing a with
  | nil => simp only [allSome, Option.some.injEq] at h1; subst h1; simpa using h2
  | cons x xs ih =>
    simp only [allSome] at h1
    cases hx : f x with
    | none => simp [hx] at h1
    | some y =>
      cases hxs : allSome f xs with
      | none => simp [hx, hxs] at h1
      | some ys' =>
        simp only [hx, hxs, Option.some.injEq] at h1
        subst h1
        simp [allSome, hx, ih ys' hxs]

/-- What a piece of the concatenation contributes. -/
def piece (flt : Num → JStr) (n : Nat) (fs : List Val) : StrPart → Option JStr
  | .lit s => some (js s)
  | .field i => match fs[i]? with | some v => Val.toStr flt n v | none => none

theorem piece_fields (flt : Num → JStr) (n : Nat) (names : List String) : ∀ (pre vs : List Val) (first : Bool),
    vs.length = names.length → (∀ v ∈ vs, v.toStr flt n = some (render flt v)) →
    ∃ ps, allSome (piece flt n (pre ++ vs)) (strFields pre.length first names) = some ps ∧
      ps.flatten = if first then commaSep (renderFields flt names vs)
        else ((renderFields flt names vs).map (js ", " ++ ·)).flatten := by
  induction names with
  | nil =>
    intro pre vs first hl _
    have : vs = [] := by simpa using hl
    subst this
    exact ⟨[], rfl, by cases first <;> rfl⟩
  | cons nm names ih =>
    intro pre vs first hl hv
    cases vs with
    | nil => simp at hl
    | cons v vs =>
      obtain ⟨ps, h1, h2⟩ := ih (pre ++ [v]) vs false (by simpa using hl) (fun x hx => hv x (by simp [hx]))
      simp only [List.length_append, List.length_singleton, List.append_assoc, List.singleton_append] at h1
      have hp : piece flt n (pre ++ v :: vs) (.field pre.length) = some (render flt v) := by
        simp [piece, hv v (by simp)]
      refine ⟨js (if first then nm ++ "=" else ", " ++ nm ++ "=") :: render flt v :: ps, ?_, ?_⟩
      · simp only [strFields, allSome, h1, hp]
        rfl
      · simp only [Bool.false_eq_true, if_false] at h2
        simp only [List.flatten_cons, h2, renderFields, commaSep_cons, List.map_cons]
        cases first <;> simp [js_append]

theorem toStr_obj (flt : Num → JStr) (n : Nat) (c : Cls) (fs : List Val) :
    (Val.obj c fs).toStr flt (n + 1) = (allSome (piece flt n fs) (decl c).str).map List.flatten := by
  simp only [Val.toStr]
  congr 2

theorem toStr_list (flt : Num → JStr) (n : Nat) (xs : List Val) (h : ∀ v ∈ xs, v.toStr flt n = some (render flt v)) :
    allSome (Val.toStr flt n) xs = some (renderAll flt xs) := by
  induction xs with
  | nil => rfl
  | cons x xs ih => simp [allSome, h x (by simp), ih fun v hv => h v (by simp [hv]), renderAll]

theorem toStr_eq (flt : Num → JStr) (n : Nat) : ∀ v, shaped v = true → height v ≤ n → v.toStr flt n = some (render flt v) := by
  induction n with
  | zero => intro v _ h; cases v <;> simp [height] at h
  | succ n ih =>
    intro v hs hn
    cases v with
    | null => rfl
    | num x => simp only [Val.toStr, render, numStr_eq]
    | str _ => rfl
    | list xs =>
      simp only [height] at hn
      simp only [Val.toStr]
      rw [toStr_list flt n xs fun x hx => ih x ((shapeds_iff xs).mp hs x hx) (by have := heights_mem xs x hx; omega)]
      simp [render, joinComma_eq]
    | obj c fs =>
      simp only [height] at hn
      simp only [shaped, Bool.and_eq_true, decide_eq_true_eq] at hs
      rw [toStr_obj, str_table]
      obtain ⟨ps, h1, h2⟩ := piece_fields flt n ((layout c).map (·.1)) [] fs true (by simpa using hs.1)
        (fun x hx => ih x ((shapeds_iff fs).mp hs.2 x hx) (by have := heights_mem fs x hx; omega))
      simp only [List.length_nil, List.nil_append, if_true] at h1 h2
      by_cases hc : fieldLess c = true
      · rw [if_pos hc]
        have hl : layout c = [] := by simpa [fieldLess] using hc
        have : fs = [] := by simpa [hl] using hs.1
        subst this
        simp only [allSome, piece, render, renderFields, Option.map_some, List.flatten_cons, List.flatten_nil,
          List.append_nil, commaSep, List.intersperse_nil, js_append, List.append_assoc]
        rfl
      · rw [if_neg hc]
        rw [allSome_append _ _ _ _ [js "]"] (by rw [allSome, h1]; rfl) rfl]
        simp [render, h2, js_append]

/-! ### Accessors -/

theorem acc_get (c : Cls) (p : Nat) (h : p < (layout c).length) : ∃ nm, (decl c).acc[p]? = some (nm, p, p) := by
  have h1 := congrArg (·[p]?) (acc_table c)
  simp only [List.getElem?_map, List.getElem?_range h, Option.map_some] at h1
  cases h2 : (decl c).acc[p]? with
  | none => rw [h2] at h1; simp at h1
  | some a =>
    rw [h2] at h1
    obtain ⟨nm, i, j⟩ := a
    simp only [Option.map_some, Option.some.injEq, Prod.mk.injEq] at h1
    exact ⟨nm, by rw [h1.1, h1.2]⟩

theorem acc_none (c : Cls) (p : Nat) (h : (layout c).length ≤ p) : (decl c).acc[p]? = none := by
  have h1 := congrArg List.length (acc_table c)
  simp only [List.length_map, List.length_range] at h1
  exact List.getElem?_eq_none (by omega)

theorem getProp_eq (c : Cls) (p : Nat) (fs : List Val) (h : p < (layout c).length) : getProp c p fs = fs[p]? := by
  obtain ⟨nm, h⟩ := acc_get c p h
  simp [getProp, h]

theorem setProp_eq (c : Cls) (p : Nat) (v : Val) (fs : List Val) (h : p < (layout c).length) : setProp c p v fs = fs.set p v := by
  obtain ⟨nm, h⟩ := acc_get c p h
  simp [setProp, h]

end FinProto
