import Verif.Spec.Shape
import Verif.Spec.Wire
import Verif.Spec.Objects
import Verif.Proofs.DecodeErrors
import Verif.Proofs.Bytes
import Verif.Proofs.Utf8
/-
Helper lemmas for C87: two runs of `encode` side by side.
-/
namespace FinProto

/-! ### sameShape is an equivalence -/

theorem sameShapes_cons {x y : Val} {xs ys : List Val} : sameShape x y → sameShapes xs ys → sameShapes (x :: xs) (y :: ys) := fun h1 h2 => by
  rw [sameShapes]; exact ⟨y, ys, rfl, h1, h2⟩

mutual
theorem sameShape_refl : ∀ v : Val, sameShape v v
  | .null => by simp [sameShape]
  | .num x => by simp [sameShape]
  | .str s => by simp [sameShape]
  | .list xs => by simpa [sameShape] using sameShapes_refl xs
  | .obj c fs => by simpa [sameShape] using sameShapes_refl fs
theorem sameShapes_refl : ∀ vs : List Val, sameShapes vs vs
  | [] => by simp [sameShapes]
  | v :: vs => sameShapes_cons (sameShape_refl v) (sameShapes_refl vs)
end

mutual
theorem sameShape_symm : ∀ a b : Val, sameShape a b → sameShape b a
  | .null, b, h => by rw [sameShape] at h; subst h; simp [sameShape]
  | .num x, b, h => by rw [sameShape] at h; obtain ⟨y, rfl, h⟩ := h; simp [sameShape, h]
  | .str s, b, h => by rw [sameShape] at h; obtain ⟨y, rfl, h⟩ := h; simp [sameShape, h]
  | .list xs, b, h => by rw [sameShape] at h; obtain ⟨ys, rfl, h⟩ := h; simpa [sameShape] using sameShapes_symm xs ys h
  | .obj c fs, b, h => by rw [sameShape] at h; obtain ⟨gs, rfl, h⟩ := h; simpa [sameShape] using sameShapes_symm fs gs h
theorem sameShapes_symm : ∀ xs ys : List Val, sameShapes xs ys → sameShapes ys xs
  | [], ys, h => by rw [sameShapes] at h; subst h; simp [sameShapes]
  | x :: xs, ys, h => by
    rw [sameShapes] at h
    obtain ⟨z, zs, rfl, h1, h2⟩ := h
    exact sameShapes_cons (sameShape_symm x z h1) (sameShapes_symm xs zs h2)
end

mutual
theorem sameShape_trans : ∀ a b c : Val, sameShape a b → sameShape b c → sameShape a c
  | .null, b, c, h, h' => by rw [sameShape] at h; subst h; exact h'
  | .num x, b, c, h, h' => by
    rw [sameShape] at h; obtain ⟨y, rfl, h⟩ := h
    rw [sameShape] at h'; obtain ⟨z, rfl, h'⟩ := h'
    simp [sameShape, h, h']
  | .str s, b, c, h, h' => by
    rw [sameShape] at h; obtain ⟨y, rfl, h⟩ := h
    rw [sameShape] at h'; obtain ⟨z, rfl, h'⟩ := h'
    simp [sameShape, h, h']
  | .list xs, b, c, h, h' => by
    rw [sameShape] at h; obtain ⟨y, rfl, h⟩ := h
    rw [sameShape] at h'; obtain ⟨z, rfl, h'⟩ := h'
    simpa [sameShape] using sameShapes_trans xs y z h h'
  | .obj c fs, b, d, h, h' => by
    rw [sameShape] at h; obtain ⟨y, rfl, h⟩ := h
    rw [sameShape] at h'; obtain ⟨z, rfl, h'⟩ := h'
    simpa [sameShape] using sameShapes_trans fs y z h h'
theorem sameShapes_trans : ∀ xs ys zs : List Val, sameShapes xs ys → sameShapes ys zs → sameShapes xs zs
  | [], ys, zs, h, h' => by rw [sameShapes] at h; subst h; exact h'
  | x :: xs, ys, zs, h, h' => by
    rw [sameShapes] at h
    obtain ⟨y, ys, rfl, h1, h2⟩ := h
    rw [sameShapes] at h'
    obtain ⟨z, zs, rfl, h3, h4⟩ := h'
    exact sameShapes_cons (sameShape_trans x y z h1 h3) (sameShapes_trans xs ys zs h2 h4)
end

theorem sameShapes_length : ∀ xs ys : List Val, sameShapes xs ys → xs.length = ys.length
  | [], ys, h => by rw [sameShapes] at h; subst h; rfl
  | x :: xs, ys, h => by
    rw [sameShapes] at h
    obtain ⟨z, zs, rfl, _, h2⟩ := h
    simp [sameShapes_length xs zs h2]

theorem sameShapes_get : ∀ (xs ys : List Val) (f : Nat), sameShapes xs ys →
    (xs[f]? = none ∧ ys[f]? = none) ∨ ∃ x y, xs[f]? = some x ∧ ys[f]? = some y ∧ sameShape x y
  | [], ys, f, h => by rw [sameShapes] at h; subst h; simp
  | x :: xs, ys, f, h => by
    rw [sameShapes] at h
    obtain ⟨z, zs, rfl, h1, h2⟩ := h
    match f with
    | 0 => simp [h1]
    | f + 1 => simpa using sameShapes_get xs zs f h2

/-- Replacing a value by one of the same shape. -/
theorem sameShapes_set : ∀ (xs : List Val) (f : Nat) (x y : Val), xs[f]? = some x → sameShape x y → sameShapes xs (xs.set f y)
  | [], f, x, y, h, _ => by simp at h
  | v :: vs, 0, x, y, h, hs => by
    simp at h; subst h
    exact sameShapes_cons (hs) (sameShapes_refl vs)
  | v :: vs, f + 1, x, y, h, hs => by
    simp at h
    exact sameShapes_cons (sameShape_refl v) (sameShapes_set vs f x y h hs)

/-! ### The fields that encode computes -/

/-- The fields a list of statements computes. -/
def computedIn (ss : List EncStmt) : List Nat :=
  ss.filterMap fun s => match s with | .setLen f _ _ => some f | .checksum f _ => some f | _ => none

/-- There is an `int` in field `f`. -/
def IntAt (fs : List Val) (f : Nat) : Prop := ∃ n : Num, fs[f]? = some (.num n) ∧ n.ty = .i32

mutual
/-- The computed fields, at every level, are `int`s. -/
def intsOk : Val → Prop
  | .obj c fs => (∀ f ∈ computedIn (decl c).enc, IntAt fs f) ∧ intsOks fs
  | .list xs => intsOks xs
  | _ => True
def intsOks : List Val → Prop
  | [] => True
  | v :: vs => intsOk v ∧ intsOks vs
end

theorem IntAt.shape {fs gs : List Val} {f : Nat} (h : IntAt fs f) (hs : sameShapes fs gs) : IntAt gs f := by
  obtain ⟨n, hn, ht⟩ := h
  rcases sameShapes_get fs gs f hs with ⟨h1, _⟩ | ⟨x, y, h1, h2, h3⟩
  · rw [h1] at hn; cases hn
  · rw [h1] at hn; injection hn with hn; subst hn
    rw [sameShape] at h3; obtain ⟨m, rfl, hm⟩ := h3
    exact ⟨m, h2, by rw [← hm, ht]⟩

mutual
theorem intsOk_shape : ∀ a b : Val, sameShape a b → intsOk a → intsOk b
  | .null, b, h, _ => by rw [sameShape] at h; subst h; simp [intsOk]
  | .num x, b, h, _ => by rw [sameShape] at h; obtain ⟨y, rfl, h⟩ := h; simp [intsOk]
  | .str s, b, h, _ => by rw [sameShape] at h; obtain ⟨y, rfl, h⟩ := h; simp [intsOk]
  | .list xs, b, h, ho => by
    rw [sameShape] at h; obtain ⟨ys, rfl, h⟩ := h
    rw [intsOk] at ho ⊢
    exact intsOks_shape xs ys h ho
  | .obj c fs, b, h, ho => by
    rw [sameShape] at h; obtain ⟨gs, rfl, h⟩ := h
    rw [intsOk] at ho ⊢
    exact ⟨fun f hf => (ho.1 f hf).shape h, intsOks_shape fs gs h ho.2⟩
theorem intsOks_shape : ∀ xs ys : List Val, sameShapes xs ys → intsOks xs → intsOks ys
  | [], ys, h, _ => by rw [sameShapes] at h; subst h; simp [intsOks]
  | x :: xs, ys, h, ho => by
    rw [sameShapes] at h
    obtain ⟨z, zs, rfl, h1, h2⟩ := h
    rw [intsOks] at ho ⊢
    exact ⟨intsOk_shape x z h1 ho.1, intsOks_shape xs zs h2 ho.2⟩
end

theorem intsOks_get : ∀ (vs : List Val) (f : Nat) (v : Val), intsOks vs → vs[f]? = some v → intsOk v
  | [], f, v, _, h => by simp at h
  | x :: xs, 0, v, ho, h => by simp at h; subst h; rw [intsOks] at ho; exact ho.1
  | x :: xs, f + 1, v, ho, h => by rw [intsOks] at ho; exact intsOks_get xs f v ho.2 (by simpa using h)

theorem fieldsHaveType_at : ∀ (ts : List FTy) (vs : List Val) (f : Nat) (t : FTy), fieldsHaveType ts vs = true → ts[f]? = some t →
    ∃ v, vs[f]? = some v ∧ hasType t v = true
  | ts, [], f, t, h, ht => by
    rw [fieldsHaveType, List.isEmpty_iff] at h; subst h; simp at ht
  | ts, v :: vs, f, t, h, ht => by
    match ts with
    | [] => simp at ht
    | u :: us =>
      rw [fieldsHaveType, Bool.and_eq_true] at h
      match f with
      | 0 => simp at ht; subst ht; exact ⟨v, rfl, h.1⟩
      | f + 1 => simpa using fieldsHaveType_at us vs f t h.2 (by simpa using ht)

/-- The fields that the classes compute are declared `int`. -/
theorem computedIn_int (c : Cls) (f : Nat) (h : f ∈ computedIn (decl c).enc) : (javaTypes c)[f]? = some (.prim .i32) := by
  have : (allCls.all fun c => (computedIn (decl c).enc).all fun f => decide ((javaTypes c)[f]? = some (.prim .i32))) = true := by decide +kernel
  simpa using List.all_eq_true.1 (List.all_eq_true.1 this c (mem_allCls c)) f h

mutual
theorem intsOk_of_type : ∀ (t : FTy) (v : Val), hasType t v = true → intsOk v
  | t, .null, _ => by simp [intsOk]
  | t, .num n, _ => by simp [intsOk]
  | t, .str n, _ => by simp [intsOk]
  | t, .list xs, h => by
    rw [hasType.eq_def] at h
    cases t <;> simp at h
    rw [intsOk]
    exact intsOks_of_elems _ xs h
  | t, .obj c fs, h => by
    rw [hasType.eq_def] at h
    simp only [Bool.and_eq_true] at h
    rw [intsOk]
    refine ⟨fun f hf => ?_, intsOks_of_fields _ fs h.2⟩
    obtain ⟨v, hv, ht⟩ := fieldsHaveType_at _ fs f _ h.2 (computedIn_int c f hf)
    cases v <;> simp [hasType] at ht
    exact ⟨_, hv, ht⟩
theorem intsOks_of_fields : ∀ (ts : List FTy) (vs : List Val), fieldsHaveType ts vs = true → intsOks vs
  | ts, [], _ => by simp [intsOks]
  | ts, v :: vs, h => by
    match ts with
    | [] => simp [fieldsHaveType] at h
    | t :: ts =>
      rw [fieldsHaveType, Bool.and_eq_true] at h
      rw [intsOks]
      exact ⟨intsOk_of_type t v h.1, intsOks_of_fields ts vs h.2⟩
theorem intsOks_of_elems : ∀ (e : ElTy) (vs : List Val), elemsHaveType e vs = true → intsOks vs
  | e, [], _ => by simp [intsOks]
  | e, v :: vs, h => by
    rw [elemsHaveType, Bool.and_eq_true] at h
    rw [intsOks]
    exact ⟨intsOk_of_elem e v h.1, intsOks_of_elems e vs h.2⟩
theorem intsOk_of_elem : ∀ (e : ElTy) (v : Val), elemHasType e v = true → intsOk v
  | e, .null, _ => by simp [intsOk]
  | e, .num n, _ => by simp [intsOk]
  | e, .str n, _ => by simp [intsOk]
  | e, .list xs, h => by simp [elemHasType] at h
  | e, .obj c fs, h => by
    rw [elemHasType.eq_def] at h
    simp only [Bool.and_eq_true] at h
    rw [intsOk]
    refine ⟨fun f hf => ?_, intsOks_of_fields _ fs h.2⟩
    obtain ⟨v, hv, ht⟩ := fieldsHaveType_at _ fs f _ h.2 (computedIn_int c f hf)
    cases v <;> simp [hasType] at ht
    exact ⟨_, hv, ht⟩
end

/-! ### Two buffers side by side -/

/-- `d1` and `d2` bytes were in the buffers at the start: since then as many were written to one as to the other, and they had the same room. -/
structure BufAlike (d1 d2 : Nat) (b1 b2 : WBuf) : Prop where
  len : b1.data.length + d2 = b2.data.length + d1
  cap : b1.maxCap + d2 = b2.maxCap + d1

/-- The same outcome. -/
def OutAlike (d1 d2 : Nat) (r1 r2 : WBuf × Option JErr) : Prop := BufAlike d1 d2 r1.1 r2.1 ∧ r1.2 = r2.2

theorem write_alike {d1 d2 : Nat} {b1 b2 : WBuf} (h : BufAlike d1 d2 b1 b2) (x y : List Byte) (hl : x.length = y.length) :
    OutAlike d1 d2 (b1.write x) (b2.write y) := by
  have := h.len; have := h.cap
  unfold WBuf.write
  by_cases hc : b1.data.length + x.length ≤ b1.maxCap
  · rw [if_pos hc, if_pos (by omega)]
    exact ⟨⟨by simp; omega, h.cap⟩, rfl⟩
  · rw [if_neg hc, if_neg (by omega)]
    exact ⟨h, rfl⟩

theorem padChar_alike {d1 d2 : Nat} (c : JChar) : ∀ (n : Nat) (b1 b2 : WBuf), BufAlike d1 d2 b1 b2 → OutAlike d1 d2 (padChar b1 n c) (padChar b2 n c)
  | 0, b1, b2, h => ⟨h, rfl⟩
  | n + 1, b1, b2, h => by
    have hw := write_alike h [c.setWidth 8] [c.setWidth 8] rfl
    rw [padChar, padChar]
    rcases hr1 : b1.write [c.setWidth 8] with ⟨b1', _ | e1⟩ <;> rcases hr2 : b2.write [c.setWidth 8] with ⟨b2', _ | e2⟩ <;> rw [hr1, hr2] at hw
    · exact padChar_alike c n b1' b2' hw.1
    · cases hw.2
    · cases hw.2
    · exact hw

theorem bind_alike {d1 d2 : Nat} {r1 r2 : WBuf × Option JErr} (f g : WBuf → WBuf × Option JErr) : OutAlike d1 d2 r1 r2 →
    (∀ b1 b2, BufAlike d1 d2 b1 b2 → OutAlike d1 d2 (f b1) (g b2)) →
    OutAlike d1 d2 (match r1 with | (b, some e) => (b, some e) | (b, none) => f b) (match r2 with | (b, some e) => (b, some e) | (b, none) => g b) := by
  intro h hfg
  obtain ⟨b1, e1⟩ := r1
  obtain ⟨b2, e2⟩ := r2
  obtain ⟨ha, he⟩ := h
  dsimp only at he; subst he
  cases e1 with
  | none => exact hfg b1 b2 ha
  | some e => exact ⟨ha, rfl⟩

theorem fixed_alike {d1 d2 : Nat} {b1 b2 : WBuf} (h : BufAlike d1 d2 b1 b2) (s t : Option JStr) (hl : s.map (fun s => (utf8Enc s).length) = t.map fun s => (utf8Enc s).length)
    (n : Nat) (pad : JChar) (left : Bool) : OutAlike d1 d2 (writeFixedString b1 s n pad left) (writeFixedString b2 t n pad left) := by
  have hp := fun k b1 b2 (h : BufAlike d1 d2 b1 b2) => padChar_alike pad k b1 b2 h
  have hempty : ∀ b1 b2, BufAlike d1 d2 b1 b2 → OutAlike d1 d2 (if !left && decide (0 < n) then padChar b1 (n - 0) pad else (b1, none))
      (if !left && decide (0 < n) then padChar b2 (n - 0) pad else (b2, none)) := by
    intro b1 b2 h
    split
    · exact hp _ _ _ h
    · exact ⟨h, rfl⟩
  match s, t, hl with
  | none, none, _ => exact hempty _ _ h
  | none, some t, hl => simp at hl
  | some s, none, hl => simp at hl
  | some [], some [], _ => exact hempty _ _ h
  | some [], some (c :: cs), hl =>
    simp at hl
    exact absurd (List.length_eq_zero_iff.1 hl.symm) (utf8Enc_ne_nil c cs)
  | some (c :: cs), some [], hl =>
    simp at hl
    exact absurd hl (utf8Enc_ne_nil c cs)
  | some (c :: cs), some (d :: ds), hl =>
    simp only [Option.map_some, Option.some.injEq] at hl
    rw [writeFixedString, writeFixedString, ← hl]
    apply bind_alike
    · split
      · exact hp _ _ _ h
      · exact ⟨h, rfl⟩
    · intro b1 b2 h
      apply bind_alike
      · exact write_alike h _ _ (by simp [hl])
      · intro b1 b2 h
        split
        · exact hp _ _ _ h
        · exact ⟨h, rfl⟩

theorem convert_type (n m : Num) (t : PTy) (h : n.ty = m.ty) :
    (n.convert t = none ∧ m.convert t = none) ∨ ∃ x y, n.convert t = some x ∧ m.convert t = some y ∧ x.ty = y.ty := by
  obtain ⟨nt, n⟩ := n
  obtain ⟨mt, m⟩ := m
  dsimp only at h
  subst h
  unfold Num.convert
  dsimp only
  split
  · exact .inr ⟨_, _, rfl, rfl, rfl⟩
  · split
    · exact .inr ⟨_, _, rfl, rfl, rfl⟩
    · exact .inl ⟨rfl, rfl⟩

theorem writeVal_alike {d1 d2 : Nat} {b1 b2 : WBuf} (h : BufAlike d1 d2 b1 b2) (t : PTy) (e : Endian) (u v : Val) (huv : sameShape u v) :
    OutAlike d1 d2 (writeVal b1 t e u) (writeVal b2 t e v) := by
  cases u with
  | num x =>
    rw [sameShape] at huv; obtain ⟨y, rfl, hy⟩ := huv
    rw [writeVal, writeVal]
    rcases convert_type x y t hy with ⟨h1, h2⟩ | ⟨p, q, h1, h2, h3⟩ <;> rw [h1, h2]
    · exact ⟨h, rfl⟩
    · exact write_alike h _ _ (by simp [h3])
  | null => rw [sameShape] at huv; subst huv; exact ⟨h, rfl⟩
  | str s => rw [sameShape] at huv; obtain ⟨y, rfl, _⟩ := huv; exact ⟨h, rfl⟩
  | list s => rw [sameShape] at huv; obtain ⟨y, rfl, _⟩ := huv; exact ⟨h, rfl⟩
  | obj c s => rw [sameShape] at huv; obtain ⟨y, rfl, _⟩ := huv; exact ⟨h, rfl⟩

theorem writeInt_alike {d1 d2 : Nat} {b1 b2 : WBuf} (h : BufAlike d1 d2 b1 b2) (t : PTy) (e : Endian) (k l : Nat) :
    OutAlike d1 d2 (writeInt b1 t e k) (writeInt b2 t e l) :=
  writeVal_alike h t e _ _ (by simp [sameShape])

theorem fixedVal_alike {d1 d2 : Nat} {b1 b2 : WBuf} (h : BufAlike d1 d2 b1 b2) (u v : Val) (huv : sameShape u v) (n : Nat) (pad : JChar) (left : Bool) :
    OutAlike d1 d2 (writeFixedVal b1 u n pad left) (writeFixedVal b2 v n pad left) := by
  cases u with
  | num x => rw [sameShape] at huv; obtain ⟨y, rfl, _⟩ := huv; exact ⟨h, rfl⟩
  | null => rw [sameShape] at huv; subst huv; exact fixed_alike h none none rfl _ _ _
  | str s => rw [sameShape] at huv; obtain ⟨y, rfl, hy⟩ := huv; exact fixed_alike h (some s) (some y) (by simp [hy]) _ _ _
  | list s => rw [sameShape] at huv; obtain ⟨y, rfl, _⟩ := huv; exact ⟨h, rfl⟩
  | obj c s => rw [sameShape] at huv; obtain ⟨y, rfl, _⟩ := huv; exact ⟨h, rfl⟩

theorem dyn_alike {d1 d2 : Nat} {b1 b2 : WBuf} (h : BufAlike d1 d2 b1 b2) (s t : JStr) (hl : (utf8Enc s).length = (utf8Enc t).length) (zt ty : PTy) (e : Endian) :
    OutAlike d1 d2 (writeDyn b1 zt ty e (some s)) (writeDyn b2 zt ty e (some t)) := by
  match s, t, hl with
  | [], [], _ => exact writeInt_alike h _ _ _ _
  | [], c :: cs, hl => exact absurd (List.length_eq_zero_iff.1 hl.symm) (utf8Enc_ne_nil c cs)
  | c :: cs, [], hl => exact absurd (List.length_eq_zero_iff.1 hl) (utf8Enc_ne_nil c cs)
  | c :: cs, d :: ds, hl =>
    rw [writeDyn, writeDyn, ← hl]
    exact bind_alike _ _ (writeInt_alike h _ _ _ _) fun b1 b2 h => write_alike h _ _ hl

theorem dynVal_alike {d1 d2 : Nat} {b1 b2 : WBuf} (h : BufAlike d1 d2 b1 b2) (u v : Val) (huv : sameShape u v) (zt ty : PTy) (e : Endian) :
    OutAlike d1 d2 (writeDynVal b1 u zt ty e) (writeDynVal b2 v zt ty e) := by
  cases u with
  | num x => rw [sameShape] at huv; obtain ⟨y, rfl, _⟩ := huv; exact ⟨h, rfl⟩
  | null => rw [sameShape] at huv; subst huv; exact writeInt_alike h _ _ _ _
  | str s => rw [sameShape] at huv; obtain ⟨y, rfl, hy⟩ := huv; exact dyn_alike h s y hy _ _ _
  | list s => rw [sameShape] at huv; obtain ⟨y, rfl, _⟩ := huv; exact ⟨h, rfl⟩
  | obj c s => rw [sameShape] at huv; obtain ⟨y, rfl, _⟩ := huv; exact ⟨h, rfl⟩

/-! ### Two runs side by side -/

/-- Two calls of `encode` on `u` and `v` ended alike: values of the same shape as before, as many bytes, the same exception. -/
structure CallAlike (d1 d2 : Nat) (u v : Val) (r1 r2 : Val × WBuf × Option JErr) : Prop where
  left : sameShape u r1.1
  right : sameShape v r2.1
  buf : BufAlike d1 d2 r1.2.1 r2.2.1
  err : r1.2.2 = r2.2.2

/-- What is known of nested calls. -/
def CallsAlike (d1 d2 : Nat) (f g : EncCall) : Prop :=
  ∀ u v b1 b2, sameShape u v → intsOk u → BufAlike d1 d2 b1 b2 → CallAlike d1 d2 u v (f u b1) (g v b2)

theorem elem_alike {d1 d2 : Nat} {f g : EncCall} (hc : CallsAlike d1 d2 f g) (el : EncElem) (u v : Val) (huv : sameShape u v) (hu : intsOk u)
    (b1 b2 : WBuf) (h : BufAlike d1 d2 b1 b2) : CallAlike d1 d2 u v (encElem f el u b1) (encElem g el v b2) := by
  cases el with
  | num t e => have := writeVal_alike h t e u v huv; exact ⟨sameShape_refl _, sameShape_refl _, this.1, this.2⟩
  | fixed n pad left => have := fixedVal_alike h u v huv n pad left; exact ⟨sameShape_refl _, sameShape_refl _, this.1, this.2⟩
  | dyn zt t e => have := dynVal_alike h u v huv zt t e; exact ⟨sameShape_refl _, sameShape_refl _, this.1, this.2⟩
  | obj => exact hc u v b1 b2 huv hu h

theorem elems_alike {d1 d2 : Nat} {f g : EncCall} (hc : CallsAlike d1 d2 f g) (el : EncElem) : ∀ (us vs : List Val), sameShapes us vs → intsOks us →
    ∀ (b1 b2 : WBuf), BufAlike d1 d2 b1 b2 → sameShapes us (encElems f el us b1).1 ∧ sameShapes vs (encElems g el vs b2).1
      ∧ BufAlike d1 d2 (encElems f el us b1).2.1 (encElems g el vs b2).2.1 ∧ (encElems f el us b1).2.2 = (encElems g el vs b2).2.2
  | [], vs, h, _, b1, b2, hb => by
    rw [sameShapes] at h; subst h
    exact ⟨sameShapes_refl _, sameShapes_refl _, hb, rfl⟩
  | u :: us, vs, h, ho, b1, b2, hb => by
    rw [sameShapes] at h
    obtain ⟨v, vs, rfl, h1, h2⟩ := h
    rw [intsOks] at ho
    obtain ⟨e1, e2, e3, e4⟩ := elem_alike hc el u v h1 ho.1 b1 b2 hb
    rw [encElems, encElems]
    generalize encElem f el u b1 = r1 at e1 e2 e3 e4 ⊢
    generalize encElem g el v b2 = r2 at e1 e2 e3 e4 ⊢
    obtain ⟨u', b1', err1⟩ := r1
    obtain ⟨v', b2', err2⟩ := r2
    dsimp only at e1 e2 e3 e4
    subst e4
    cases err1 with
    | some e => exact ⟨sameShapes_cons (e1) (sameShapes_refl us), sameShapes_cons (e2) (sameShapes_refl vs), e3, rfl⟩
    | none =>
      obtain ⟨k1, k2, k3, k4⟩ := elems_alike hc el us vs h2 ho.2 b1' b2' e3
      exact ⟨sameShapes_cons (e1) (k1), sameShapes_cons (e2) (k2), k3, k4⟩

/-- Local variables hold positions in the buffers. -/
def LocAlike (d1 d2 : Nat) (l1 l2 : Nat → Option Nat) : Prop :=
  ∀ x, (l1 x = none ∧ l2 x = none) ∨ ∃ p q, l1 x = some p ∧ l2 x = some q ∧ p + d2 = q + d1

structure StAlike (d1 d2 : Nat) (s1 s2 : EncSt) : Prop where
  fs : sameShapes s1.fs s2.fs
  buf : BufAlike d1 d2 s1.buf s2.buf
  loc : LocAlike d1 d2 s1.loc s2.loc

/-- One statement. -/
structure StmtAlike (d1 d2 : Nat) (s1 s2 : EncSt) (r1 r2 : EncSt × Option JErr) : Prop where
  left : sameShapes s1.fs r1.1.fs
  right : sameShapes s2.fs r2.1.fs
  buf : BufAlike d1 d2 r1.1.buf r2.1.buf
  loc : LocAlike d1 d2 r1.1.loc r2.1.loc
  err : r1.2 = r2.2

theorem set_alike {d1 d2 : Nat} {b1 b2 : WBuf} (h : BufAlike d1 d2 b1 b2) (p q : Nat) (hpq : p + d2 = q + d1) (x y : List Byte) (hl : x.length = y.length) :
    OutAlike d1 d2 (b1.set p x) (b2.set q y) := by
  have h1 := h.len
  have h2 := h.cap
  unfold WBuf.set
  by_cases hc : p + x.length ≤ b1.data.length
  · rw [if_pos hc, if_pos (by omega)]
    refine ⟨⟨?_, h2⟩, rfl⟩
    simp only [overwrite, List.length_append, List.length_take, List.length_drop]
    omega
  · rw [if_neg hc, if_neg (by omega)]
    exact ⟨h, rfl⟩

theorem stmt_alike {d1 d2 : Nat} (w1 w2 : World) {f g : EncCall} (hc : CallsAlike d1 d2 f g) (s : EncStmt) (s1 s2 : EncSt) (h : StAlike d1 d2 s1 s2)
    (ho : intsOks s1.fs) (hi : ∀ k ∈ computedIn [s], IntAt s1.fs k) : StmtAlike d1 d2 s1 s2 (encStmt w1 f s s1) (encStmt w2 g s s2) := by
  have keep : ∀ (r1 r2 : WBuf × Option JErr), OutAlike d1 d2 r1 r2 →
      StmtAlike d1 d2 s1 s2 ({ s1 with buf := r1.1 }, r1.2) ({ s2 with buf := r2.1 }, r2.2) :=
    fun r1 r2 hr => ⟨sameShapes_refl _, sameShapes_refl _, hr.1, h.loc, hr.2⟩
  have bad : StmtAlike d1 d2 s1 s2 (s1, some .illTyped) (s2, some .illTyped) := ⟨sameShapes_refl _, sameShapes_refl _, h.buf, h.loc, rfl⟩
  have setInt : ∀ k v1 v2, IntAt s1.fs k →
      StmtAlike d1 d2 s1 s2 ({ s1 with fs := s1.fs.set k (.num (.int v1)) }, none) ({ s2 with fs := s2.fs.set k (.num (.int v2)) }, none) := by
    intro k v1 v2 hk
    obtain ⟨n, hn, hn'⟩ := hk
    obtain ⟨m, hm, hm'⟩ := IntAt.shape ⟨n, hn, hn'⟩ h.fs
    exact ⟨sameShapes_set _ _ _ _ hn (by simp [sameShape, hn', Num.int]), sameShapes_set _ _ _ _ hm (by simp [sameShape, hm', Num.int]), h.buf, h.loc, rfl⟩
  have keepInt : ∀ k v1, IntAt s1.fs k →
      StmtAlike d1 d2 s1 s2 ({ s1 with fs := s1.fs.set k (.num (.int v1)) }, none) (s2, none) := by
    intro k v1 ⟨n, hn, hn'⟩
    exact ⟨sameShapes_set _ _ _ _ hn (by simp [sameShape, hn', Num.int]), sameShapes_refl _, h.buf, h.loc, rfl⟩
  have keepInt' : ∀ k v2, IntAt s1.fs k →
      StmtAlike d1 d2 s1 s2 (s1, none) ({ s2 with fs := s2.fs.set k (.num (.int v2)) }, none) := by
    intro k v2 hk
    obtain ⟨m, hm, hm'⟩ := hk.shape h.fs
    exact ⟨sameShapes_refl _, sameShapes_set _ _ _ _ hm (by simp [sameShape, hm', Num.int]), h.buf, h.loc, rfl⟩
  have callCase : ∀ k u v, s1.fs[k]? = some u → s2.fs[k]? = some v → sameShape u v →
      StmtAlike d1 d2 s1 s2 ({ s1 with fs := s1.fs.set k (f u s1.buf).1, buf := (f u s1.buf).2.1 }, (f u s1.buf).2.2)
        ({ s2 with fs := s2.fs.set k (g v s2.buf).1, buf := (g v s2.buf).2.1 }, (g v s2.buf).2.2) := by
    intro k u v hu hv huv
    obtain ⟨e1, e2, e3, e4⟩ := hc u v s1.buf s2.buf huv (intsOks_get _ _ _ ho hu) h.buf
    exact ⟨sameShapes_set _ _ _ _ hu e1, sameShapes_set _ _ _ _ hv e2, e3, h.loc, e4⟩
  cases s with
  | num k t e =>
    rw [encStmt, encStmt]
    rcases sameShapes_get _ _ k h.fs with ⟨h1, h2⟩ | ⟨u, v, h1, h2, huv⟩ <;> rw [h1, h2]
    · exact bad
    · cases u with
      | num x => rw [sameShape] at huv; obtain ⟨y, rfl, hy⟩ := huv; exact keep _ _ (writeVal_alike h.buf t e _ _ (by simp [sameShape, hy]))
      | null => rw [sameShape] at huv; subst huv; exact bad
      | str s => rw [sameShape] at huv; obtain ⟨y, rfl, _⟩ := huv; exact bad
      | list s => rw [sameShape] at huv; obtain ⟨y, rfl, _⟩ := huv; exact bad
      | obj c s => rw [sameShape] at huv; obtain ⟨y, rfl, _⟩ := huv; exact bad
  | fixed k n pad left =>
    rw [encStmt, encStmt]
    rcases sameShapes_get _ _ k h.fs with ⟨h1, h2⟩ | ⟨u, v, h1, h2, huv⟩ <;> rw [h1, h2]
    · exact bad
    · exact keep _ _ (fixedVal_alike h.buf u v huv _ _ _)
  | dyn k zt t e =>
    rw [encStmt, encStmt]
    rcases sameShapes_get _ _ k h.fs with ⟨h1, h2⟩ | ⟨u, v, h1, h2, huv⟩ <;> rw [h1, h2]
    · exact bad
    · exact keep _ _ (dynVal_alike h.buf u v huv _ _ _)
  | list k zt t e el =>
    rw [encStmt, encStmt]
    rcases sameShapes_get _ _ k h.fs with ⟨h1, h2⟩ | ⟨u, v, h1, h2, huv⟩ <;> rw [h1, h2]
    · exact bad
    · cases u with
      | num x => rw [sameShape] at huv; obtain ⟨y, rfl, hy⟩ := huv; exact bad
      | null => rw [sameShape] at huv; subst huv; exact keep _ _ (writeInt_alike h.buf _ _ _ _)
      | str s => rw [sameShape] at huv; obtain ⟨y, rfl, _⟩ := huv; exact bad
      | obj c s => rw [sameShape] at huv; obtain ⟨y, rfl, _⟩ := huv; exact bad
      | list xs =>
        rw [sameShape] at huv; obtain ⟨ys, rfl, hxy⟩ := huv
        have hok := intsOks_get _ _ _ ho h1
        rw [intsOk] at hok
        match xs, ys, hxy with
        | [], ys, hxy => rw [sameShapes] at hxy; subst hxy; exact keep _ _ (writeInt_alike h.buf _ _ _ _)
        | x :: xs, [], hxy => rw [sameShapes] at hxy; obtain ⟨_, _, hxy, _⟩ := hxy; cases hxy
        | x :: xs, y :: ys, hxy =>
          dsimp only
          have hw := writeInt_alike h.buf t e (x :: xs).length (y :: ys).length
          rcases hr1 : writeInt s1.buf t e (x :: xs).length with ⟨b1', _ | e1⟩ <;> rcases hr2 : writeInt s2.buf t e (y :: ys).length with ⟨b2', _ | e2⟩ <;>
            rw [hr1, hr2] at hw
          · obtain ⟨k1, k2, k3, k4⟩ := elems_alike hc el _ _ hxy hok b1' b2' hw.1
            exact ⟨sameShapes_set _ _ _ _ h1 (by simpa [sameShape] using k1), sameShapes_set _ _ _ _ h2 (by simpa [sameShape] using k2), k3, h.loc, k4⟩
          · cases hw.2
          · cases hw.2
          · exact keep _ _ hw
  | obj k =>
    rw [encStmt, encStmt]
    rcases sameShapes_get _ _ k h.fs with ⟨h1, h2⟩ | ⟨u, v, h1, h2, huv⟩ <;> rw [h1, h2]
    · exact bad
    · exact callCase k u v h1 h2 huv
  | objOpt k =>
    rw [encStmt, encStmt]
    rcases sameShapes_get _ _ k h.fs with ⟨h1, h2⟩ | ⟨u, v, h1, h2, huv⟩ <;> rw [h1, h2]
    · exact bad
    · cases u with
      | null => rw [sameShape] at huv; subst huv; exact ⟨sameShapes_refl _, sameShapes_refl _, h.buf, h.loc, rfl⟩
      | num x => have := callCase k _ v h1 h2 huv; rw [sameShape] at huv; obtain ⟨y, rfl, _⟩ := huv; exact this
      | str x => have := callCase k _ v h1 h2 huv; rw [sameShape] at huv; obtain ⟨y, rfl, _⟩ := huv; exact this
      | list x => have := callCase k _ v h1 h2 huv; rw [sameShape] at huv; obtain ⟨y, rfl, _⟩ := huv; exact this
      | obj c x => have := callCase k _ v h1 h2 huv; rw [sameShape] at huv; obtain ⟨y, rfl, _⟩ := huv; exact this
  | save x =>
    refine ⟨sameShapes_refl _, sameShapes_refl _, h.buf, fun y => ?_, rfl⟩
    have hl := h.buf.len
    show (setLoc _ _ _ y = none ∧ setLoc _ _ _ y = none) ∨ _
    simp only [encStmt, setLoc]
    by_cases hy : y = x
    · exact .inr ⟨_, _, if_pos hy, if_pos hy, hl⟩
    · rw [if_neg hy, if_neg hy]; exact h.loc y
  | zero t e => exact keep _ _ (writeInt_alike h.buf _ _ _ _)
  | setLen k x y =>
    rw [encStmt, encStmt]
    rcases h.loc x with ⟨h1, h2⟩ | ⟨p, q, h1, h2, _⟩ <;> rcases h.loc y with ⟨h3, h4⟩ | ⟨p', q', h3, h4, _⟩ <;> rw [h1, h2, h3, h4]
    · exact bad
    · exact bad
    · exact bad
    · exact setInt k _ _ (hi k (by simp [computedIn]))
  | patch x k t e =>
    rw [encStmt, encStmt]
    rcases h.loc x with ⟨h1, h2⟩ | ⟨p, q, h1, h2, hpq⟩ <;> rw [h1, h2]
    · exact bad
    · rcases sameShapes_get _ _ k h.fs with ⟨h3, h4⟩ | ⟨u, v, h3, h4, huv⟩ <;> rw [h3, h4]
      · exact bad
      · cases u with
        | null => rw [sameShape] at huv; subst huv; exact bad
        | str s => rw [sameShape] at huv; obtain ⟨y, rfl, _⟩ := huv; exact bad
        | list s => rw [sameShape] at huv; obtain ⟨y, rfl, _⟩ := huv; exact bad
        | obj c s => rw [sameShape] at huv; obtain ⟨y, rfl, _⟩ := huv; exact bad
        | num n =>
          rw [sameShape] at huv; obtain ⟨m, rfl, hm⟩ := huv
          dsimp only
          rcases convert_type n m t hm with ⟨k1, k2⟩ | ⟨n', m', k1, k2, k3⟩ <;> rw [k1, k2]
          · exact bad
          · exact keep _ _ (set_alike h.buf p q hpq _ _ (by simp [k3]))
  | checksum k alg =>
    have hk := hi k (by simp [computedIn])
    rw [encStmt, encStmt]
    rcases Registry.getService w1.svc alg with _ | a <;> rcases Registry.getService w2.svc alg with _ | b
    · exact ⟨sameShapes_refl _, sameShapes_refl _, h.buf, h.loc, rfl⟩
    · exact keepInt' k _ hk
    · exact keepInt k _ hk
    · exact setInt k _ _ hk

theorem stmts_alike {d1 d2 : Nat} (w1 w2 : World) {f g : EncCall} (hc : CallsAlike d1 d2 f g) : ∀ (ss : List EncStmt) (s1 s2 : EncSt), StAlike d1 d2 s1 s2 →
    intsOks s1.fs → (∀ k ∈ computedIn ss, IntAt s1.fs k) → StmtAlike d1 d2 s1 s2 (encStmts w1 f ss s1) (encStmts w2 g ss s2)
  | [], s1, s2, h, _, _ => ⟨sameShapes_refl _, sameShapes_refl _, h.buf, h.loc, rfl⟩
  | s :: ss, s1, s2, h, ho, hi => by
    obtain ⟨e1, e2, e3, e4, e5⟩ := stmt_alike w1 w2 hc s s1 s2 h ho (fun k hk => hi k (by
      simp only [computedIn, List.mem_filterMap, List.mem_singleton] at hk ⊢
      obtain ⟨a, rfl, hk⟩ := hk
      exact ⟨a, List.mem_cons_self, hk⟩))
    rw [encStmts, encStmts]
    generalize encStmt w1 f s s1 = r1 at e1 e2 e3 e4 e5 ⊢
    generalize encStmt w2 g s s2 = r2 at e1 e2 e3 e4 e5 ⊢
    obtain ⟨t1, err1⟩ := r1
    obtain ⟨t2, err2⟩ := r2
    dsimp only at e1 e2 e3 e4 e5
    subst e5
    cases err1 with
    | some e => exact ⟨e1, e2, e3, e4, rfl⟩
    | none =>
      have hst : StAlike d1 d2 t1 t2 := ⟨sameShapes_trans _ _ _ (sameShapes_trans _ _ _ (sameShapes_symm _ _ e1) h.fs) e2, e3, e4⟩
      obtain ⟨k1, k2, k3, k4, k5⟩ := stmts_alike w1 w2 hc ss t1 t2 hst (intsOks_shape _ _ e1 ho) (fun k hk => (hi k (by
        simp only [computedIn, List.mem_filterMap] at hk ⊢
        obtain ⟨a, ha, hk⟩ := hk
        exact ⟨a, List.mem_cons_of_mem _ ha, hk⟩)).shape e1)
      exact ⟨sameShapes_trans _ _ _ e1 k1, sameShapes_trans _ _ _ e2 k2, k3, k4, k5⟩

theorem encode_alike (d1 d2 : Nat) (w1 w2 : World) : ∀ n, CallsAlike d1 d2 (encode w1 n) (encode w2 n)
  | n, u, v, b1, b2, huv, hu, hb => by
    cases u with
    | null => rw [sameShape] at huv; subst huv; cases n <;> exact ⟨sameShape_refl _, sameShape_refl _, hb, rfl⟩
    | num x => rw [sameShape] at huv; obtain ⟨y, rfl, _⟩ := huv; cases n <;> exact ⟨sameShape_refl _, sameShape_refl _, hb, rfl⟩
    | str x => rw [sameShape] at huv; obtain ⟨y, rfl, _⟩ := huv; cases n <;> exact ⟨sameShape_refl _, sameShape_refl _, hb, rfl⟩
    | list x => rw [sameShape] at huv; obtain ⟨y, rfl, _⟩ := huv; cases n <;> exact ⟨sameShape_refl _, sameShape_refl _, hb, rfl⟩
    | obj c fs =>
      rw [sameShape] at huv; obtain ⟨gs, rfl, hfg⟩ := huv
      rw [intsOk] at hu
      match n with
      | 0 => exact ⟨sameShape_refl _, sameShape_refl _, hb, rfl⟩
      | n + 1 =>
        obtain ⟨k1, k2, k3, _, k5⟩ := stmts_alike w1 w2 (encode_alike d1 d2 w1 w2 n) (decl c).enc ⟨fs, b1, fun _ => none⟩ ⟨gs, b2, fun _ => none⟩
          ⟨hfg, hb, fun _ => .inl ⟨rfl, rfl⟩⟩ hu.2 hu.1
        exact ⟨by simpa [sameShape, encode] using k1, by simpa [sameShape, encode] using k2, k3, k5⟩

end FinProto
