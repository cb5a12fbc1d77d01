import Verif.Proofs.ConcurrentDecode
import Verif.Spec.AtOnce
/-
Helper lemmas for threads that decode and encode at the same time: what a thread does depends on the objects it can reach only, up to the
places at which they are stored.
-/
namespace FinProto

/-! ### Two heaps with the same objects at different places -/

/-- Two lists are related element by element. -/
inductive Pw {α β : Type} (R : α → β → Prop) : List α → List β → Prop
  | nil : Pw R [] []
  | cons {x y xs ys} : R x y → Pw R xs ys → Pw R (x :: xs) (y :: ys)

namespace Pw
variable {α β : Type} {R S : α → β → Prop}

theorem mono (hRS : ∀ x y, R x y → S x y) {xs : List α} {ys : List β} (h : Pw R xs ys) : Pw S xs ys := by
  induction h with
  | nil => exact .nil
  | cons h1 _ ih => exact .cons (hRS _ _ h1) ih

theorem length {xs : List α} {ys : List β} (h : Pw R xs ys) : xs.length = ys.length := by
  induction h with
  | nil => rfl
  | cons _ _ ih => simp [ih]

theorem get {xs : List α} {ys : List β} (h : Pw R xs ys) : ∀ i : Nat,
    (xs[i]? = none ∧ ys[i]? = none) ∨ ∃ x y, xs[i]? = some x ∧ ys[i]? = some y ∧ R x y := by
  induction h with
  | nil => intro i; exact .inl ⟨rfl, rfl⟩
  | cons h1 _ ih =>
    intro i
    cases i with
    | zero => exact .inr ⟨_, _, rfl, rfl, h1⟩
    | succ i => exact ih i

theorem set {xs : List α} {ys : List β} (h : Pw R xs ys) {x : α} {y : β} (hxy : R x y) : ∀ i : Nat, Pw R (xs.set i x) (ys.set i y) := by
  induction h with
  | nil => intro i; exact .nil
  | cons h1 h2 ih =>
    intro i
    cases i with
    | zero => exact .cons hxy h2
    | succ i => exact .cons h1 (ih i)

theorem snoc {xs : List α} {ys : List β} (h : Pw R xs ys) {x : α} {y : β} (hxy : R x y) : Pw R (xs ++ [x]) (ys ++ [y]) := by
  induction h with
  | nil => exact .cons hxy .nil
  | cons h1 _ ih => exact .cons h1 ih

end Pw

/-- Values are the same, up to the places of objects. -/
inductive RelV (ρ : Nat → Nat → Prop) : HVal → HVal → Prop
  | null : RelV ρ .null .null
  | num (n) : RelV ρ (.num n) (.num n)
  | str (s) : RelV ρ (.str s) (.str s)
  | ref {a b} : ρ a b → RelV ρ (.ref a) (.ref b)

/-- Objects are the same, up to the places of objects. -/
inductive RelO (ρ : Nat → Nat → Prop) : HObj → HObj → Prop
  | msg (c) {xs ys} : Pw (RelV ρ) xs ys → RelO ρ (.msg c xs) (.msg c ys)
  | arr {xs ys} : Pw (RelV ρ) xs ys → RelO ρ (.arr xs) (.arr ys)

theorem RelV.mono {ρ σ : Nat → Nat → Prop} (h : ∀ a b, ρ a b → σ a b) {x y : HVal} (r : RelV ρ x y) : RelV σ x y := by
  cases r with
  | null => exact .null
  | num n => exact .num n
  | str s => exact .str s
  | ref r => exact .ref (h _ _ r)

theorem RelO.mono {ρ σ : Nat → Nat → Prop} (h : ∀ a b, ρ a b → σ a b) {x y : HObj} (r : RelO ρ x y) : RelO σ x y := by
  cases r with
  | msg c r => exact .msg c (r.mono fun _ _ => RelV.mono h)
  | arr r => exact .arr (r.mono fun _ _ => RelV.mono h)

theorem RelV.leaf {ρ : Nat → Nat → Prop} {x y : HVal} (r : RelV ρ x y) : x.leaf = y.leaf := by
  cases r <;> rfl

/-- The objects at related places are the same, up to the places of objects. -/
structure Ren (ρ : Nat → Nat → Prop) (h h' : Heap) : Prop where
  fn : ∀ a b b', ρ a b → ρ a b' → b = b'
  inj : ∀ a a' b, ρ a b → ρ a' b → a = a'
  obj : ∀ a b, ρ a b → ∃ o o', h[a]? = some o ∧ h'[b]? = some o' ∧ RelO ρ o o'

namespace Ren
variable {ρ : Nat → Nat → Prop} {h h' : Heap} (hr : Ren ρ h h')
include hr

theorem lt {a b : Nat} (hab : ρ a b) : a < h.length ∧ b < h'.length := by
  obtain ⟨o, o', h1, h2, -⟩ := hr.obj a b hab
  exact ⟨(List.getElem?_eq_some_iff.mp h1).1, (List.getElem?_eq_some_iff.mp h2).1⟩

theorem field {a b : Nat} (hab : ρ a b) (f : Nat) :
    (h.field a f = none ∧ h'.field b f = none) ∨ ∃ x y, h.field a f = some x ∧ h'.field b f = some y ∧ RelV ρ x y := by
  obtain ⟨o, o', h1, h2, h3⟩ := hr.obj a b hab
  unfold Heap.field
  rw [h1, h2]
  cases h3 with
  | msg c h3 => exact h3.get f
  | arr h3 => exact .inl ⟨rfl, rfl⟩

theorem listAt {a b : Nat} (hab : ρ a b) (f : Nat) :
    (h.listAt a f = none ∧ h'.listAt b f = none) ∨ ∃ xs ys, h.listAt a f = some xs ∧ h'.listAt b f = some ys ∧ Pw (RelV ρ) xs ys := by
  unfold Heap.listAt
  rcases hr.field hab f with ⟨h1, h2⟩ | ⟨x, y, h1, h2, h3⟩
  · rw [h1, h2]; exact .inl ⟨rfl, rfl⟩
  · rw [h1, h2]
    cases h3 with
    | null => exact .inl ⟨rfl, rfl⟩
    | num n => exact .inl ⟨rfl, rfl⟩
    | str s => exact .inl ⟨rfl, rfl⟩
    | ref h3 =>
      obtain ⟨o, o', h4, h5, h6⟩ := hr.obj _ _ h3
      dsimp only
      rw [h4, h5]
      cases h6 with
      | msg c h6 => exact .inl ⟨rfl, rfl⟩
      | arr h6 => exact .inr ⟨_, _, rfl, rfl, h6⟩

end Ren

/-- From two such heaps one gets to two such heaps again: places related before still are, only new places become related, and on the
second heap only related places have been changed. -/
def Moves (ρ : Nat → Nat → Prop) (h h' k k' : Heap) (Q : (Nat → Nat → Prop) → Prop) : Prop :=
  ∃ σ, Ren σ k k' ∧ (∀ a b, ρ a b → σ a b) ∧ (∀ a b, σ a b → ρ a b ∨ h'.length ≤ b) ∧ h'.length ≤ k'.length
    ∧ (∀ b < h'.length, (∀ a, ¬ ρ a b) → k'[b]? = h'[b]?) ∧ Q σ

section
variable {ρ : Nat → Nat → Prop} {h h' : Heap}

theorem Moves.stay {Q : (Nat → Nat → Prop) → Prop} (hr : Ren ρ h h') (hq : Q ρ) : Moves ρ h h' h h' Q :=
  ⟨ρ, hr, fun _ _ h => h, fun _ _ h => .inl h, Nat.le_refl _, fun _ _ _ => rfl, hq⟩

theorem Moves.trans {k k' l l' : Heap} {Q Q' : (Nat → Nat → Prop) → Prop} (h1 : Moves ρ h h' k k' Q)
    (h2 : ∀ σ, Ren σ k k' → (∀ a b, ρ a b → σ a b) → Q σ → Moves σ k k' l l' Q') : Moves ρ h h' l l' Q' := by
  obtain ⟨σ, s1, s2, s3, s4, s5, s6⟩ := h1
  obtain ⟨τ, t1, t2, t3, t4, t5, t6⟩ := h2 σ s1 s2 s6
  refine ⟨τ, t1, fun a b h => t2 a b (s2 a b h), fun a b h => ?_, by omega, fun b hb hn => ?_, t6⟩
  · rcases t3 a b h with h | h
    · exact s3 a b h
    · exact .inr (by omega)
  · rw [t5 b (by omega) (fun a ha => ?_), s5 b hb hn]
    rcases s3 a b ha with h | h
    · exact hn a h
    · omega

theorem Moves.weaken {k k' : Heap} {Q Q' : (Nat → Nat → Prop) → Prop} (h1 : Moves ρ h h' k k' Q)
    (h2 : ∀ σ, (∀ a b, ρ a b → σ a b) → Q σ → Q' σ) : Moves ρ h h' k k' Q' :=
  h1.trans fun σ s1 s2 s3 => .stay s1 (h2 σ s2 s3)

theorem Ren.set (hr : Ren ρ h h') {r r' : Nat} (hrr : ρ r r') {o o' : HObj} (ho : RelO ρ o o') {Q : (Nat → Nat → Prop) → Prop} (hq : Q ρ) :
    Moves ρ h h' (h.set r o) (h'.set r' o') Q := by
  refine ⟨ρ, ⟨hr.fn, hr.inj, fun a b hab => ?_⟩, fun _ _ h => h, fun _ _ h => .inl h, by simp, fun b hb hn => ?_, hq⟩
  · by_cases ha : a = r
    · subst ha
      have := hr.fn a b r' hab hrr
      subst this
      exact ⟨o, o', by rw [List.getElem?_set_self (hr.lt hab).1], by rw [List.getElem?_set_self (hr.lt hab).2], ho⟩
    · have hb : b ≠ r' := fun e => ha (hr.inj a r b hab (e ▸ hrr))
      rw [List.getElem?_set_ne (Ne.symm ha), List.getElem?_set_ne (Ne.symm hb)]
      exact hr.obj a b hab
  · rw [List.getElem?_set_ne]
    rintro rfl
    exact hn r hrr

theorem Ren.setField (hr : Ren ρ h h') {r r' : Nat} (hrr : ρ r r') (f : Nat) {x y : HVal} (hxy : RelV ρ x y) {Q : (Nat → Nat → Prop) → Prop}
    (hq : Q ρ) : Moves ρ h h' (h.setField r f x) (h'.setField r' f y) Q := by
  obtain ⟨o, o', h1, h2, h3⟩ := hr.obj r r' hrr
  unfold Heap.setField
  rw [h1, h2]
  cases h3 with
  | msg c h3 => exact hr.set hrr (.msg c (h3.set hxy f)) hq
  | arr h3 => exact .stay hr hq

theorem Ren.new (hr : Ren ρ h h') {o o' : HObj} (ho : RelO ρ o o') :
    Moves ρ h h' (h ++ [o]) (h' ++ [o']) (fun σ => σ h.length h'.length) := by
  have mono : ∀ a b, ρ a b → (ρ a b ∨ (a = h.length ∧ b = h'.length)) := fun a b h => .inl h
  refine ⟨fun a b => ρ a b ∨ (a = h.length ∧ b = h'.length), ⟨?_, ?_, ?_⟩, mono, ?_, by simp, ?_, .inr ⟨rfl, rfl⟩⟩
  · rintro a b b' (h1 | ⟨h1, h2⟩) (h3 | ⟨h3, h4⟩)
    · exact hr.fn a b b' h1 h3
    · have := (hr.lt h1).1; omega
    · have := (hr.lt h3).1; omega
    · omega
  · rintro a a' b (h1 | ⟨h1, h2⟩) (h3 | ⟨h3, h4⟩)
    · exact hr.inj a a' b h1 h3
    · have := (hr.lt h1).2; omega
    · have := (hr.lt h3).2; omega
    · omega
  · rintro a b (h1 | ⟨rfl, rfl⟩)
    · obtain ⟨p, p', h2, h3, h4⟩ := hr.obj a b h1
      refine ⟨p, p', ?_, ?_, h4.mono mono⟩
      · rw [List.getElem?_append_left (hr.lt h1).1, h2]
      · rw [List.getElem?_append_left (hr.lt h1).2, h3]
    · exact ⟨o, o', by simp, by simp, ho.mono mono⟩
  · rintro a b (h1 | ⟨h1, h2⟩)
    · exact .inl h1
    · exact .inr (by omega)
  · intro b hb _
    rw [List.getElem?_append_left hb]

end

/-! ### New objects -/

theorem newMsg_rel (ρ : Nat → Nat → Prop) (c : Cls) : RelO ρ (newMsg c) (newMsg c) := by
  unfold newMsg
  refine .msg c ?_
  induction (decl c).fields with
  | nil => exact .nil
  | cons f fs ih =>
    refine .cons ?_ ih
    obtain ⟨name, ty⟩ := f
    cases ty with
    | prim t => exact .num _
    | _ => exact .null

theorem alloc_moves (v : Val) : ∀ ρ h h', Ren ρ h h' →
    Moves ρ h h' (alloc v h).1 (alloc v h').1 (fun σ => RelV σ (alloc v h).2 (alloc v h').2) := by
  apply Val.rec
    (motive_1 := fun v => ∀ ρ h h', Ren ρ h h' →
      Moves ρ h h' (alloc v h).1 (alloc v h').1 (fun σ => RelV σ (alloc v h).2 (alloc v h').2))
    (motive_2 := fun vs => ∀ ρ h h', Ren ρ h h' →
      Moves ρ h h' (allocAll vs h).1 (allocAll vs h').1 (fun σ => Pw (RelV σ) (allocAll vs h).2 (allocAll vs h').2))
  · intro ρ h h' hr; exact .stay hr .null
  · intro n ρ h h' hr; exact .stay hr (.num n)
  · intro s ρ h h' hr; exact .stay hr (.str s)
  · intro xs ih ρ h h' hr
    rw [alloc, alloc]
    exact (ih ρ h h' hr).trans fun σ s1 _ s3 => (s1.new (.arr s3)).weaken fun τ _ t => .ref t
  · intro c fs ih ρ h h' hr
    rw [alloc, alloc]
    exact (ih ρ h h' hr).trans fun σ s1 _ s3 => (s1.new (.msg c s3)).weaken fun τ _ t => .ref t
  · intro ρ h h' hr; exact .stay hr .nil
  · intro v vs ih1 ih2 ρ h h' hr
    rw [allocAll, allocAll]
    exact (ih1 ρ h h' hr).trans fun σ s1 _ s3 => (ih2 σ _ _ s1).weaken fun τ t1 t2 => .cons (s3.mono t1) t2

/-! ### A step of a decoding thread -/

/-- Calls in progress are the same, up to the places of objects. -/
inductive RelDA (ρ : Nat → Nat → Prop) : DActivation → DActivation → Prop
  | idle {r r'} (c todo) : ρ r r' → RelDA ρ ⟨r, c, todo, none⟩ ⟨r', c, todo, none⟩
  | loop {r r'} (c todo f el k) : ρ r r' → RelDA ρ ⟨r, c, todo, some (f, el, k, none)⟩ ⟨r', c, todo, some (f, el, k, none)⟩
  | add {r r' q q'} (c todo f el k) : ρ r r' → ρ q q' → RelDA ρ ⟨r, c, todo, some (f, el, k, some q)⟩ ⟨r', c, todo, some (f, el, k, some q')⟩

/-- Decoding threads are in the same state, up to the places of objects. -/
structure RelD (ρ : Nat → Nat → Prop) (t t' : DThread) : Prop where
  stack : Pw (RelDA ρ) t.stack t'.stack
  buf : t.buf = t'.buf
  err : t.err = t'.err

theorem RelDA.mono {ρ σ : Nat → Nat → Prop} (h : ∀ a b, ρ a b → σ a b) {x y : DActivation} (r : RelDA ρ x y) : RelDA σ x y := by
  cases r with
  | idle c todo h1 => exact .idle c todo (h _ _ h1)
  | loop c todo f el k h1 => exact .loop c todo f el k (h _ _ h1)
  | add c todo f el k h1 h2 => exact .add c todo f el k (h _ _ h1) (h _ _ h2)

theorem RelD.mono {ρ σ : Nat → Nat → Prop} (h : ∀ a b, ρ a b → σ a b) {x y : DThread} (r : RelD ρ x y) : RelD σ x y :=
  ⟨r.stack.mono fun _ _ => RelDA.mono h, r.buf, r.err⟩

theorem RelD.throw {ρ : Nat → Nat → Prop} {t t' : DThread} (r : RelD ρ t t') (e : JErr) : RelD ρ (t.throw e) (t'.throw e) :=
  ⟨r.stack, r.buf, rfl⟩

section
variable {ρ : Nat → Nat → Prop} {h h' : Heap} (hr : Ren ρ h h')
include hr

theorem denter_rel (n : Nat) {r r' : Nat} (hrr : ρ r r') {t t' : DThread} (ht : RelD ρ t t') : RelD ρ (t.enter n r h) (t'.enter n r' h') := by
  unfold DThread.enter
  rw [← ht.stack.length]
  split
  · obtain ⟨o, o', h1, h2, h3⟩ := hr.obj r r' hrr
    rw [h1, h2]
    cases h3 with
    | msg c h3 => exact ⟨.cons (.idle c _ hrr) ht.stack, ht.buf, ht.err⟩
    | arr h3 => exact ht.throw _
  · exact ht.throw _

theorem enterField_rel (n f : Nat) {r r' : Nat} (hrr : ρ r r') {t t' : DThread} (ht : RelD ρ t t') :
    RelD ρ (t.enterField n r f h) (t'.enterField n r' f h') := by
  unfold DThread.enterField
  rcases hr.field hrr f with ⟨h1, h2⟩ | ⟨x, y, h1, h2, h3⟩
  · rw [h1, h2]; exact ht.throw _
  · rw [h1, h2]
    cases h3 with
    | null => exact ht.throw _
    | num n => exact ht.throw _
    | str s => exact ht.throw _
    | ref h3 =>
      obtain ⟨o, o', h4, h5, h6⟩ := hr.obj _ _ h3
      dsimp only
      rw [h4, h5]
      cases h6 with
      | msg c h6 => exact denter_rel hr n h3 ht
      | arr h6 => exact ht.throw _

theorem hadd_moves (f : Nat) {r r' : Nat} (hrr : ρ r r') {x y : HVal} (hxy : RelV ρ x y) :
    (hadd h r f x).2 = (hadd h' r' f y).2
      ∧ ∀ {Q : (Nat → Nat → Prop) → Prop}, Q ρ → Moves ρ h h' (hadd h r f x).1 (hadd h' r' f y).1 Q := by
  unfold hadd
  rcases hr.field hrr f with ⟨h1, h2⟩ | ⟨x, y, h1, h2, h3⟩
  · rw [h1, h2]; exact ⟨rfl, fun hq => .stay hr hq⟩
  · rw [h1, h2]
    cases h3 with
    | null => exact ⟨rfl, fun hq => .stay hr hq⟩
    | num n => exact ⟨rfl, fun hq => .stay hr hq⟩
    | str s => exact ⟨rfl, fun hq => .stay hr hq⟩
    | ref h3 =>
      obtain ⟨o, o', h4, h5, h6⟩ := hr.obj _ _ h3
      dsimp only
      rw [h4, h5]
      cases h6 with
      | msg c h6 => exact ⟨rfl, fun hq => .stay hr hq⟩
      | arr h6 => exact ⟨rfl, fun hq => hr.set h3 (.arr (h6.snoc hxy)) hq⟩

/-- A new object assigned to a field. -/
theorem new_field (f : Nat) {r r' : Nat} (hrr : ρ r r') {o o' : HObj} (ho : RelO ρ o o') {Q : (Nat → Nat → Prop) → Prop}
    (hq : ∀ σ, (∀ a b, ρ a b → σ a b) → Q σ) :
    Moves ρ h h' (Heap.setField (h ++ [o]) r f (.ref h.length)) (Heap.setField (h' ++ [o']) r' f (.ref h'.length)) Q :=
  (hr.new ho).trans fun σ s1 s2 s3 => s1.setField (s2 _ _ hrr) f (.ref s3) (hq σ s2)

end

/-- All suppliers build a new object each time. -/
def Makes (sup : Suppliers) : Prop := ∀ fac k s, sup fac k = some s → ∃ v, s = .make v

theorem makes_suppliers (w : World) : Makes w.suppliers := by
  intro fac k s hs
  unfold World.suppliers at hs
  cases hf : w.fac fac k with
  | none => rw [hf] at hs; cases hs
  | some v => rw [hf] at hs; cases hs; exact ⟨v, rfl⟩

theorem dstep_moves {sup : Suppliers} (hm : Makes sup) (n : Nat) {ρ : Nat → Nat → Prop} {h h' : Heap} (hr : Ren ρ h h') {t t' : DThread}
    (ht : RelD ρ t t') :
    Moves ρ h h' (t.step sup n h).1 (t'.step sup n h').1 (fun σ => RelD σ (t.step sup n h).2 (t'.step sup n h').2) := by
  obtain ⟨stk, b, err⟩ := t
  obtain ⟨stk', b', err'⟩ := t'
  obtain ⟨hstk, hb, he⟩ := ht
  dsimp only at hstk hb he
  subst hb he
  rcases err with _ | e
  case some => exact .stay hr ⟨hstk, rfl, rfl⟩
  cases hstk with
  | nil => exact .stay hr ⟨.nil, rfl, rfl⟩
  | cons ha hstk =>
    rename_i as as'
    have up : ∀ {σ : Nat → Nat → Prop}, (∀ a b, ρ a b → σ a b) → Pw (RelDA σ) as as' := fun s => hstk.mono fun _ _ => RelDA.mono s
    cases ha with
    | add c todo f el k hrr hqq =>
      simp only [DThread.step, DThread.iterate]
      obtain ⟨e1, e2⟩ := hadd_moves hr f hrr (.ref hqq)
      exact e2 ⟨.cons (.loop c todo f el k hrr) hstk, rfl, e1⟩
    | loop c todo f el k hrr =>
      rename_i r r'
      cases k with
      | zero => exact .stay hr ⟨.cons (.idle c todo hrr) hstk, rfl, rfl⟩
      | succ k =>
        have add : ∀ (x : HVal) (b' : RBuf), RelV ρ x x →
            Moves ρ h h' (hadd h r f x).1 (hadd h' r' f x).1 (fun σ =>
              RelD σ ⟨⟨r, c, todo, some (f, el, k, none)⟩ :: as, b', (hadd h r f x).2⟩
                ⟨⟨r', c, todo, some (f, el, k, none)⟩ :: as', b', (hadd h' r' f x).2⟩) := by
          intro x b' hx
          obtain ⟨e1, e2⟩ := hadd_moves hr f hrr hx
          exact e2 ⟨.cons (.loop c todo f el k hrr) hstk, rfl, e1⟩
        have no : ∀ (b' : RBuf) (e : Option JErr), Moves ρ h h' h h' (fun σ =>
            RelD σ ⟨⟨r, c, todo, some (f, el, k, none)⟩ :: as, b', e⟩ ⟨⟨r', c, todo, some (f, el, k, none)⟩ :: as', b', e⟩) :=
          fun b' e => .stay hr ⟨.cons (.loop c todo f el k hrr) hstk, rfl, rfl⟩
        simp only [DThread.step, DThread.iterate]
        cases el with
        | num ty e =>
          simp only [hdecElem]
          rcases b.readNum e ty with ⟨b', e | x⟩
          · exact no _ _
          · exact add _ _ (.num x)
        | fixed len pad left =>
          simp only [hdecElem]
          rcases readFixedString b len pad left with ⟨b', e | x⟩
          · exact no _ _
          · exact add _ _ (.str x)
        | dyn ty e =>
          simp only [hdecElem]
          rcases readDyn b ty e with ⟨b', e | _ | x⟩
          · exact no _ _
          · exact no _ _
          · exact add _ _ (.str x)
        | obj d =>
          exact (hr.new (newMsg_rel ρ d)).trans fun σ s1 s2 s3 =>
            .stay s1 (denter_rel s1 n s3 ⟨.cons (.add c todo f _ k (s2 _ _ hrr) s3) (up s2), rfl, rfl⟩)
    | idle c todo hrr =>
      rename_i r r'
      cases todo with
      | nil => exact .stay hr ⟨hstk, rfl, rfl⟩
      | cons s ss =>
        have no : ∀ (b' : RBuf) (e : Option JErr), Moves ρ h h' h h' (fun σ =>
            RelD σ ⟨⟨r, c, ss, none⟩ :: as, b', e⟩ ⟨⟨r', c, ss, none⟩ :: as', b', e⟩) :=
          fun b' e => .stay hr ⟨.cons (.idle c ss hrr) hstk, rfl, rfl⟩
        have asg : ∀ (f : Nat) (x : HVal) (b' : RBuf), RelV ρ x x → Moves ρ h h' (h.setField r f x) (h'.setField r' f x) (fun σ =>
            RelD σ ⟨⟨r, c, ss, none⟩ :: as, b', none⟩ ⟨⟨r', c, ss, none⟩ :: as', b', none⟩) :=
          fun f x b' hx => hr.setField hrr f hx ⟨.cons (.idle c ss hrr) hstk, rfl, rfl⟩
        simp only [DThread.step]
        cases s with
        | num f ty e =>
          simp only [DThread.exec, hdecStmt]
          rcases b.readNum e ty with ⟨b', e | x⟩
          · exact no _ _
          · dsimp only
            generalize Option.bind _ (fun y => assignNum y x) = o
            rcases o with _ | _ | m | _ | _ | _
            · exact no _ _
            · exact no _ _
            · exact asg f _ _ (.num m)
            · exact no _ _
            · exact no _ _
            · exact no _ _
        | fixed f len pad left =>
          simp only [DThread.exec, hdecStmt]
          rcases readFixedString b len pad left with ⟨b', e | x⟩
          · exact no _ _
          · exact asg f _ _ (.str _)
        | dyn f ty e =>
          simp only [DThread.exec, hdecStmt]
          rcases readDyn b ty e with ⟨b', e | _ | x⟩
          · exact no _ _
          · exact no _ _
          · exact asg f _ _ (.str _)
        | list f ty e el =>
          simp only [DThread.exec]
          rcases b.readNum e ty with ⟨b', e | x⟩
          · exact no _ _
          · dsimp only
            split
            · exact new_field hr f hrr (.arr .nil) fun σ s => ⟨.cons (.loop c ss f el _ (s _ _ hrr)) (up s), rfl, rfl⟩
            · exact no _ _
        | obj f d =>
          simp only [DThread.exec]
          rcases hr.field hrr f with ⟨h1, h2⟩ | ⟨x, y, h1, h2, h3⟩
          · rw [h1, h2]; exact .stay hr ⟨.cons (.idle c _ hrr) hstk, rfl, rfl⟩
          · rw [h1, h2]
            cases h3 with
            | null => exact new_field hr f hrr (newMsg_rel ρ d) fun σ s => ⟨.cons (.idle c _ (s _ _ hrr)) (up s), rfl, rfl⟩
            | _ => exact .stay hr ⟨.cons (.idle c _ hrr) hstk, rfl, rfl⟩
        | call f =>
          simp only [DThread.exec]
          exact .stay hr (enterField_rel hr n f hrr ⟨.cons (.idle c ss hrr) hstk, rfl, rfl⟩)
        | create f fac key =>
          simp only [DThread.exec, hdecStmt]
          rcases hr.field hrr key with ⟨h1, h2⟩ | ⟨x, y, h1, h2, h3⟩
          · rw [h1, h2]; exact no _ _
          · rw [h1, h2]
            dsimp only
            rw [h3.leaf]
            cases hs : sup fac (keyOf y.leaf) with
            | none => exact no _ _
            | some s =>
              obtain ⟨v, rfl⟩ := hm fac _ s hs
              exact (alloc_moves v ρ h h' hr).trans fun σ s1 s2 s3 =>
                s1.setField (s2 _ _ hrr) f s3 ⟨.cons (.idle c ss (s2 _ _ hrr)) (up s2), rfl, rfl⟩

/-! ### A step of an encoding thread -/

/-- Calls in progress are the same, up to the places of objects. -/
inductive RelHA (ρ : Nat → Nat → Prop) : Activation → Activation → Prop
  | mk {r r'} (todo loc loop) : ρ r r' → RelHA ρ ⟨r, todo, loc, loop⟩ ⟨r', todo, loc, loop⟩

/-- Encoding threads are in the same state, up to the places of objects. -/
structure RelH (ρ : Nat → Nat → Prop) (t t' : HThread) : Prop where
  stack : Pw (RelHA ρ) t.stack t'.stack
  buf : t.buf = t'.buf
  err : t.err = t'.err

theorem RelHA.mono {ρ σ : Nat → Nat → Prop} (h : ∀ a b, ρ a b → σ a b) {x y : Activation} (r : RelHA ρ x y) : RelHA σ x y := by
  cases r with
  | mk todo loc loop h1 => exact .mk todo loc loop (h _ _ h1)

theorem RelH.mono {ρ σ : Nat → Nat → Prop} (h : ∀ a b, ρ a b → σ a b) {x y : HThread} (r : RelH ρ x y) : RelH σ x y :=
  ⟨r.stack.mono fun _ _ => RelHA.mono h, r.buf, r.err⟩

theorem RelH.throw {ρ : Nat → Nat → Prop} {t t' : HThread} (r : RelH ρ t t') (e : JErr) : RelH ρ (t.throw e) (t'.throw e) :=
  ⟨r.stack, r.buf, rfl⟩

theorem RelH.wrote {ρ : Nat → Nat → Prop} {t t' : HThread} (r : RelH ρ t t') (o : WBuf × Option JErr) : RelH ρ (t.wrote o) (t'.wrote o) :=
  ⟨r.stack, rfl, rfl⟩

section
variable {ρ : Nat → Nat → Prop} {h h' : Heap} (hr : Ren ρ h h')
include hr

theorem henter_rel (n : Nat) {x y : HVal} (hxy : RelV ρ x y) {t t' : HThread} (ht : RelH ρ t t') : RelH ρ (t.enter n x h) (t'.enter n y h') := by
  cases hxy with
  | null => exact ht.throw _
  | num k => unfold HThread.enter; rw [← ht.stack.length]; dsimp only; split <;> exact ht.throw _
  | str k => unfold HThread.enter; rw [← ht.stack.length]; dsimp only; split <;> exact ht.throw _
  | ref hrr =>
    unfold HThread.enter
    rw [← ht.stack.length]
    dsimp only
    split
    · obtain ⟨o, o', h1, h2, h3⟩ := hr.obj _ _ hrr
      rw [h1, h2]
      cases h3 with
      | msg c h3 => exact ⟨.cons (.mk _ _ _ hrr) ht.stack, ht.buf, ht.err⟩
      | arr h3 => exact ht.throw _
    · exact ht.throw _

theorem hstep_moves (w : World) (n : Nat) {t t' : HThread} (ht : RelH ρ t t') :
    Moves ρ h h' (t.step w n h).1 (t'.step w n h').1 (fun σ => RelH σ (t.step w n h).2 (t'.step w n h').2) := by
  obtain ⟨stk, b, err⟩ := t
  obtain ⟨stk', b', err'⟩ := t'
  obtain ⟨hstk, hb, he⟩ := ht
  dsimp only at hstk hb he
  subst hb he
  rcases err with _ | e
  case some => exact .stay hr ⟨hstk, rfl, rfl⟩
  cases hstk with
  | nil => exact .stay hr ⟨.nil, rfl, rfl⟩
  | cons ha hstk =>
    rename_i as as'
    obtain ⟨todo, loc, loop, hrr⟩ := ha
    rename_i r r'
    rcases loop with _ | ⟨f, el, i⟩
    · cases todo with
      | nil => exact .stay hr ⟨hstk, rfl, rfl⟩
      | cons s ss =>
        have top : ∀ (loc : Nat → Option Nat) (l : Option (Nat × EncElem × Nat)) (b' : WBuf) (e : Option JErr),
            RelH ρ ⟨⟨r, ss, loc, l⟩ :: as, b', e⟩ ⟨⟨r', ss, loc, l⟩ :: as', b', e⟩ := fun loc l b' e => ⟨.cons (.mk _ _ _ hrr) hstk, rfl, rfl⟩
        have asg : ∀ (f : Nat) (k : Num), Moves ρ h h' (h.setField r f (.num k)) (h'.setField r' f (.num k)) (fun σ =>
            RelH σ ⟨⟨r, ss, loc, none⟩ :: as, b, none⟩ ⟨⟨r', ss, loc, none⟩ :: as', b, none⟩) :=
          fun f k => hr.setField hrr f (.num k) ⟨.cons (.mk _ _ _ hrr) hstk, rfl, rfl⟩
        simp only [HThread.step]
        cases s with
        | list f zt p e el =>
          simp only [HThread.exec]
          rcases hr.field hrr f with ⟨h1, h2⟩ | ⟨x, y, h1, h2, h3⟩
          · have h4 : h.listAt r f = none := by simp [Heap.listAt, h1]
            have h5 : h'.listAt r' f = none := by simp [Heap.listAt, h2]
            rw [h1, h2, h4, h5]
            exact .stay hr (top _ _ _ _)
          · rw [h1, h2]
            have hl := hr.listAt hrr f
            cases h3 with
            | null => exact .stay hr (top _ _ _ _)
            | _ =>
              dsimp only
              rcases hl with ⟨h4, h5⟩ | ⟨xs, ys, h4, h5, h6⟩
              · rw [h4, h5]; exact .stay hr (top _ _ _ _)
              · rw [h4, h5]
                have hlen := h6.length
                cases h6 with
                | nil => exact .stay hr (top _ _ _ _)
                | cons h7 h8 =>
                  dsimp only
                  rw [hlen]
                  exact .stay hr (top _ _ _ _)
        | obj f =>
          simp only [HThread.exec]
          rcases hr.field hrr f with ⟨h1, h2⟩ | ⟨x, y, h1, h2, h3⟩
          · rw [h1, h2]; exact .stay hr (top _ _ _ _)
          · rw [h1, h2]; exact .stay hr (henter_rel hr n h3 (top _ _ _ _))
        | objOpt f =>
          simp only [HThread.exec]
          rcases hr.field hrr f with ⟨h1, h2⟩ | ⟨x, y, h1, h2, h3⟩
          · rw [h1, h2]; exact .stay hr (top _ _ _ _)
          · rw [h1, h2]
            cases h3 with
            | null => exact .stay hr (top _ _ _ _)
            | num k => exact .stay hr (henter_rel hr n (.num k) (top _ _ _ _))
            | str k => exact .stay hr (henter_rel hr n (.str k) (top _ _ _ _))
            | ref k => exact .stay hr (henter_rel hr n (.ref k) (top _ _ _ _))
        | setLen f x y =>
          simp only [HThread.exec, hencStmt]
          rcases loc x with _ | p
          · exact .stay hr (top _ _ _ _)
          · rcases loc y with _ | q
            · exact .stay hr (top _ _ _ _)
            · exact asg f _
        | checksum f alg =>
          simp only [HThread.exec, hencStmt]
          rcases hg : Registry.getService w.svc alg with _ | sv
          · exact .stay hr (top _ _ _ _)
          · exact asg f _
        | num f p e =>
          simp only [HThread.exec, hencStmt]
          rcases hr.field hrr f with ⟨h1, h2⟩ | ⟨x, y, h1, h2, h3⟩
          · rw [h1, h2]; exact .stay hr (top _ _ _ _)
          · rw [h1, h2]; cases h3 <;> exact .stay hr (top _ _ _ _)
        | fixed f k pad left =>
          simp only [HThread.exec, hencStmt]
          rcases hr.field hrr f with ⟨h1, h2⟩ | ⟨x, y, h1, h2, h3⟩
          · rw [h1, h2]; exact .stay hr (top _ _ _ _)
          · rw [h1, h2]; dsimp only; rw [h3.leaf]; exact .stay hr (top _ _ _ _)
        | dyn f zt p e =>
          simp only [HThread.exec, hencStmt]
          rcases hr.field hrr f with ⟨h1, h2⟩ | ⟨x, y, h1, h2, h3⟩
          · rw [h1, h2]; exact .stay hr (top _ _ _ _)
          · rw [h1, h2]; dsimp only; rw [h3.leaf]; exact .stay hr (top _ _ _ _)
        | patch x f p e =>
          simp only [HThread.exec, hencStmt]
          rcases loc x with _ | q
          · exact .stay hr (top _ _ _ _)
          · rcases hr.field hrr f with ⟨h1, h2⟩ | ⟨x, y, h1, h2, h3⟩
            · rw [h1, h2]; exact .stay hr (top _ _ _ _)
            · rw [h1, h2]
              cases h3 with
              | num k =>
                dsimp only
                rcases k.convert p with _ | _ <;> exact .stay hr (top _ _ _ _)
              | _ => exact .stay hr (top _ _ _ _)
        | save x => exact .stay hr (top _ _ _ _)
        | zero p e => exact .stay hr (top _ _ _ _)
    · have top : ∀ (l : Option (Nat × EncElem × Nat)) (b' : WBuf) (e : Option JErr),
          RelH ρ ⟨⟨r, todo, loc, l⟩ :: as, b', e⟩ ⟨⟨r', todo, loc, l⟩ :: as', b', e⟩ := fun l b' e => ⟨.cons (.mk _ _ _ hrr) hstk, rfl, rfl⟩
      simp only [HThread.step, HThread.iterate]
      rcases hr.listAt hrr f with ⟨h1, h2⟩ | ⟨xs, ys, h1, h2, h3⟩
      · have hnull : (h.field r f = some .null) = (h'.field r' f = some .null) := by
          rcases hr.field hrr f with ⟨h3, h4⟩ | ⟨x, y, h3, h4, h5⟩
          · rw [h3, h4]
          · rw [h3, h4]
            cases h5 <;> simp
        rw [h1, h2]
        simp only [hnull]
        exact .stay hr (top _ _ _)
      · rw [h1, h2]
        dsimp only
        rcases h3.get i with ⟨h4, h5⟩ | ⟨x, y, h4, h5, h6⟩
        · rw [h4, h5]; exact .stay hr (top _ _ _)
        · rw [h4, h5]
          dsimp only
          rw [h6.leaf]
          cases el with
          | obj => exact .stay hr (henter_rel hr n h6 (top _ _ _))
          | _ => exact .stay hr (top _ _ _)

end

/-! ### Threads -/

/-- Threads are in the same state, up to the places of objects. -/
inductive RelW (ρ : Nat → Nat → Prop) : Worker → Worker → Prop
  | enc {t t'} : RelH ρ t t' → RelW ρ (.enc t) (.enc t')
  | dec {t t'} : RelD ρ t t' → RelW ρ (.dec t) (.dec t')

theorem wstep_moves {sup : Suppliers} (hm : Makes sup) (w : World) (n : Nat) {ρ : Nat → Nat → Prop} {h h' : Heap} (hr : Ren ρ h h') {t t' : Worker}
    (ht : RelW ρ t t') :
    Moves ρ h h' (t.step w sup n h).1 (t'.step w sup n h').1 (fun σ => RelW σ (t.step w sup n h).2 (t'.step w sup n h').2) := by
  cases ht with
  | enc ht => exact (hstep_moves hr w n ht).weaken fun σ _ h => .enc h
  | dec ht => exact (dstep_moves hm n hr ht).weaken fun σ _ h => .dec h

/-- `k` steps of a thread alone. -/
def Worker.go (w : World) (sup : Suppliers) (n : Nat) : Nat → Heap × Worker → Heap × Worker
  | 0, p => p
  | k + 1, p => Worker.go w sup n k (p.2.step w sup n p.1)

theorem Worker.go_succ (w : World) (sup : Suppliers) (n : Nat) (k : Nat) : ∀ p : Heap × Worker,
    Worker.go w sup n (k + 1) p = (Worker.go w sup n k p).2.step w sup n (Worker.go w sup n k p).1 := by
  induction k with
  | zero => intro p; rfl
  | succ k ih => intro p; exact ih _

theorem go_enc (w : World) (sup : Suppliers) (n : Nat) (k : Nat) : ∀ (h : Heap) (t : HThread),
    Worker.go w sup n k (h, .enc t) = ((HThread.go w n k (h, t)).1, .enc (HThread.go w n k (h, t)).2) := by
  induction k with
  | zero => intro h t; rfl
  | succ k ih => intro h t; exact ih _ _

theorem go_dec (w : World) (sup : Suppliers) (n : Nat) (k : Nat) : ∀ (h : Heap) (t : DThread),
    Worker.go w sup n k (h, .dec t) = ((DThread.go sup n k (h, t)).1, .dec (DThread.go sup n k (h, t)).2) := by
  induction k with
  | zero => intro h t; rfl
  | succ k ih => intro h t; exact ih _ _

/-- The invariant: each thread is where it would be alone after as many steps, up to the places of objects, and different threads have
nothing in common. -/
structure WInv (w : World) (sup : Suppliers) (n : Nat) (h0 : Heap) (t0 : Nat → Worker) (P : Nat → Nat → Prop) (st : WSys) (ks : Nat → Nat)
    (ρ : Nat → Nat → Nat → Prop) : Prop where
  ren : ∀ i, Ren (ρ i) (Worker.go w sup n (ks i) (h0, t0 i)).1 st.h
  thr : ∀ i, RelW (ρ i) (Worker.go w sup n (ks i) (h0, t0 i)).2 (st.thr i)
  apart : ∀ i j, i ≠ j → ∀ a a' b, ρ i a b → ¬ ρ j a' b
  init : ∀ i q, P i q → ρ i q q
  old : ∀ i a b, ρ i a b → b < h0.length → P i b
  len : h0.length ≤ st.h.length
  rest : ∀ q < h0.length, (∀ i, ¬ P i q) → st.h[q]? = h0[q]?

theorem WInv.step {w : World} {sup : Suppliers} (hm : Makes sup) {n : Nat} {h0 : Heap} {t0 : Nat → Worker} {P : Nat → Nat → Prop} {st : WSys}
    {ks : Nat → Nat} {ρ : Nat → Nat → Nat → Prop} (hi : WInv w sup n h0 t0 P st ks ρ) (i : Nat) :
    ∃ ρ', WInv w sup n h0 t0 P (st.step w sup n i) (fun j => if j = i then ks i + 1 else ks j) ρ' := by
  obtain ⟨σ, s1, s2, s3, s4, s5, s6⟩ := wstep_moves hm w n (hi.ren i) (hi.thr i)
  refine ⟨fun j => if j = i then σ else ρ j, ?_, ?_, ?_, ?_, ?_, ?_, ?_⟩
  · intro j
    by_cases hj : j = i
    · subst hj
      simp only [if_true, Worker.go_succ]
      exact s1
    · simp only [if_neg hj]
      refine ⟨(hi.ren j).fn, (hi.ren j).inj, fun a b hab => ?_⟩
      obtain ⟨o, o', h1, h2, h3⟩ := (hi.ren j).obj a b hab
      refine ⟨o, o', h1, ?_, h3⟩
      show ((st.thr i).step w sup n st.h).1[b]? = _
      rw [s5 b ((hi.ren j).lt hab).2 (fun a' ha' => hi.apart j i hj a a' b hab ha'), h2]
  · intro j
    by_cases hj : j = i
    · subst hj
      simp only [if_true, Worker.go_succ, WSys.step]
      exact s6
    · simp only [if_neg hj, WSys.step]
      exact hi.thr j
  · have key : ∀ j, j ≠ i → ∀ a a' b, σ a b → ¬ ρ j a' b := by
      intro j hj a a' b h1 h2
      rcases s3 a b h1 with h | h
      · exact hi.apart i j (Ne.symm hj) a a' b h h2
      · have := ((hi.ren j).lt h2).2; omega
    intro j l hjl a a' b
    by_cases hj : j = i
    · subst hj
      simp only [if_true, if_neg (Ne.symm hjl)]
      exact key l (Ne.symm hjl) a a' b
    · by_cases hl : l = i
      · subst hl
        simp only [if_true, if_neg hj]
        exact fun h1 h2 => key j hj a' a b h2 h1
      · simp only [if_neg hj, if_neg hl]
        exact hi.apart j l hjl a a' b
  · intro j q hq
    by_cases hj : j = i
    · subst hj
      simp only [if_true]
      exact s2 q q (hi.init j q hq)
    · simp only [if_neg hj]
      exact hi.init j q hq
  · intro j a b
    by_cases hj : j = i
    · subst hj
      simp only [if_true]
      intro h1 hb
      rcases s3 a b h1 with h | h
      · exact hi.old j a b h hb
      · have := hi.len; omega
    · simp only [if_neg hj]
      exact hi.old j a b
  · show h0.length ≤ ((st.thr i).step w sup n st.h).1.length
    have := hi.len
    omega
  · intro q hq hn
    show ((st.thr i).step w sup n st.h).1[q]? = _
    rw [s5 q (by have := hi.len; omega) (fun a ha => hn i (hi.old i a q ha hq)), hi.rest q hq hn]

theorem WInv.run {w : World} {sup : Suppliers} (hm : Makes sup) {n : Nat} {h0 : Heap} {t0 : Nat → Worker} {P : Nat → Nat → Prop}
    (sched : List Nat) : ∀ (st : WSys) (ks : Nat → Nat) (ρ : Nat → Nat → Nat → Prop), WInv w sup n h0 t0 P st ks ρ →
    ∃ ρ', WInv w sup n h0 t0 P (st.run w sup n sched) (fun j => ks j + sched.count j) ρ' := by
  induction sched with
  | nil => intro st ks ρ hi; exact ⟨ρ, hi⟩
  | cons i sched ih =>
    intro st ks ρ hi
    obtain ⟨σ, hs⟩ := hi.step hm i
    obtain ⟨τ, ht⟩ := ih _ _ σ hs
    refine ⟨τ, ?_⟩
    refine (funext fun j => ?_ : (fun j => (if j = i then ks i + 1 else ks j) + sched.count j) = fun j => ks j + (i :: sched).count j) ▸ ht
    by_cases hj : j = i
    · subst hj; simp; omega
    · rw [List.count_cons_of_ne (fun e => hj e.symm)]; simp [hj]

theorem reach_rel (h : Heap) (x : HVal) (hlive : ∀ q, Reach h x q → q < h.length) : Ren (fun a b => a = b ∧ Reach h x a) h h := by
  refine ⟨fun a b b' h1 h2 => h1.1.symm.trans h2.1, fun a a' b h1 h2 => h1.1.trans h2.1.symm, ?_⟩
  rintro a b ⟨rfl, hq⟩
  have hlt := hlive a hq
  have ho : h[a]? = some h[a] := List.getElem?_eq_getElem hlt
  refine ⟨h[a], h[a], ho, ho, ?_⟩
  have hcl := reach_closed h x a _ hq ho
  have hpw : ∀ xs : List HVal, (∀ q, HVal.ref q ∈ xs → Reach h x q) → Pw (RelV fun a b => a = b ∧ Reach h x a) xs xs := by
    intro xs
    induction xs with
    | nil => intro _; exact .nil
    | cons y ys ih =>
      intro hq
      refine .cons ?_ (ih fun q h => hq q (List.mem_cons_of_mem _ h))
      cases y with
      | null => exact .null
      | num n => exact .num n
      | str s => exact .str s
      | ref q => exact .ref ⟨rfl, hq q (List.mem_cons_self ..)⟩
  revert hcl
  cases h[a] with
  | msg c ys => intro hcl; exact .msg c (hpw ys hcl)
  | arr ys => intro hcl; exact .arr (hpw ys hcl)

theorem WInv.start (w : World) (sup : Suppliers) (n : Nat) (h : Heap) (jobs : Nat → Job)
    (hlive : ∀ i q, Reach h (jobs i).root q → q < h.length) (hsep : ∀ i j, i ≠ j → ∀ q, Reach h (jobs i).root q → ¬ Reach h (jobs j).root q) :
    WInv w sup n h (fun i => (jobs i).start n h) (fun i => Reach h (jobs i).root) (WSys.start n h jobs) (fun _ => 0)
      (fun i a b => a = b ∧ Reach h (jobs i).root a) := by
  refine ⟨fun i => reach_rel h _ (hlive i), fun i => ?_, ?_, fun i q hq => ⟨rfl, hq⟩, ?_, Nat.le_refl _, fun _ _ _ => rfl⟩
  · show RelW _ ((jobs i).start n h) ((jobs i).start n h)
    have hr := reach_rel h _ (hlive i)
    revert hr
    cases jobs i with
    | enc x b =>
      intro hr
      refine .enc (henter_rel hr n ?_ ⟨.nil, rfl, rfl⟩)
      cases x with
      | null => exact .null
      | num n => exact .num n
      | str s => exact .str s
      | ref q => exact .ref ⟨rfl, .here q⟩
    | dec r b =>
      intro hr
      exact .dec (denter_rel hr n ⟨rfl, .here r⟩ ⟨.nil, rfl, rfl⟩)
  · rintro i j hij a a' b ⟨rfl, h1⟩ ⟨rfl, h2⟩
    exact hsep i j hij _ h1 h2
  · rintro i a b ⟨rfl, h1⟩ _
    exact h1

/-- What is shown does not depend on the places of objects. -/
theorem shows_rel {ρ : Nat → Nat → Prop} {h h' : Heap} (hr : Ren ρ h h') (v : Val) : ∀ x y, RelV ρ x y → Shows h v x → Shows h' v y := by
  apply Val.rec
    (motive_1 := fun v => ∀ x y, RelV ρ x y → Shows h v x → Shows h' v y)
    (motive_2 := fun vs => ∀ xs ys, Pw (RelV ρ) xs ys → ShowsAll h vs xs → ShowsAll h' vs ys)
  · intro x y hxy hs; rw [Shows] at hs ⊢; subst hs; cases hxy; rfl
  · intro n x y hxy hs; rw [Shows] at hs ⊢; subst hs; cases hxy; rfl
  · intro s x y hxy hs; rw [Shows] at hs ⊢; subst hs; cases hxy; rfl
  · intro vs ih x y hxy hs
    rw [Shows] at hs ⊢
    obtain ⟨a, xs, rfl, ha, hs⟩ := hs
    cases hxy with
    | ref hab =>
      obtain ⟨o, o', h1, h2, h3⟩ := hr.obj _ _ hab
      rw [ha] at h1
      cases h1
      cases h3 with
      | arr h3 => exact ⟨_, _, rfl, h2, ih _ _ h3 hs⟩
  · intro c vs ih x y hxy hs
    rw [Shows] at hs ⊢
    obtain ⟨a, xs, rfl, ha, hs⟩ := hs
    cases hxy with
    | ref hab =>
      obtain ⟨o, o', h1, h2, h3⟩ := hr.obj _ _ hab
      rw [ha] at h1
      cases h1
      cases h3 with
      | msg _ h3 => exact ⟨_, _, rfl, h2, ih _ _ h3 hs⟩
  · intro xs ys hp hs; rw [ShowsAll] at hs ⊢; subst hs; cases hp; rfl
  · intro v vs ih1 ih2 xs ys hp hs
    rw [ShowsAll] at hs ⊢
    obtain ⟨z, zs, rfl, h1, h2⟩ := hs
    cases hp with
    | cons h3 h4 => exact ⟨_, _, rfl, ih1 _ _ h3 h1, ih2 _ _ h4 h2⟩

/-- Related places are reached from related places only. -/
theorem reach_to {ρ : Nat → Nat → Prop} {h h' : Heap} (hr : Ren ρ h h') {y : HVal} {q : Nat} (hq : Reach h' y q) :
    ∀ x, RelV ρ x y → ∃ p, ρ p q ∧ Reach h x p := by
  induction hq with
  | here r =>
    intro x hx
    cases hx with
    | ref hab => exact ⟨_, hab, .here _⟩
  | step r q o y ho hy _ ih =>
    intro x hx
    cases hx with
    | ref hab =>
      obtain ⟨p, p', h1, h2, h3⟩ := hr.obj _ _ hab
      rw [ho] at h2
      cases h2
      have key : ∀ (xs ys : List HVal), Pw (RelV ρ) xs ys → y ∈ ys → ∃ z ∈ xs, RelV ρ z y := by
        intro xs ys hp
        induction hp with
        | nil => intro h; cases h
        | cons h4 _ ih =>
          intro h
          rcases List.mem_cons.mp h with rfl | h
          · exact ⟨_, List.mem_cons_self .., h4⟩
          · obtain ⟨z, h5, h6⟩ := ih h
            exact ⟨z, List.mem_cons_of_mem _ h5, h6⟩
      cases h3 with
      | msg c h3 =>
        obtain ⟨z, h5, h6⟩ := key _ _ h3 hy
        obtain ⟨p, h7, h8⟩ := ih z h6
        exact ⟨p, h7, .step _ _ _ z h1 h5 h8⟩
      | arr h3 =>
        obtain ⟨z, h5, h6⟩ := key _ _ h3 hy
        obtain ⟨p, h7, h8⟩ := ih z h6
        exact ⟨p, h7, .step _ _ _ z h1 h5 h8⟩

/-- A job alone ends, with the outcome of `alone`. -/
theorem go_alone (w : World) (sup : Suppliers) (n : Nat) (h : Heap) (j : Job) : ∃ K, ∀ k,
    (K ≤ k → (Worker.go w sup n k (h, j.start n h)).2.finished)
    ∧ ((Worker.go w sup n k (h, j.start n h)).2.finished →
        (Worker.go w sup n k (h, j.start n h)).1 = (j.alone w sup n h).1
        ∧ (Worker.go w sup n k (h, j.start n h)).2.outcome = (j.alone w sup n h).2) := by
  cases j with
  | enc x b =>
    obtain ⟨K, hK⟩ := go_hencode w n x h b
    refine ⟨K, fun k => ?_⟩
    simp only [Job.start, go_enc]
    refine ⟨(hK k).1, fun hf => ?_⟩
    have := (hK k).2 hf
    simp only [Job.alone, ← this]
    exact ⟨trivial, rfl⟩
  | dec r b =>
    obtain ⟨K, hK⟩ := go_hdecode sup n r h b
    refine ⟨K, fun k => ?_⟩
    simp only [Job.start, go_dec]
    refine ⟨(hK k).1, fun hf => ?_⟩
    have := (hK k).2 hf
    simp only [Job.alone, ← this]
    exact ⟨trivial, rfl⟩

theorem RelW.finished {ρ : Nat → Nat → Prop} {t t' : Worker} (r : RelW ρ t t') : t.finished ↔ t'.finished := by
  have hnil : ∀ {α β : Type} {R : α → β → Prop} {xs : List α} {ys : List β}, Pw R xs ys → (xs = [] ↔ ys = []) := by
    intro α β R xs ys hp
    cases hp <;> simp
  cases r with
  | enc r => simp only [Worker.finished, r.err, hnil r.stack]
  | dec r => simp only [Worker.finished, r.err, hnil r.stack]

theorem RelW.outcome {ρ : Nat → Nat → Prop} {t t' : Worker} (r : RelW ρ t t') : t.outcome = t'.outcome := by
  cases r with
  | enc r => simp only [Worker.outcome, r.err, r.buf]
  | dec r => simp only [Worker.outcome, r.err, r.buf]

theorem root_rel {w : World} {sup : Suppliers} {n : Nat} {h0 : Heap} {t0 : Nat → Worker} {st : WSys} {ks : Nat → Nat}
    {ρ : Nat → Nat → Nat → Prop} {jobs : Nat → Job} (hi : WInv w sup n h0 t0 (fun i => Reach h0 (jobs i).root) st ks ρ) (i : Nat) :
    RelV (ρ i) (jobs i).root (jobs i).root := by
  have := hi.init i
  revert this
  cases (jobs i).root with
  | null => intro _; exact .null
  | num n => intro _; exact .num n
  | str s => intro _; exact .str s
  | ref q => intro h; exact .ref (h q (.here q))

end FinProto
