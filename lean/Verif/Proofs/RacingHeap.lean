import Verif.Spec.RacingHeap
import Verif.Spec.Heap
import Verif.Proofs.Racing
import Verif.Proofs.HeapEncode
import Verif.Proofs.EncodeFail
/-
Helper lemmas for C111.
-/
namespace FinProto

/-! ### Fields of a heap -/

/-- Class, number of fields, elements. -/
def HObj.shape : HObj → HObj
  | .msg c ys => .msg c (ys.map fun _ => .null)
  | .arr xs => .arr xs

theorem setField_shape (h : Heap) (r f : Nat) (y : HVal) (q : Nat) : ((h.setField r f y)[q]?).map HObj.shape = (h[q]?).map HObj.shape := by
  by_cases hq : q = r
  · subst hq
    rcases hr : h[q]? with _ | (⟨c, ys⟩ | xs)
    · simp only [Heap.setField, hr]
    · rw [Heap.setField_self h q f c ys y hr]
      simp only [Option.map_some, HObj.shape]
      congr 2
      apply List.ext_getElem?
      intro i
      simp only [List.getElem?_map, List.getElem?_set]
      by_cases hi : f = i
      · subst hi
        by_cases hl : f < ys.length
        · simp [hl]
        · simp [hl]
      · simp [hi]
    · simp only [Heap.setField, hr]
  · rw [Heap.setField_ne h r f q y hq]

theorem setField_field (h : Heap) (r f : Nat) (y : HVal) (q g : Nat) :
    (h.setField r f y).field q g = if r = q ∧ f = g then (h.field q g).map fun _ => y else h.field q g := by
  by_cases hq : r = q
  · subst hq
    rcases hr : h[r]? with _ | (⟨c, ys⟩ | xs)
    · simp [Heap.setField, Heap.field, hr]
    · rw [Heap.field_msg _ r g c _ (Heap.setField_self h r f c ys y hr), Heap.field_msg h r g c ys hr, List.getElem?_set]
      by_cases hg : f = g
      · subst hg
        by_cases hl : f < ys.length
        · simp [hl]
        · simp [hl]
      · simp [hg]
    · simp [Heap.setField, Heap.field, hr]
  · rw [if_neg (by simp [hq])]
    simp only [Heap.field]
    rw [Heap.setField_ne h r f q y (Ne.symm hq)]

theorem hsetAll_shape (ps : List (Nat × Nat × HVal)) : ∀ (h : Heap) (q : Nat), ((hsetAll h ps)[q]?).map HObj.shape = (h[q]?).map HObj.shape := by
  induction ps with
  | nil => intro h q; rfl
  | cons p ps ih => intro h q; rw [hsetAll, ih, setField_shape]

/-- The values given to one field, in order. -/
def toField (ps : List (Nat × Nat × HVal)) (q g : Nat) : List HVal := (ps.filter fun p => p.1 == q && p.2.1 == g).map (·.2.2)

theorem hsetAll_field (ps : List (Nat × Nat × HVal)) (q g : Nat) : ∀ h : Heap,
    (hsetAll h ps).field q g = (h.field q g).map fun y => ((toField ps q g).getLast?).getD y := by
  induction ps with
  | nil => intro h; simp [hsetAll, toField]
  | cons p ps ih =>
    intro h
    rw [hsetAll, ih, setField_field]
    by_cases hp : p.1 = q ∧ p.2.1 = g
    · have : toField (p :: ps) q g = p.2.2 :: toField ps q g := by simp [toField, hp]
      rw [if_pos hp, this, Option.map_map]
      congr 1
      funext y
      simp only [Function.comp, List.getLast?_cons]
      cases (toField ps q g).getLast? <;> rfl
    · have : toField (p :: ps) q g = toField ps q g := by
        unfold toField
        rw [List.filter_cons_of_neg (by simpa using fun h1 h2 => hp ⟨h1, h2⟩)]
      rw [if_neg hp, this]

theorem fieldAt_zero (o : HOthers) (h : Heap) (q g : Nat) : fieldAt o h q g 0 = h.field q g := by
  simp [fieldAt, hassigned]

theorem fieldAt_succ (o : HOthers) (h : Heap) (q g k : Nat) :
    fieldAt o h q g (k + 1) = (fieldAt o h q g k).map fun y => ((toField (o k) q g).getLast?).getD y := by
  have : hassigned o q g (k + 1) = hassigned o q g k ++ toField (o k) q g := by
    simp [hassigned, toField, List.range_succ]
  unfold fieldAt
  rw [this, Option.map_map]
  congr 1
  funext y
  simp only [Function.comp, List.getLast?_append]
  cases (toField (o k) q g).getLast? <;> rfl

theorem fieldAt_spared {o : HOthers} {h : Heap} (hs : HSpares h o) {q : Nat} {c : Cls} {ys : List HVal} (hq : h[q]? = some (.msg c ys)) {g : Nat}
    (hg : Touchy c g) (k : Nat) : fieldAt o h q g k = h.field q g := by
  induction k with
  | zero => exact fieldAt_zero o h q g
  | succ k ih =>
    have : toField (o k) q g = [] := by
      unfold toField
      rw [List.map_eq_nil_iff, List.filter_eq_nil_iff]
      intro p hp hx
      simp only [Bool.and_eq_true, beq_iff_eq] at hx
      exact hs k p hp c ys (hx.1 ▸ hq) (hx.2 ▸ hg)
    rw [fieldAt_succ, ih, this]
    simp

/-! ### What an encode keeps -/

/-- The fields `encode` does not assign are as the other threads left them. -/
structure HGood (w : World) (o : HOthers) (h0 h : Heap) (k : Nat) : Prop where
  shape : ∀ q : Nat, (h[q]?).map HObj.shape = (h0[q]?).map HObj.shape
  field : ∀ q c ys f, h0[q]? = some (.msg c ys) → fieldComputed w.svc c f = false → h.field q f = fieldAt o h0 q f k

/-- From one state to another. -/
def Went (w : World) (o : HOthers) (h0 : Heap) (h : Heap) (k : Nat) (h' : Heap) (k' : Nat) : Prop :=
  HGood w o h0 h k → HGood w o h0 h' k' ∧ k ≤ k'

section
variable {w : World} {o : HOthers} {h0 : Heap}

theorem Went.refl (h : Heap) (k : Nat) : Went w o h0 h k h k := fun g => ⟨g, Nat.le_refl _⟩

theorem Went.trans {h1 h2 h3 : Heap} {k1 k2 k3 : Nat} (a : Went w o h0 h1 k1 h2 k2) (b : Went w o h0 h2 k2 h3 k3) : Went w o h0 h1 k1 h3 k3 := by
  intro g
  obtain ⟨g2, l2⟩ := a g
  obtain ⟨g3, l3⟩ := b g2
  exact ⟨g3, Nat.le_trans l2 l3⟩

theorem went_all (h : Heap) (k : Nat) : Went w o h0 h k (hsetAll h (o k)) (k + 1) := by
  intro g
  refine ⟨⟨fun q => by rw [hsetAll_shape, g.shape q], ?_⟩, Nat.le_succ _⟩
  intro q c ys f hq hf
  rw [hsetAll_field, fieldAt_succ, g.field q c ys f hq hf]

theorem HGood.msg {h : Heap} {k q : Nat} (g : HGood w o h0 h k) {c : Cls} {ys : List HVal} (hq : h[q]? = some (.msg c ys)) :
    ∃ ys0, h0[q]? = some (.msg c ys0) ∧ ys0.length = ys.length := by
  have := g.shape q
  rw [hq] at this
  rcases h0q : h0[q]? with _ | (⟨c0, ys0⟩ | xs)
  · rw [h0q] at this; cases this
  · rw [h0q] at this
    simp only [Option.map_some, HObj.shape, Option.some.injEq, HObj.msg.injEq] at this
    refine ⟨ys0, by rw [this.1], ?_⟩
    have := congrArg List.length this.2
    simpa using this.symm
  · rw [h0q] at this; cases this

theorem HGood.msg' {h : Heap} {k q : Nat} (g : HGood w o h0 h k) {c : Cls} {ys : List HVal} (hq : h0[q]? = some (.msg c ys)) :
    ∃ ys', h[q]? = some (.msg c ys') ∧ ys'.length = ys.length := by
  have := g.shape q
  rw [hq] at this
  rcases h0q : h[q]? with _ | (⟨c0, ys0⟩ | xs)
  · rw [h0q] at this; cases this
  · rw [h0q] at this
    simp only [Option.map_some, HObj.shape, Option.some.injEq, HObj.msg.injEq] at this
    refine ⟨ys0, by rw [this.1], ?_⟩
    have := congrArg List.length this.2
    simpa using this
  · rw [h0q] at this; cases this

theorem HGood.arr {h : Heap} {k a : Nat} (g : HGood w o h0 h k) (xs : List HVal) : h[a]? = some (.arr xs) ↔ h0[a]? = some (.arr xs) := by
  have := g.shape a
  rcases h1 : h[a]? with _ | (⟨c, ys⟩ | zs) <;> rcases h2 : h0[a]? with _ | (⟨c0, ys0⟩ | xs0) <;> rw [h1, h2] at this <;>
    simp [HObj.shape] at this ⊢
  rw [this]

theorem went_put {r f : Nat} {c : Cls} {ys : List HVal} (hr : h0[r]? = some (.msg c ys)) (hf : fieldComputed w.svc c f = true) (y : HVal) (h : Heap) (k : Nat) :
    Went w o h0 h k ((hsetAll h (o k)).setField r f y) (k + 1) := by
  intro g
  obtain ⟨g1, -⟩ := went_all (w := w) (h0 := h0) h k g
  refine ⟨⟨fun q => by rw [setField_shape, g1.shape q], ?_⟩, Nat.le_succ _⟩
  intro q d zs i hq hi
  rw [setField_field, if_neg, g1.field q d zs i hq hi]
  rintro ⟨rfl, rfl⟩
  rw [hr] at hq
  cases hq
  rw [hf] at hi
  cases hi

/-- A call keeps everything. -/
def CallWent (w : World) (o : HOthers) (h0 : Heap) (call : RHCall) : Prop :=
  ∀ x h k b, Went w o h0 h k (call x h k b).1 (call x h k b).2.1

/-- From one state of an `encode` to another. -/
abbrev Run (w : World) (o : HOthers) (h0 : Heap) (st st' : RHSt) : Prop := Went w o h0 st.h st.k st'.h st'.k

theorem run_look (r f : Nat) (st : RHSt) : Run w o h0 st (st.look o r f).1 := went_all st.h st.k

theorem run_elems (r f : Nat) (st : RHSt) : Run w o h0 st (st.elems o r f).1 := by
  have hl := run_look (w := w) (o := o) (h0 := h0) r f st
  unfold RHSt.elems
  revert hl
  rcases st.look o r f with ⟨st1, _ | (_ | _ | _ | a)⟩ <;> intro hl <;> try exact hl
  dsimp only at hl ⊢
  split <;> exact hl

theorem run_get (r f i : Nat) (st : RHSt) : Run w o h0 st (st.get o r f i).1 := by
  have hl := run_elems (w := w) (o := o) (h0 := h0) r f st
  unfold RHSt.get
  revert hl
  rcases st.elems o r f with ⟨st1, _ | xs⟩ <;> intro hl
  · exact hl
  · dsimp only at hl ⊢
    split <;> exact hl

theorem run_field (r f : Nat) (st : RHSt) : Run w o h0 st (st.field o r f).1 := by
  have hl := run_look (w := w) (o := o) (h0 := h0) r f st
  unfold RHSt.field
  revert hl
  rcases st.look o r f with ⟨st1, _ | x⟩ <;> intro hl <;> exact hl

theorem run_call {call : RHCall} (hc : CallWent w o h0 call) (x : HVal) (st : RHSt) : Run w o h0 st (st.call call x).1 := hc x st.h st.k st.buf

theorem run_rhdyn (x : RHSt → RHSt × Except JErr HVal) (hx : ∀ st, Run w o h0 st (x st).1) (zt t : PTy) (e : Endian) (st : RHSt) :
    Run w o h0 st (rhdyn x zt t e st).1 := by
  have h1 := hx st
  unfold rhdyn
  revert h1
  rcases x st with ⟨st1, _ | v⟩ <;> intro h1
  · exact h1
  · dsimp only at h1 ⊢
    rcases v.leaf.asStr with _ | (_ | (_ | ⟨ch, cs⟩))
    · exact h1
    · exact h1
    · exact h1
    · dsimp only
      have h2 := hx st1
      revert h2
      rcases x st1 with ⟨st2, _ | (_ | _ | s | _)⟩ <;> intro h2
      · exact h1.trans h2
      · exact h1.trans h2
      · exact h1.trans h2
      · dsimp only at h2 ⊢
        rcases writeInt st2.buf t e (utf8Enc s).length with ⟨b, _ | err⟩
        · exact h1.trans h2
        · exact h1.trans h2
      · exact h1.trans h2

theorem run_rhelem {call : RHCall} (hc : CallWent w o h0 call) (el : EncElem) (r f i : Nat) (st : RHSt) : Run w o h0 st (rhelem o call el r f i st).1 := by
  cases el with
  | dyn zt t e => exact run_rhdyn _ (run_get r f i) zt t e st
  | num t e =>
    have h1 := run_get (w := w) (o := o) (h0 := h0) r f i st
    simp only [rhelem]
    revert h1
    rcases st.get o r f i with ⟨st1, _ | x⟩ <;> intro h1 <;> exact h1
  | fixed n pad left =>
    have h1 := run_get (w := w) (o := o) (h0 := h0) r f i st
    simp only [rhelem]
    revert h1
    rcases st.get o r f i with ⟨st1, _ | x⟩ <;> intro h1 <;> exact h1
  | obj =>
    have h1 := run_get (w := w) (o := o) (h0 := h0) r f i st
    simp only [rhelem]
    revert h1
    rcases st.get o r f i with ⟨st1, _ | x⟩ <;> intro h1
    · exact h1
    · exact h1.trans (run_call hc x st1)

theorem run_rhloop {call : RHCall} (hc : CallWent w o h0 call) (el : EncElem) (r f : Nat) : ∀ (m i : Nat) (st : RHSt),
    Run w o h0 st (rhloop o call el r f m i st).1 := by
  intro m
  induction m with
  | zero => intro i st; exact Went.refl _ _
  | succ m ih =>
    intro i st
    have h1 := run_elems (w := w) (o := o) (h0 := h0) r f st
    simp only [rhloop]
    revert h1
    rcases st.elems o r f with ⟨st1, _ | xs⟩ <;> intro h1
    · exact h1
    · dsimp only at h1 ⊢
      split
      · have h2 := run_rhelem hc el r f i st1
        revert h2
        rcases rhelem o call el r f i st1 with ⟨st2, _ | err⟩ <;> intro h2
        · exact (h1.trans h2).trans (ih (i + 1) st2)
        · exact h1.trans h2
      · exact h1

theorem run_rhstmt {call : RHCall} (hc : CallWent w o h0 call) {r : Nat} {c : Cls} {ys : List HVal} (hr : h0[r]? = some (.msg c ys)) (s : EncStmt)
    (hs : s ∈ (decl c).enc) (st : RHSt) : Run w o h0 st (rhstmt w o call r s st).1 := by
  have hput : ∀ f, assigns w f s = true → fieldComputed w.svc c f = true := fun f hf =>
    computed_layout w c f (List.any_eq_true.2 ⟨s, hs, hf⟩)
  have hlook : ∀ (f : Nat) (st : RHSt), Run w o h0 st (st.look o r f).1 := fun f st => run_look r f st
  have helems : ∀ (f : Nat) (st : RHSt), Run w o h0 st (st.elems o r f).1 := fun f st => run_elems r f st
  cases s with
  | num f t e =>
    have h1 := hlook f st
    simp only [rhstmt]
    revert h1
    rcases st.look o r f with ⟨st1, _ | (_ | _ | _ | a)⟩ <;> intro h1 <;> exact h1
  | fixed f n pad left =>
    have h1 := hlook f st
    simp only [rhstmt]
    revert h1
    rcases st.look o r f with ⟨st1, _ | x⟩ <;> intro h1 <;> exact h1
  | dyn f zt t e => exact run_rhdyn _ (run_field r f) zt t e st
  | list f zt t e el =>
    have h1 := hlook f st
    simp only [rhstmt]
    revert h1
    rcases st.look o r f with ⟨st1, _ | x⟩ <;> intro h1
    · exact h1
    · have key : Run w o h0 st (match st1.elems o r f with
          | (st, .error err) => (st, some err)
          | (st, .ok []) => st.wrote (writeInt st.buf zt .be 0)
          | (st, .ok (_ :: _)) =>
            match st.elems o r f with
            | (st, .error err) => (st, some err)
            | (st, .ok xs) =>
              match st.wrote (writeInt st.buf t e xs.length) with
              | (st, some err) => (st, some err)
              | (st, none) => rhloop o call el r f 2147483647 0 st).1 := by
        have h2 := helems f st1
        revert h2
        rcases st1.elems o r f with ⟨st2, _ | (_ | ⟨y, ys⟩)⟩ <;> intro h2
        · exact h1.trans h2
        · exact h1.trans h2
        · dsimp only at h1 h2 ⊢
          have h3 := helems f st2
          revert h3
          rcases st2.elems o r f with ⟨st3, _ | xs⟩ <;> intro h3
          · exact (h1.trans h2).trans h3
          · dsimp only [RHSt.wrote] at h3 ⊢
            rcases writeInt st3.buf t e xs.length with ⟨b, _ | err⟩
            · exact ((h1.trans h2).trans h3).trans (run_rhloop hc el r f 2147483647 0 { st3 with buf := b })
            · exact (h1.trans h2).trans h3
      cases x with
      | null => exact h1
      | num n => exact key
      | str n => exact key
      | ref n => exact key
  | obj f =>
    have h1 := hlook f st
    simp only [rhstmt]
    revert h1
    rcases st.look o r f with ⟨st1, _ | x⟩ <;> intro h1
    · exact h1
    · exact h1.trans (run_call hc x st1)
  | objOpt f =>
    have h1 := hlook f st
    simp only [rhstmt]
    revert h1
    rcases st.look o r f with ⟨st1, _ | x⟩ <;> intro h1
    · exact h1
    · have key : Run w o h0 st (match st1.look o r f with
          | (st, some x) => st.call call x
          | (st, none) => (st, some .illTyped)).1 := by
        have h2 := hlook f st1
        revert h2
        rcases st1.look o r f with ⟨st2, _ | x⟩ <;> intro h2
        · exact h1.trans h2
        · exact (h1.trans h2).trans (run_call hc x st2)
      cases x with
      | null => exact h1
      | num n => exact key
      | str n => exact key
      | ref n => exact key
  | save x => exact Went.refl _ _
  | zero t e => exact Went.refl _ _
  | setLen f x y =>
    simp only [rhstmt]
    rcases st.loc x with _ | a <;> rcases st.loc y with _ | b <;> try exact Went.refl _ _
    exact went_put hr (hput f (by simp [assigns])) _ st.h st.k
  | patch x f t e =>
    have h1 := hlook f st
    simp only [rhstmt]
    revert h1
    rcases st.look o r f with ⟨st1, _ | (_ | n | _ | a)⟩ <;> intro h1 <;> try exact h1
    dsimp only
    rcases st1.loc x with _ | p <;> rcases n.convert t with _ | m <;> exact h1
  | checksum f alg =>
    simp only [rhstmt]
    rcases hs : Registry.getService w.svc alg with _ | s
    · exact Went.refl _ _
    · exact went_put hr (hput f (by simp [assigns, hs])) _ st.h st.k

theorem run_rhstmts {call : RHCall} (hc : CallWent w o h0 call) {r : Nat} {c : Cls} {ys : List HVal} (hr : h0[r]? = some (.msg c ys)) :
    ∀ (ss : List EncStmt), (∀ s ∈ ss, s ∈ (decl c).enc) → ∀ st : RHSt, Run w o h0 st (rhstmts w o call r ss st).1 := by
  intro ss
  induction ss with
  | nil => intro _ st; exact Went.refl _ _
  | cons s ss ih =>
    intro hss st
    have h1 := run_rhstmt hc hr s (hss s List.mem_cons_self) st
    simp only [rhstmts]
    revert h1
    rcases rhstmt w o call r s st with ⟨st1, _ | err⟩ <;> intro h1
    · exact h1.trans (ih (fun s hs => hss s (List.mem_cons_of_mem _ hs)) st1)
    · exact h1

theorem run_rhencode : ∀ n, CallWent w o h0 (rhencode w o n) := by
  intro n
  induction n with
  | zero =>
    intro x h k b
    cases x <;> exact Went.refl _ _
  | succ n ih =>
    intro x h k b
    cases x with
    | ref r =>
      simp only [rhencode]
      intro g
      rcases hr : h[r]? with _ | (⟨c, ys⟩ | xs)
      · exact ⟨g, Nat.le_refl _⟩
      · obtain ⟨ys0, hr0, -⟩ := g.msg hr
        exact run_rhstmts ih hr0 (decl c).enc (fun _ hs => hs) ⟨h, k, b, fun _ => none⟩ g
      · exact ⟨g, Nat.le_refl _⟩
    | _ => exact Went.refl _ _


/-! ### An encode that throws nothing -/

/-- `Computed`, as a test. -/
def compB (c : Cls) (f : Nat) : Bool :=
  match (wire c)[f]? with
  | some (.len _) | some (.cksum _ _) => true
  | _ => false

theorem computed_iff (c : Cls) (f : Nat) : Computed c f ↔ compB c f = true := by
  unfold Computed compB
  rcases (wire c)[f]? with _ | (_ | _ | _ | _ | _ | _ | _ | _) <;> simp

theorem comp_touchy (c : Cls) (f : Nat) (h : compB c f = true) : Touchy c f := by
  unfold compB at h
  unfold Touchy
  revert h
  rcases (wire c)[f]? with _ | (_ | _ | _ | _ | _ | _ | _ | _) <;> simp

theorem not_comp (w : World) (c : Cls) (f : Nat) (h : compB c f = false) : fieldComputed w.svc c f = false := by
  unfold compB wire at h
  unfold fieldComputed
  rw [List.getElem?_map] at h
  revert h
  rcases (layout c)[f]? with _ | ⟨nm, _ | _ | _ | _ | _ | _ | _ | _⟩ <;> simp

/-- Elements whose length is written as a number of one type. -/
def elemB : EncElem → Bool
  | .dyn zt t _ => decide (zt = t)
  | _ => true

/-- Statements that read one field, which is not a computed one. -/
def hplainB (c : Cls) : EncStmt → Bool
  | .dyn f zt t _ => decide (zt = t) && !compB c f
  | .list f _ _ _ el => touchyB c f && !compB c f && elemB el
  | .num f _ _ => !compB c f
  | .fixed f _ _ _ => !compB c f
  | .obj f => !compB c f
  | .objOpt f => !compB c f
  | _ => false

/-- A length is assigned just before it is read, and so is a checksum; the other statements do not read computed fields. -/
def pairedB (c : Cls) : List EncStmt → Bool
  | [] => true
  | .setLen f _ _ :: .patch _ g _ _ :: ss => f == g && compB c f && pairedB c ss
  | .checksum f alg :: .num g _ _ :: ss => f == g && (match (wire c)[f]? with | some (.cksum _ a) => a == alg | _ => false) && pairedB c ss
  | .save _ :: ss => pairedB c ss
  | .zero _ _ :: ss => pairedB c ss
  | s :: ss => hplainB c s && pairedB c ss

theorem paired_cases (c : Cls) (s : EncStmt) (ss : List EncStmt) (h : pairedB c (s :: ss) = true) :
    (hplainB c s = true ∧ pairedB c ss = true) ∨ (((∃ x, s = .save x) ∨ ∃ t e, s = .zero t e) ∧ pairedB c ss = true)
      ∨ (∃ f x y z t e ss', s = .setLen f x y ∧ ss = .patch z f t e :: ss' ∧ compB c f = true ∧ pairedB c ss' = true)
      ∨ ∃ f alg t e ss', s = .checksum f alg ∧ ss = .num f t e :: ss' ∧ (∃ u, (wire c)[f]? = some (.cksum u alg)) ∧ pairedB c ss' = true := by
  cases s with
  | save x => exact .inr (.inl ⟨.inl ⟨x, rfl⟩, h⟩)
  | zero t e => exact .inr (.inl ⟨.inr ⟨t, e, rfl⟩, h⟩)
  | setLen f x y =>
    rcases ss with _ | ⟨s2, ss⟩
    · simp [pairedB, hplainB] at h
    · cases s2 with
      | patch z g t e =>
        simp only [pairedB, Bool.and_eq_true, beq_iff_eq] at h
        obtain ⟨⟨rfl, h1⟩, h2⟩ := h
        exact .inr (.inr (.inl ⟨f, x, y, z, t, e, ss, rfl, rfl, h1, h2⟩))
      | _ => simp [pairedB, hplainB] at h
  | checksum f alg =>
    rcases ss with _ | ⟨s2, ss⟩
    · simp [pairedB, hplainB] at h
    · cases s2 with
      | num g t e =>
        simp only [pairedB, Bool.and_eq_true, beq_iff_eq] at h
        obtain ⟨⟨rfl, h1⟩, h2⟩ := h
        refine .inr (.inr (.inr ⟨f, alg, t, e, ss, rfl, rfl, ?_, h2⟩))
        revert h1
        rcases (wire c)[f]? with _ | (_ | _ | _ | _ | _ | _ | _ | ⟨u, a⟩) <;> intro h1 <;> first | cases h1 | skip
        rw [beq_iff_eq] at h1
        subst h1
        exact ⟨u, rfl⟩
      | _ => simp [pairedB, hplainB] at h
  | patch z g t e => simp [pairedB, hplainB] at h
  | _ => exact .inl (by simpa [pairedB] using h)

theorem enc_paired (c : Cls) : pairedB c (decl c).enc = true := by
  cases c <;> rfl

theorem enc_plain (c : Cls) : (((decl c).enc.flatMap usesOf).filter fun f => !compB c f) = (List.range (wire c).length).filter fun f => !compB c f := by
  cases c <;> rfl

theorem saw_leaf (lo hi : Nat) (x : HVal) (hx : ∀ a, x ≠ .ref a) : Saw o h0 lo hi x x.leaf := by
  cases x with
  | null => exact .null lo hi
  | num n => exact .num lo hi n
  | str s => exact .str lo hi s
  | ref a => exact absurd rfl (hx a)

theorem val_leaf {b b' : WBuf} {t : PTy} {e : Endian} {x : HVal} (h : writeVal b t e x.leaf = (b', none)) (a : Nat) : x ≠ .ref a := by
  rintro rfl
  simp [HVal.leaf, writeVal] at h

theorem fixed_leaf {b b' : WBuf} {n : Nat} {pad : JChar} {left : Bool} {x : HVal} (h : writeFixedVal b x.leaf n pad left = (b', none)) (a : Nat) : x ≠ .ref a := by
  rintro rfl
  simp [HVal.leaf, writeFixedVal, Val.asStr] at h

theorem dyn_leaf {b b' : WBuf} {zt t : PTy} {e : Endian} {x : HVal} (h : writeDynVal b x.leaf zt t e = (b', none)) (a : Nat) : x ≠ .ref a := by
  rintro rfl
  simp [HVal.leaf, writeDynVal, Val.asStr] at h

/-- The state is one `encode` may be in. -/
abbrev Fine (w : World) (o : HOthers) (h0 : Heap) (st : RHSt) : Prop := HGood w o h0 st.h st.k

theorem look_val {r f : Nat} {c : Cls} {ys : List HVal} (hr : h0[r]? = some (.msg c ys)) (hf : fieldComputed w.svc c f = false) {st : RHSt}
    (g : Fine w o h0 st) : (st.look o r f).2 = fieldAt o h0 r f (st.k + 1) :=
  (run_look r f st g).1.field r c ys f hr hf

theorem rhdyn_saw {x : RHSt → RHSt × Except JErr HVal} (hx : ∀ st, Run w o h0 st (x st).1) {P : HVal → Nat → Prop}
    (hP : ∀ st st1 v, Fine w o h0 st → x st = (st1, .ok v) → st1.buf = st.buf ∧ st1.loc = st.loc ∧ st1.k = st.k + 1 ∧ P v st1.k)
    {t : PTy} {e : Endian} {st st' : RHSt} (g : Fine w o h0 st) (h : rhdyn x t t e st = (st', none)) :
    ∃ v m, st.k < m ∧ m ≤ st'.k ∧ P v m ∧ writeDynVal st.buf v.leaf t t e = (st'.buf, none) ∧ st'.loc = st.loc := by
  unfold rhdyn at h
  rcases h1 : x st with ⟨st1, err | v⟩
  · rw [h1] at h; cases h
  · rw [h1] at h
    dsimp only at h
    obtain ⟨hb1, hl1, hk1, hp1⟩ := hP st st1 v g h1
    have g1 : Fine w o h0 st1 := by have := (hx st g).1; rw [h1] at this; exact this
    rcases hs : v.leaf.asStr with _ | (_ | (_ | ⟨ch, cs⟩))
    · rw [hs] at h; cases h
    · rw [hs] at h
      simp only [RHSt.wrote, Prod.mk.injEq] at h
      obtain ⟨rfl, h⟩ := h
      refine ⟨v, st1.k, by omega, Nat.le_refl _, hp1, ?_, hl1⟩
      simp only [writeDynVal, hs, writeDyn, ← hb1]
      rw [← h]
    · rw [hs] at h
      simp only [RHSt.wrote, Prod.mk.injEq] at h
      obtain ⟨rfl, h⟩ := h
      refine ⟨v, st1.k, by omega, Nat.le_refl _, hp1, ?_, hl1⟩
      simp only [writeDynVal, hs, writeDyn, ← hb1]
      rw [← h]
    · rw [hs] at h
      dsimp only at h
      rcases h2 : x st1 with ⟨st2, err | v2⟩
      · rw [h2] at h; cases h
      · rw [h2] at h
        obtain ⟨hb2, hl2, hk2, hp2⟩ := hP st1 st2 v2 g1 h2
        cases v2 with
        | null => cases h
        | num n => cases h
        | ref a => cases h
        | str s =>
          have hw := writeDyn_second st.buf t e s
          dsimp only at h
          rw [hb2, hb1] at h
          rcases hwi : writeInt st.buf t e (utf8Enc s).length with ⟨b, _ | err⟩
          · rw [hwi] at h hw
            simp only [RHSt.wrote, Prod.mk.injEq] at h
            obtain ⟨rfl, h⟩ := h
            refine ⟨.str s, st2.k, by omega, Nat.le_refl _, hp2, ?_, hl2.trans hl1⟩
            simp only [writeDynVal, HVal.leaf, Val.asStr, ← hw]
            rw [← h]
          · rw [hwi] at h; cases h

/-- What a call has seen. -/
def CallSaw (w : World) (o : HOthers) (h0 : Heap) (call : RHCall) (ecall : EncCall) : Prop :=
  ∀ x h k b h' k' b', HGood w o h0 h k → call x h k b = (h', k', b', none) → ∃ v, Saw o h0 k k' x v ∧ (ecall v b).2 = (b', none)

section
variable {r f : Nat} {c : Cls} {ys : List HVal}

theorem elems_val (hr : h0[r]? = some (.msg c ys)) (hs : HSpares h0 o) (hf : compB c f = false) (ht : Touchy c f) {a : Nat} {xs : List HVal}
    (ha : h0.field r f = some (.ref a)) (hx : h0[a]? = some (.arr xs)) {st : RHSt} (g : Fine w o h0 st) :
    st.elems o r f = ((st.look o r f).1, .ok xs) := by
  have h1 := look_val hr (not_comp w c f hf) g
  rw [fieldAt_spared hs hr ht, ha] at h1
  have g1 := (run_look (w := w) (o := o) (h0 := h0) r f st g).1
  unfold RHSt.elems
  rcases hl : st.look o r f with ⟨st1, x⟩
  rw [hl] at h1 g1
  dsimp only at h1 g1
  subst h1
  dsimp only
  rw [(g1.arr xs).2 hx]

theorem get_val (hr : h0[r]? = some (.msg c ys)) (hs : HSpares h0 o) (hf : compB c f = false) (ht : Touchy c f) {a : Nat} {xs : List HVal}
    (ha : h0.field r f = some (.ref a)) (hx : h0[a]? = some (.arr xs)) {i : Nat} {x : HVal} (hi : xs[i]? = some x) {st : RHSt} (g : Fine w o h0 st) :
    st.get o r f i = ((st.look o r f).1, .ok x) := by
  unfold RHSt.get
  rw [elems_val hr hs hf ht ha hx g]
  dsimp only
  rw [hi]

theorem rhelem_saw (hr : h0[r]? = some (.msg c ys)) (hs : HSpares h0 o) (hf : compB c f = false) (ht : Touchy c f) {a : Nat} {xs : List HVal}
    (ha : h0.field r f = some (.ref a)) (hx : h0[a]? = some (.arr xs)) {call : RHCall} {ecall : EncCall} (hc : CallSaw w o h0 call ecall)
    (hw : CallWent w o h0 call) {el : EncElem} (hel : elemB el = true) {i : Nat} {x : HVal} (hi : xs[i]? = some x) {st st' : RHSt} (g : Fine w o h0 st)
    (h : rhelem o call el r f i st = (st', none)) :
    ∃ v fr to, st.k < fr ∧ fr ≤ to ∧ to ≤ st'.k ∧ Saw o h0 fr to x v ∧ (encElem ecall el v st.buf).2 = (st'.buf, none) ∧ st'.loc = st.loc := by
  have hg := get_val hr hs hf ht ha hx hi g
  have g1 := (run_look (w := w) (o := o) (h0 := h0) r f st g).1
  have hk : (st.look o r f).1.k = st.k + 1 := rfl
  have hb : (st.look o r f).1.buf = st.buf := rfl
  have hl : (st.look o r f).1.loc = st.loc := rfl
  cases el with
  | num t e =>
    simp only [rhelem, hg, RHSt.wrote, Prod.mk.injEq] at h
    obtain ⟨rfl, h⟩ := h
    have hwr : writeVal st.buf t e x.leaf = ((writeVal (st.look o r f).1.buf t e x.leaf).1, none) := by rw [← h]; rfl
    exact ⟨x.leaf, st.k + 1, st.k + 1, by omega, by omega, Nat.le_of_eq hk.symm, saw_leaf _ _ _ (val_leaf hwr), hwr, rfl⟩
  | fixed n pad left =>
    simp only [rhelem, hg, RHSt.wrote, Prod.mk.injEq] at h
    obtain ⟨rfl, h⟩ := h
    have hwr : writeFixedVal st.buf x.leaf n pad left = ((writeFixedVal (st.look o r f).1.buf x.leaf n pad left).1, none) := by rw [← h]; rfl
    exact ⟨x.leaf, st.k + 1, st.k + 1, by omega, by omega, Nat.le_of_eq hk.symm, saw_leaf _ _ _ (fixed_leaf hwr), hwr, rfl⟩
  | dyn zt t e =>
    have : zt = t := by simpa [elemB] using hel
    subst this
    simp only [rhelem] at h
    obtain ⟨v, m, h1, h2, rfl, h4, h5⟩ := rhdyn_saw (P := fun v _ => v = x) (run_get (w := w) (o := o) (h0 := h0) r f i)
      (fun st st1 v g hv => by
        rw [get_val hr hs hf ht ha hx hi g] at hv
        simp only [Prod.mk.injEq, Except.ok.injEq] at hv
        obtain ⟨rfl, rfl⟩ := hv
        exact ⟨rfl, rfl, rfl, rfl⟩) g h
    exact ⟨v.leaf, m, m, h1, Nat.le_refl _, h2, saw_leaf _ _ _ (dyn_leaf h4), h4, h5⟩
  | obj =>
    simp only [rhelem, hg, RHSt.call] at h
    rcases hcl : call x (st.look o r f).1.h (st.look o r f).1.k (st.look o r f).1.buf with ⟨h', k', b', oe⟩
    rw [hcl] at h
    simp only [Prod.mk.injEq] at h
    obtain ⟨rfl, rfl⟩ := h
    have hle := (hw x _ _ (st.look o r f).1.buf g1).2
    rw [hcl] at hle
    obtain ⟨v, hv1, hv2⟩ := hc x _ _ _ _ _ _ g1 hcl
    exact ⟨v, st.k + 1, k', by omega, hle, Nat.le_refl _, hv1, hv2, rfl⟩

theorem rhloop_saw (hr : h0[r]? = some (.msg c ys)) (hs : HSpares h0 o) (hf : compB c f = false) (ht : Touchy c f) {a : Nat} {xs : List HVal}
    (ha : h0.field r f = some (.ref a)) (hx : h0[a]? = some (.arr xs)) {call : RHCall} {ecall : EncCall} (hc : CallSaw w o h0 call ecall)
    (hw : CallWent w o h0 call) {el : EncElem} (hel : elemB el = true) : ∀ (m i : Nat) (st st' : RHSt), xs.length ≤ m + i → Fine w o h0 st →
    rhloop o call el r f m i st = (st', none) →
    ∃ (val : Nat → Val) (fr to : Nat → Nat), (∀ j, i ≤ j → j < xs.length → st.k < fr j ∧ fr j ≤ to j ∧ to j ≤ st'.k) ∧
      (∀ j l, i ≤ j → j < l → l < xs.length → to j < fr l) ∧ (∀ j x, i ≤ j → xs[j]? = some x → Saw o h0 (fr j) (to j) x (val j)) ∧
      (encElems ecall el ((List.range' i (xs.length - i)).map val) st.buf).2 = (st'.buf, none) ∧ st'.loc = st.loc ∧ st.k ≤ st'.k := by
  intro m
  induction m with
  | zero =>
    intro i st st' hl g h
    simp only [rhloop, Prod.mk.injEq, and_true] at h
    subst h
    refine ⟨fun _ => .null, fun _ => 0, fun _ => 0, fun j h1 h2 => by omega, fun j l h1 h2 h3 => by omega, ?_, ?_, rfl, Nat.le_refl _⟩
    · intro j x h1 h2
      have := (List.getElem?_eq_some_iff.1 h2).1
      omega
    · rw [show xs.length - i = 0 by omega]
      rfl
  | succ m ih =>
    intro i st st' hl g h
    simp only [rhloop, elems_val hr hs hf ht ha hx g] at h
    have g1 := (run_look (w := w) (o := o) (h0 := h0) r f st g).1
    have hk : (st.look o r f).1.k = st.k + 1 := rfl
    have hb : (st.look o r f).1.buf = st.buf := rfl
    have hlc : (st.look o r f).1.loc = st.loc := rfl
    by_cases hi : i < xs.length
    · rw [if_pos hi] at h
      rcases hrel : rhelem o call el r f i (st.look o r f).1 with ⟨st1, oe⟩
      rw [hrel] at h
      cases oe with
      | some err => cases h
      | none =>
        dsimp only at h
        obtain ⟨v, fr1, to1, hv1, hv2, hv3, hv4, hv5, hv6⟩ := rhelem_saw hr hs hf ht ha hx hc hw hel (List.getElem?_eq_getElem hi) g1 hrel
        have g2 := (run_rhelem hw el r f i _ g1).1
        rw [hrel] at g2
        obtain ⟨val, fr, to, k1, k2, k3, k4, k5, k6⟩ := ih (i + 1) st1 st' (by omega) g2 h
        refine ⟨fun j => if j = i then v else val j, fun j => if j = i then fr1 else fr j, fun j => if j = i then to1 else to j, ?_, ?_, ?_, ?_, ?_, by omega⟩
        · intro j h1 h2
          dsimp only
          by_cases hj : j = i
          · rw [if_pos hj, if_pos hj]
            omega
          · rw [if_neg hj, if_neg hj]
            have := k1 j (by omega) h2
            omega
        · intro j l h1 h2 h3
          dsimp only
          rw [if_neg (show l ≠ i by omega)]
          by_cases hj : j = i
          · rw [if_pos hj]
            have := (k1 l (by omega) h3).1
            omega
          · rw [if_neg hj]
            exact k2 j l (by omega) h2 h3
        · intro j x h1 h2
          dsimp only
          by_cases hj : j = i
          · rw [if_pos hj, if_pos hj, if_pos hj]
            rw [hj, List.getElem?_eq_getElem hi] at h2
            rw [← Option.some.inj h2]
            exact hv4
          · rw [if_neg hj, if_neg hj, if_neg hj]
            exact k3 j x (by omega) h2
        · rw [show xs.length - i = (xs.length - (i + 1)) + 1 by omega, List.range'_succ, List.map_cons, if_pos rfl]
          have hmap : (List.range' (i + 1) (xs.length - (i + 1))).map (fun j => if j = i then v else val j) = (List.range' (i + 1) (xs.length - (i + 1))).map val := by
            apply List.map_congr_left
            intro j hj
            have := (List.mem_range'_1.1 hj).1
            rw [if_neg (by omega)]
          rw [hmap]
          simp only [encElems]
          rw [hb] at hv5
          rcases hee : encElem ecall el v st.buf with ⟨v', b', oe'⟩
          rw [hee] at hv5
          simp only [Prod.mk.injEq] at hv5
          obtain ⟨rfl, rfl⟩ := hv5
          dsimp only
          rcases hes : encElems ecall el ((List.range' (i + 1) (xs.length - (i + 1))).map val) st1.buf with ⟨vs', b'', oe''⟩
          rw [hes] at k4
          exact k4
        · rw [k5, hv6]; rfl
    · rw [if_neg hi] at h
      simp only [Prod.mk.injEq, and_true] at h
      subst h
      refine ⟨fun _ => .null, fun _ => 0, fun _ => 0, fun j h1 h2 => by omega, fun j l h1 h2 h3 => by omega, ?_, ?_, rfl, by omega⟩
      · intro j x h1 h2
        have := (List.getElem?_eq_some_iff.1 h2).1
        omega
      · rw [show xs.length - i = 0 by omega]
        rfl


/-- What a statement that reads one field has seen. -/
theorem plain_saw (hr : h0[r]? = some (.msg c ys)) (hs : HSpares h0 o) (hfit : HListsFit h0) {call : RHCall} {ecall : EncCall}
    (hnullcall : ∀ b, (ecall .null b).2.2 ≠ none) (hc : CallSaw w o h0 call ecall) (hw : CallWent w o h0 call) {s : EncStmt} (hp : hplainB c s = true) {st st' : RHSt} (g : Fine w o h0 st)
    (h : rhstmt w o call r s st = (st', none)) :
    ∃ f v fr to y, usesOf s = [f] ∧ compB c f = false ∧ st.k < fr ∧ fr ≤ to ∧ to ≤ st'.k ∧ fieldAt o h0 r f fr = some y ∧ Saw o h0 fr to y v ∧ st'.loc = st.loc ∧
      ∀ es : EncSt, es.buf = st.buf → es.fs[f]? = some v → ∃ es', encStmt w ecall s es = (es', none) ∧ es'.buf = st'.buf ∧ es'.loc = es.loc ∧
        es'.fs.length = es.fs.length ∧ ∀ g, g ≠ f → es'.fs[g]? = es.fs[g]? := by
  have g1 := fun f => (run_look (w := w) (o := o) (h0 := h0) r f st g).1
  cases s with
  | num f t e =>
    have hf : compB c f = false := by simpa [hplainB] using hp
    have hv := look_val hr (not_comp w c f hf) g
    simp only [rhstmt] at h
    rcases hl : st.look o r f with ⟨st1, x⟩
    have e1 : st1 = (st.look o r f).1 := by rw [hl]
    rw [hl] at h hv
    rcases x with _ | (_ | n | _ | _) <;> try (cases h; done)
    simp only [RHSt.wrote, Prod.mk.injEq] at h
    obtain ⟨rfl, h⟩ := h
    subst e1
    refine ⟨f, .num n, st.k + 1, st.k + 1, .num n, rfl, hf, by omega, Nat.le_refl _, Nat.le_refl _, hv.symm, .num _ _ n, rfl, ?_⟩
    intro es hb hes
    refine ⟨{ es with buf := (writeVal es.buf t e (.num n)).1 }, ?_, ?_, rfl, rfl, fun _ _ => rfl⟩
    · simp only [encStmt, hes]
      rw [hb]
      exact congrArg _ h
    · show (writeVal es.buf t e (.num n)).1 = _
      rw [hb]
      rfl
  | fixed f n pad left =>
    have hf : compB c f = false := by simpa [hplainB] using hp
    have hv := look_val hr (not_comp w c f hf) g
    simp only [rhstmt] at h
    rcases hl : st.look o r f with ⟨st1, x⟩
    have e1 : st1 = (st.look o r f).1 := by rw [hl]
    rw [hl] at h hv
    rcases x with _ | x <;> try (cases h; done)
    simp only [RHSt.wrote, Prod.mk.injEq] at h
    obtain ⟨rfl, h⟩ := h
    subst e1
    have hwr : writeFixedVal st.buf x.leaf n pad left = ((writeFixedVal (st.look o r f).1.buf x.leaf n pad left).1, none) := by rw [← h]; rfl
    refine ⟨f, x.leaf, st.k + 1, st.k + 1, x, rfl, hf, by omega, Nat.le_refl _, Nat.le_refl _, hv.symm, saw_leaf _ _ _ (fixed_leaf hwr), rfl, ?_⟩
    intro es hb hes
    refine ⟨{ es with buf := (writeFixedVal es.buf x.leaf n pad left).1 }, ?_, ?_, rfl, rfl, fun _ _ => rfl⟩
    · simp only [encStmt, hes]
      rw [hb]
      exact congrArg _ h
    · show (writeFixedVal es.buf x.leaf n pad left).1 = _
      rw [hb]
      rfl
  | dyn f zt t e =>
    have hp' : zt = t ∧ compB c f = false := by simpa [hplainB] using hp
    obtain ⟨rfl, hf⟩ := hp'
    simp only [rhstmt] at h
    obtain ⟨y, m, h1, h2, h3, h4, h5⟩ := rhdyn_saw (P := fun v m => fieldAt o h0 r f m = some v) (run_field (w := w) (o := o) (h0 := h0) r f)
      (fun st st1 v g hv => by
        have h1 := look_val hr (not_comp w c f hf) g
        unfold RHSt.field at hv
        rcases hl : st.look o r f with ⟨st2, x⟩
        have e1 : st2 = (st.look o r f).1 := by rw [hl]
        rw [hl] at hv h1
        rcases x with _ | x <;> try (cases hv; done)
        simp only [Prod.mk.injEq, Except.ok.injEq] at hv
        obtain ⟨rfl, rfl⟩ := hv
        subst e1
        exact ⟨rfl, rfl, rfl, h1.symm⟩) g h
    refine ⟨f, y.leaf, m, m, y, rfl, hf, h1, Nat.le_refl _, h2, h3, saw_leaf _ _ _ (dyn_leaf h4), h5, ?_⟩
    intro es hb hes
    refine ⟨{ es with buf := (writeDynVal es.buf y.leaf zt zt e).1 }, ?_, ?_, rfl, rfl, fun _ _ => rfl⟩
    · simp only [encStmt, hes]
      rw [hb, h4]
    · show (writeDynVal es.buf y.leaf zt zt e).1 = _
      rw [hb, h4]
  | list f zt t e el =>
    have hp' : (touchyB c f = true ∧ compB c f = false) ∧ elemB el = true := by simpa [hplainB] using hp
    obtain ⟨⟨ht, hf⟩, hel⟩ := hp'
    rw [← touchy_iff] at ht
    have hv := look_val hr (not_comp w c f hf) g
    simp only [rhstmt] at h
    rcases hl : st.look o r f with ⟨st1, x⟩
    have e1 : st1 = (st.look o r f).1 := by rw [hl]
    have g1 := g1 f
    rw [hl] at h hv g1
    dsimp only at g1 hv
    have hk1 : st1.k = st.k + 1 := by rw [e1]; rfl
    have hb1 : st1.buf = st.buf := by rw [e1]; rfl
    have hl1 : st1.loc = st.loc := by rw [e1]; rfl
    clear e1
    rcases x with _ | (_ | n | n | a)
    · cases h
    · simp only [RHSt.wrote, Prod.mk.injEq] at h
      obtain ⟨rfl, h⟩ := h
      refine ⟨f, .null, st.k + 1, st.k + 1, .null, rfl, hf, by omega, Nat.le_refl _, Nat.le_of_eq hk1.symm, hv.symm, .null _ _, hl1, ?_⟩
      intro es hb hes
      refine ⟨{ es with buf := (writeInt es.buf zt .be 0).1 }, ?_, ?_, rfl, rfl, fun _ _ => rfl⟩
      · simp only [encStmt, hes]
        rw [hb, ← hb1]
        exact congrArg _ h
      · show (writeInt es.buf zt .be 0).1 = _
        rw [hb, ← hb1]
    · exfalso
      have hv2 := look_val hr (not_comp w c f hf) g1
      rw [fieldAt_spared hs hr ht] at hv hv2
      rw [← hv] at hv2
      dsimp only at h
      unfold RHSt.elems at h
      rcases hl2 : st1.look o r f with ⟨st2, x2⟩
      rw [hl2] at hv2
      dsimp only at hv2
      subst hv2
      rw [hl2] at h
      cases h
    · exfalso
      have hv2 := look_val hr (not_comp w c f hf) g1
      rw [fieldAt_spared hs hr ht] at hv hv2
      rw [← hv] at hv2
      dsimp only at h
      unfold RHSt.elems at h
      rcases hl2 : st1.look o r f with ⟨st2, x2⟩
      rw [hl2] at hv2
      dsimp only at hv2
      subst hv2
      rw [hl2] at h
      cases h
    · dsimp only at h
      have hva := hv
      rw [fieldAt_spared hs hr ht] at hva
      have hax : ∃ xs, h0[a]? = some (.arr xs) := by
        have hv2 := look_val hr (not_comp w c f hf) g1
        rw [fieldAt_spared hs hr ht, ← hva] at hv2
        have g2 := (run_look (w := w) (o := o) (h0 := h0) r f st1 g1).1
        unfold RHSt.elems at h
        rcases hl2 : st1.look o r f with ⟨st2, x2⟩
        rw [hl2] at hv2 g2
        dsimp only at hv2
        subst hv2
        rw [hl2] at h
        dsimp only at h g2
        rcases ha : st2.h[a]? with _ | (_ | xs)
        · rw [ha] at h; cases h
        · rw [ha] at h; cases h
        · exact ⟨xs, (g2.arr xs).1 ha⟩
      obtain ⟨xs, hx⟩ := hax
      have g2 := (run_look (w := w) (o := o) (h0 := h0) r f st1 g1).1
      rw [elems_val hr hs hf ht hva.symm hx g1] at h
      cases xs with
      | nil =>
        simp only [RHSt.wrote, Prod.mk.injEq] at h
        obtain ⟨rfl, h⟩ := h
        refine ⟨f, .list [], st.k + 1, st1.k + 1, .ref a, rfl, hf, by omega, by omega, Nat.le_refl _, hv.symm,
          .list _ _ a [] [] (fun _ => 0) (fun _ => 0) hx rfl (fun i hi => by cases hi) (fun i j _ hj => by cases hj) (fun i x v hx => by simp at hx), hl1, ?_⟩
        intro es hb hes
        refine ⟨{ es with buf := (writeInt es.buf zt .be 0).1 }, ?_, ?_, rfl, rfl, fun _ _ => rfl⟩
        · simp only [encStmt, hes]
          rw [hb, ← hb1]
          exact congrArg _ h
        · show (writeInt es.buf zt .be 0).1 = _
          rw [hb, ← hb1]
          rfl
      | cons x xs =>
        dsimp only at h
        rw [elems_val hr hs hf ht hva.symm hx g2] at h
        have g3 := (run_look (w := w) (o := o) (h0 := h0) r f _ g2).1
        have hk3 : ((st1.look o r f).1.look o r f).1.k = st.k + 3 := by
          show st1.k + 1 + 1 = _
          omega
        have hb3 : ((st1.look o r f).1.look o r f).1.buf = st.buf := hb1
        have hl3 : ((st1.look o r f).1.look o r f).1.loc = st.loc := hl1
        generalize ((st1.look o r f).1.look o r f).1 = st3 at h g3 hk3 hb3 hl3
        dsimp only [RHSt.wrote] at h
        rcases hwi : writeInt st3.buf t e (x :: xs).length with ⟨b, _ | err⟩
        · rw [hwi] at h
          dsimp only at h
          obtain ⟨val, fr, to, k1, k2, k3, k4, k5, k6⟩ := rhloop_saw hr hs hf ht hva.symm hx hc hw hel 2147483647 0 { st3 with buf := b } st'
            (by have := hfit a _ hx; omega) g3 h
          dsimp only at k1 k4 k5 k6
          refine ⟨f, .list ((List.range' 0 ((x :: xs).length - 0)).map val), st.k + 1, st'.k, .ref a, rfl, hf, by omega, by omega, Nat.le_refl _, hv.symm,
            .list _ _ a (x :: xs) _ fr to hx (by simp) ?_ (fun i j hij hj => k2 i j (Nat.zero_le _) hij hj) ?_, k5.trans hl3, ?_⟩
          · intro i hi
            have := k1 i (Nat.zero_le _) hi
            omega
          · intro i y v hi hiv
            have hlt := (List.getElem?_eq_some_iff.1 hi).1
            have : v = val i := by
              rw [List.getElem?_map, List.getElem?_range' (by omega)] at hiv
              simpa using hiv.symm
            rw [this]
            exact k3 i y (Nat.zero_le _) hi
          · intro es hb hes
            have hcons : (List.range' 0 ((x :: xs).length - 0)).map val = val 0 :: (List.range' 1 xs.length).map val := by
              rw [List.length_cons, Nat.sub_zero, List.range'_succ]
              rfl
            rw [hcons] at k4 hes
            rcases hee : encElems ecall el (val 0 :: (List.range' 1 xs.length).map val) b with ⟨vs', b', oe⟩
            rw [hee] at k4
            simp only [Prod.mk.injEq] at k4
            obtain ⟨rfl, rfl⟩ := k4
            refine ⟨{ es with fs := es.fs.set f (.list vs'), buf := st'.buf }, ?_, rfl, rfl, by simp, fun g hg => by
              show (es.fs.set f (.list vs'))[g]? = _
              rw [List.getElem?_set_ne (Ne.symm hg)]⟩
            simp only [encStmt, hes]
            rw [hb, ← hb3, show (val 0 :: (List.range' 1 xs.length).map val).length = (x :: xs).length by simp, hwi]
            dsimp only
            rw [hee]
        · rw [hwi] at h
          cases h
  | obj f =>
    have hf : compB c f = false := by simpa [hplainB] using hp
    have hv := look_val hr (not_comp w c f hf) g
    have g1 := g1 f
    simp only [rhstmt] at h
    rcases hl : st.look o r f with ⟨st1, x⟩
    have e1 : st1 = (st.look o r f).1 := by rw [hl]
    rw [hl] at h hv g1
    dsimp only at g1 hv
    have hk1 : st1.k = st.k + 1 := by rw [e1]; rfl
    have hb1 : st1.buf = st.buf := by rw [e1]; rfl
    have hl1 : st1.loc = st.loc := by rw [e1]; rfl
    clear e1
    rcases x with _ | x <;> try (cases h; done)
    simp only [RHSt.call] at h
    rcases hcl : call x st1.h st1.k st1.buf with ⟨h', k', b', oe⟩
    rw [hcl] at h
    simp only [Prod.mk.injEq] at h
    obtain ⟨rfl, rfl⟩ := h
    have hle := (hw x _ _ st1.buf g1).2
    rw [hcl] at hle
    obtain ⟨v, hv1, hv2⟩ := hc x _ _ _ _ _ _ g1 hcl
    rw [hk1] at hv1
    refine ⟨f, v, st.k + 1, k', x, rfl, hf, by omega, by dsimp only at hle; omega, Nat.le_refl _, hv.symm, hv1, hl1, ?_⟩
    intro es hb hes
    rcases hee : ecall v es.buf with ⟨v', b2, oe⟩
    rw [← hb1] at hb
    rw [← hb, hee] at hv2
    simp only [Prod.mk.injEq] at hv2
    obtain ⟨rfl, rfl⟩ := hv2
    refine ⟨{ es with fs := es.fs.set f v', buf := b2 }, ?_, rfl, rfl, by simp, fun g hg => by
      show (es.fs.set f v')[g]? = _
      rw [List.getElem?_set_ne (Ne.symm hg)]⟩
    simp only [encStmt, hes, hee]
  | objOpt f =>
    have hf : compB c f = false := by simpa [hplainB] using hp
    have hv := look_val hr (not_comp w c f hf) g
    have g1 := g1 f
    simp only [rhstmt] at h
    rcases hl : st.look o r f with ⟨st1, x⟩
    have e1 : st1 = (st.look o r f).1 := by rw [hl]
    rw [hl] at h hv g1
    dsimp only at g1 hv
    have hk1 : st1.k = st.k + 1 := by rw [e1]; rfl
    have hb1 : st1.buf = st.buf := by rw [e1]; rfl
    have hl1 : st1.loc = st.loc := by rw [e1]; rfl
    clear e1
    rcases x with _ | x
    · cases h
    · by_cases hnull : x = .null
      · subst hnull
        simp only [Prod.mk.injEq, and_true] at h
        subst h
        refine ⟨f, .null, st.k + 1, st.k + 1, .null, rfl, hf, by omega, Nat.le_refl _, Nat.le_of_eq hk1.symm, hv.symm, .null _ _, hl1, ?_⟩
        intro es hb hes
        refine ⟨es, ?_, by rw [hb, hb1], rfl, rfl, fun _ _ => rfl⟩
        simp only [encStmt, hes]
      · have h' : (match st1.look o r f with
            | (st, some x) => st.call call x
            | (st, none) => (st, some JErr.illTyped)) = (st', none) := by
          cases x with
          | null => exact absurd rfl hnull
          | num n => exact h
          | str n => exact h
          | ref n => exact h
        clear h
        have hvB := look_val hr (not_comp w c f hf) g1
        have g2 := (run_look (w := w) (o := o) (h0 := h0) r f st1 g1).1
        rcases hl2 : st1.look o r f with ⟨st2, x2⟩
        have e2 : st2 = (st1.look o r f).1 := by rw [hl2]
        rw [hl2] at h' hvB g2
        dsimp only at g2 hvB
        have hk2 : st2.k = st.k + 2 := by rw [e2]; show st1.k + 1 = _; omega
        have hb2 : st2.buf = st.buf := by rw [e2]; exact hb1
        have hlc2 : st2.loc = st.loc := by rw [e2]; exact hl1
        clear e2
        rcases x2 with _ | x2 <;> try (cases h'; done)
        simp only [RHSt.call] at h'
        rcases hcl : call x2 st2.h st2.k st2.buf with ⟨h2, k', b', oe⟩
        rw [hcl] at h'
        simp only [Prod.mk.injEq] at h'
        obtain ⟨rfl, rfl⟩ := h'
        have hle := (hw x2 _ _ st2.buf g2).2
        rw [hcl] at hle
        obtain ⟨v, hv1, hv2⟩ := hc x2 _ _ _ _ _ _ g2 hcl
        rw [hk2] at hv1
        rw [hk1] at hvB
        refine ⟨f, v, st.k + 2, k', x2, rfl, hf, by omega, by dsimp only at hle; omega, Nat.le_refl _, hvB.symm, hv1, hlc2, ?_⟩
        intro es hb hes
        rcases hee : ecall v es.buf with ⟨v', b2, oe⟩
        rw [← hb2] at hb
        rw [← hb, hee] at hv2
        simp only [Prod.mk.injEq] at hv2
        obtain ⟨rfl, rfl⟩ := hv2
        have hvn : v ≠ .null := by
          rintro rfl
          have := hnullcall es.buf
          rw [hee] at this
          exact this rfl
        refine ⟨{ es with fs := es.fs.set f v', buf := b2 }, ?_, rfl, rfl, by simp, fun g hg => by
          show (es.fs.set f v')[g]? = _
          rw [List.getElem?_set_ne (Ne.symm hg)]⟩
        simp only [encStmt, hes]
        cases v with
        | null => exact absurd rfl hvn
        | num n => simp only [hee]
        | str n => simp only [hee]
        | list n => simp only [hee]
        | obj n m => simp only [hee]
  | _ => cases hp

theorem put_look (hr : h0[r]? = some (.msg c ys)) (hs : HSpares h0 o) (ht : Touchy c f) {st : RHSt} (g : Fine w o h0 st) {y z : HVal}
    (h : ((st.put o r f y).look o r f).2 = some z) : z = y ∧ f < ys.length := by
  have hno : ∀ k, toField (o k) r f = [] := by
    intro k
    unfold toField
    rw [List.map_eq_nil_iff, List.filter_eq_nil_iff]
    intro p hp hx
    simp only [Bool.and_eq_true, beq_iff_eq] at hx
    exact hs k p hp c ys (hx.1 ▸ hr) (hx.2 ▸ ht)
  have g1 := (went_all (w := w) (o := o) (h0 := h0) st.h st.k g).1
  simp only [RHSt.look, RHSt.put] at h
  rw [hsetAll_field, hno, setField_field, if_pos ⟨rfl, rfl⟩] at h
  obtain ⟨ys', h1, h2⟩ := g1.msg' hr
  rw [Heap.field_msg _ r f c ys' h1] at h
  rcases hy : ys'[f]? with _ | u
  · rw [hy] at h; cases h
  · rw [hy] at h
    simp at h
    exact ⟨h.symm, h2 ▸ (List.getElem?_eq_some_iff.1 hy).1⟩

/-- What a sequence of statements has seen. -/
def SeqSaw (w : World) (o : HOthers) (h0 : Heap) (r : Nat) (c : Cls) (ys : List HVal) (ecall : EncCall) (ss : List EncStmt) (st st' : RHSt) : Prop :=
  ∃ (val : Nat → Val) (fr to : Nat → Nat), (∀ f ∈ (ss.flatMap usesOf).filter (fun f => !compB c f), st.k < fr f ∧ fr f ≤ to f ∧ to f ≤ st'.k) ∧
    ((ss.flatMap usesOf).filter (fun f => !compB c f)).Pairwise (fun f g => to f < fr g) ∧
    (∀ f ∈ (ss.flatMap usesOf).filter (fun f => !compB c f), ∃ y, fieldAt o h0 r f (fr f) = some y ∧ Saw o h0 (fr f) (to f) y (val f)) ∧ st.k ≤ st'.k ∧
    ∀ es : EncSt, es.buf = st.buf → es.loc = st.loc → es.fs.length = ys.length →
      (∀ f ∈ (ss.flatMap usesOf).filter (fun f => !compB c f), es.fs[f]? = some (val f)) →
      (∀ f ∈ ss.flatMap usesOf, compB c f = true → es.fs[f]? = (h0.field r f).map HVal.leaf) →
      ∃ es', encStmts w ecall ss es = (es', none) ∧ es'.buf = st'.buf

theorem rhstmts_saw (hr : h0[r]? = some (.msg c ys)) (hs : HSpares h0 o) (hfit : HListsFit h0) {call : RHCall} {ecall : EncCall}
    (hnullcall : ∀ b, (ecall .null b).2.2 ≠ none) (hc : CallSaw w o h0 call ecall) (hw : CallWent w o h0 call) :
    ∀ (n : Nat) (ss : List EncStmt), ss.length ≤ n → (∀ s ∈ ss, s ∈ (decl c).enc) → pairedB c ss = true → (ss.flatMap usesOf).Nodup →
      ∀ (st st' : RHSt), Fine w o h0 st → rhstmts w o call r ss st = (st', none) → SeqSaw w o h0 r c ys ecall ss st st' := by
  intro n
  induction n with
  | zero =>
    intro ss hl _ _ _ st st' g h
    rw [List.eq_nil_of_length_eq_zero (Nat.le_zero.1 hl)] at h ⊢
    simp only [rhstmts, Prod.mk.injEq, and_true] at h
    subst h
    exact ⟨fun _ => .null, fun _ => 0, fun _ => 0, by simp, by simp, by simp, Nat.le_refl _, fun es hb _ _ _ _ => ⟨es, rfl, hb⟩⟩
  | succ n ih =>
    intro ss hl hss hp hnd st st' g h
    cases ss with
    | nil => exact ih [] (by simp) (by simp) rfl (by simp) st st' g h
    | cons s ss =>
      have hmem : ∀ s' ∈ ss, s' ∈ (decl c).enc := fun s' h' => hss s' (List.mem_cons_of_mem _ h')
      have hlen : ss.length ≤ n := by simpa using hl
      rcases paired_cases c s ss hp with ⟨hpl, hps⟩ | ⟨hsz, hps⟩ | ⟨f, x, y, z, t, e, ss', rfl, rfl, hcf, hps⟩ | ⟨f, alg, t, e, ss', rfl, rfl, ⟨u, hwf⟩, hps⟩
      · -- a statement that reads one field
        simp only [rhstmts] at h
        rcases hst : rhstmt w o call r s st with ⟨st1, _ | err⟩
        · rw [hst] at h
          dsimp only at h
          have g1 := (run_rhstmt hw hr s (hss s List.mem_cons_self) st g).1
          rw [hst] at g1
          obtain ⟨f, v, fr1, to1, y, hu, hf, a1, a2, a3, a4, a5, a6, a7⟩ := plain_saw hr hs hfit hnullcall hc hw hpl g hst
          rw [List.flatMap_cons, hu] at hnd
          have hnd' := List.nodup_cons.1 hnd
          obtain ⟨val, fr, to, k1, k2, k3, k4, k5⟩ := ih ss hlen hmem hps hnd'.2 st1 st' g1 h
          have hus : ((s :: ss).flatMap usesOf).filter (fun f => !compB c f) = f :: (ss.flatMap usesOf).filter (fun f => !compB c f) := by
            rw [List.flatMap_cons, hu]
            show (f :: ss.flatMap usesOf).filter _ = _
            rw [List.filter_cons_of_pos (by simp [hf])]
          have hne : ∀ g ∈ (ss.flatMap usesOf).filter (fun f => !compB c f), g ≠ f := by
            rintro g hg rfl
            exact hnd'.1 (List.mem_filter.1 hg).1
          refine ⟨fun g => if g = f then v else val g, fun g => if g = f then fr1 else fr g, fun g => if g = f then to1 else to g, ?_, ?_, ?_, by omega, ?_⟩
          · rw [hus]
            intro g hg
            dsimp only
            rcases List.mem_cons.1 hg with rfl | hg
            · rw [if_pos rfl, if_pos rfl]
              omega
            · rw [if_neg (hne g hg), if_neg (hne g hg)]
              have := k1 g hg
              omega
          · rw [hus, List.pairwise_cons]
            constructor
            · intro g hg
              dsimp only
              rw [if_pos rfl, if_neg (hne g hg)]
              have := (k1 g hg).1
              omega
            · refine k2.imp_of_mem ?_
              intro a b ha hb hab
              dsimp only
              rw [if_neg (hne a ha), if_neg (hne b hb)]
              exact hab
          · rw [hus]
            intro g hg
            dsimp only
            rcases List.mem_cons.1 hg with rfl | hg
            · rw [if_pos rfl, if_pos rfl, if_pos rfl]
              exact ⟨y, a4, a5⟩
            · rw [if_neg (hne g hg), if_neg (hne g hg), if_neg (hne g hg)]
              exact k3 g hg
          · rw [hus]
            intro es hb hlc hfl hv hcv
            have hvf := hv f List.mem_cons_self
            dsimp only at hvf
            rw [if_pos rfl] at hvf
            obtain ⟨es1, b1, b2, b3, b4, b5⟩ := a7 es hb hvf
            simp only [encStmts, b1]
            refine k5 es1 b2 (by rw [b3, hlc, a6]) (by rw [b4, hfl]) ?_ ?_
            · intro g hg
              rw [b5 g (hne g hg), hv g (List.mem_cons_of_mem _ hg)]
              dsimp only
              rw [if_neg (hne g hg)]
            · intro g hg hgc
              have hgf : g ≠ f := by
                rintro rfl
                exact hnd'.1 hg
              rw [b5 g hgf, hcv g (by rw [List.flatMap_cons]; exact List.mem_append_right _ hg) hgc]
        · rw [hst] at h
          cases h
      · -- a statement that reads no field
        have hu : usesOf s = [] := by
          rcases hsz with ⟨x, rfl⟩ | ⟨t, e, rfl⟩ <;> rfl
        have hfm : (s :: ss).flatMap usesOf = ss.flatMap usesOf := by rw [List.flatMap_cons, hu]; rfl
        have key : ∃ st1, rhstmt w o call r s st = (st1, none) ∧ st1.h = st.h ∧ st1.k = st.k ∧ ∀ es : EncSt, es.buf = st.buf → es.loc = st.loc →
            ∃ es1, encStmt w ecall s es = (es1, none) ∧ es1.buf = st1.buf ∧ es1.loc = st1.loc ∧ es1.fs = es.fs := by
          rcases hsz with ⟨x, rfl⟩ | ⟨t, e, rfl⟩
          · refine ⟨_, rfl, rfl, rfl, fun es hb hlc => ⟨_, rfl, hb, ?_, rfl⟩⟩
            show setLoc es.loc x es.buf.wr = setLoc st.loc x st.buf.wr
            rw [hb, hlc]
          · simp only [rhstmts] at h
            rcases hst : rhstmt w o call r (.zero t e) st with ⟨st1, _ | err⟩
            · simp only [rhstmt, RHSt.wrote, Prod.mk.injEq] at hst
              obtain ⟨rfl, hst⟩ := hst
              refine ⟨_, rfl, rfl, rfl, fun es hb hlc => ⟨{ es with buf := (writeInt es.buf t e 0).1 }, ?_, ?_, hlc, rfl⟩⟩
              · simp only [encStmt]
                rw [hb]
                exact congrArg _ hst
              · show (writeInt es.buf t e 0).1 = _
                rw [hb]
            · rw [hst] at h
              cases h
        obtain ⟨st1, hst, hh, hk, hes⟩ := key
        simp only [rhstmts, hst] at h
        rw [hfm] at hnd
        have g1 : Fine w o h0 st1 := by
          show HGood w o h0 st1.h st1.k
          rw [hh, hk]
          exact g
        obtain ⟨val, fr, to, k1, k2, k3, k4, k5⟩ := ih ss hlen hmem hps hnd st1 st' g1 h
        unfold SeqSaw
        rw [hfm]
        rw [hk] at k1 k4
        refine ⟨val, fr, to, k1, k2, k3, k4, ?_⟩
        intro es hb hlc hfl hv hcv
        obtain ⟨es1, b1, b2, b3, b4⟩ := hes es hb hlc
        simp only [encStmts, b1]
        exact k5 es1 b2 b3 (by rw [b4, hfl]) (by rw [b4]; exact hv) (by rw [b4]; exact hcv)
      · -- a length
        have ht := comp_touchy c f hcf
        have hlen' : ss'.length ≤ n := by have := hlen; simp at this; omega
        have hmem' : ∀ s' ∈ ss', s' ∈ (decl c).enc := fun s' h' => hmem s' (List.mem_cons_of_mem _ h')
        have hfm : (EncStmt.setLen f x y :: .patch z f t e :: ss').flatMap usesOf = f :: ss'.flatMap usesOf := rfl
        have hus : ((EncStmt.setLen f x y :: .patch z f t e :: ss').flatMap usesOf).filter (fun f => !compB c f)
            = (ss'.flatMap usesOf).filter (fun f => !compB c f) := by
          rw [hfm, List.filter_cons_of_neg (by simp [hcf])]
        have g1 := (run_rhstmt hw hr _ (hss _ List.mem_cons_self) st g).1
        rw [hfm] at hnd
        have hnd' := List.nodup_cons.1 hnd
        rcases hx : st.loc x with _ | a
        · simp [rhstmts, rhstmt, hx] at h
        rcases hy : st.loc y with _ | b
        · simp [rhstmts, rhstmt, hx, hy] at h
        simp only [rhstmt, hx, hy] at g1
        have g2 := (run_rhstmt hw hr _ (hmem _ List.mem_cons_self) _ g1).1
        simp only [rhstmts, rhstmt, hx, hy] at h
        simp only [rhstmt] at g2
        have hpl := fun (q : HVal) hq => put_look (w := w) hr hs ht g (y := .num (.int (BitVec.ofNat 32 a - BitVec.ofNat 32 b))) (z := q) hq
        rcases hl2 : (st.put o r f (.num (.int (BitVec.ofNat 32 a - BitVec.ofNat 32 b)))).look o r f with ⟨st2, q⟩
        have e2 : st2 = ((st.put o r f (.num (.int (BitVec.ofNat 32 a - BitVec.ofNat 32 b)))).look o r f).1 := by rw [hl2]
        rw [hl2] at h g2 hpl
        have hb2 : st2.buf = st.buf := by rw [e2]; rfl
        have hlc2 : st2.loc = st.loc := by rw [e2]; rfl
        have hk2 : st2.k = st.k + 2 := by rw [e2]; rfl
        clear e2
        rcases q with _ | (_ | m | _ | _) <;> try (cases h; done)
        obtain ⟨hm, hfy⟩ := hpl _ rfl
        cases hm
        dsimp only at h g2
        rcases hz : st2.loc z with _ | p
        · rw [hz] at h; cases h
        rcases hcv : (Num.int (BitVec.ofNat 32 a - BitVec.ofNat 32 b)).convert t with _ | m2
        · rw [hz, hcv] at h; cases h
        rw [hz, hcv] at h g2
        dsimp only [RHSt.wrote] at h g2
        rcases hset : st2.buf.set p (m2.bytes e) with ⟨b2, _ | err⟩
        · rw [hset] at h
          dsimp only at h
          obtain ⟨val, fr, to, k1, k2, k3, k4, k5⟩ := ih ss' hlen' hmem' hps hnd'.2 { st2 with buf := b2 } st' g2 h
          dsimp only at k1 k4
          unfold SeqSaw
          rw [hus]
          refine ⟨val, fr, to, ?_, k2, k3, by omega, ?_⟩
          · intro i hi
            have := k1 i hi
            omega
          · intro es hb hlc hfl hv hcv2
            have hself : (es.fs.set f (.num (.int (BitVec.ofNat 32 a - BitVec.ofNat 32 b))))[f]? = some (.num (.int (BitVec.ofNat 32 a - BitVec.ofNat 32 b))) :=
              List.getElem?_set_self (by rw [hfl]; exact hfy)
            have hz' : es.loc z = some p := by rw [hlc, ← hlc2]; exact hz
            simp only [encStmts, encStmt]
            rw [show es.loc x = some a by rw [hlc]; exact hx, show es.loc y = some b by rw [hlc]; exact hy]
            dsimp only
            rw [hz', hself]
            dsimp only
            rw [hcv]
            dsimp only
            rw [hb, ← hb2, hset]
            refine k5 ⟨es.fs.set f (.num (.int (BitVec.ofNat 32 a - BitVec.ofNat 32 b))), b2, es.loc⟩ rfl (by rw [hlc, ← hlc2]) (by simp [hfl]) ?_ ?_
            · intro i hi
              have hif : f ≠ i := by
                rintro rfl
                exact hnd'.1 (List.mem_filter.1 hi).1
              show (es.fs.set f _)[i]? = _
              rw [List.getElem?_set_ne hif, hv i hi]
            · intro i hi hic
              have hif : f ≠ i := by
                rintro rfl
                exact hnd'.1 hi
              show (es.fs.set f _)[i]? = _
              rw [List.getElem?_set_ne hif, hcv2 i (by rw [hfm]; exact List.mem_cons_of_mem _ hi) hic]
        · rw [hset] at h
          cases h
      · -- a checksum
        have hcf : compB c f = true := by simp [compB, hwf]
        have ht := comp_touchy c f hcf
        have hlen' : ss'.length ≤ n := by have := hlen; simp at this; omega
        have hmem' : ∀ s' ∈ ss', s' ∈ (decl c).enc := fun s' h' => hmem s' (List.mem_cons_of_mem _ h')
        have hfm : (EncStmt.checksum f alg :: .num f t e :: ss').flatMap usesOf = f :: ss'.flatMap usesOf := rfl
        have hus : ((EncStmt.checksum f alg :: .num f t e :: ss').flatMap usesOf).filter (fun f => !compB c f)
            = (ss'.flatMap usesOf).filter (fun f => !compB c f) := by
          rw [hfm, List.filter_cons_of_neg (by simp [hcf])]
        have g1 := (run_rhstmt hw hr _ (hss _ List.mem_cons_self) st g).1
        rw [hfm] at hnd
        have hnd' := List.nodup_cons.1 hnd
        -- the common part: a number was read and written
        have fin : ∀ (st1 : RHSt) (nv : Num), Fine w o h0 st1 → st1.buf = st.buf → st1.loc = st.loc → st.k ≤ st1.k →
            rhstmts w o call r (.num f t e :: ss') st1 = (st', none) → (st1.look o r f).2 = some (.num nv) →
            (∀ es : EncSt, es.buf = st.buf → es.fs.length = ys.length → es.fs[f]? = (h0.field r f).map HVal.leaf →
              ∃ fs1, encStmt w ecall (.checksum f alg) es = (⟨fs1, es.buf, es.loc⟩, none) ∧ fs1.length = es.fs.length ∧ fs1[f]? = some (.num nv) ∧
                ∀ i, f ≠ i → fs1[i]? = es.fs[i]?) →
            SeqSaw w o h0 r c ys ecall (.checksum f alg :: .num f t e :: ss') st st' := by
          intro st1 nv g1 hb1 hlc1 hk1 h hlv hes1
          have g2 := (run_rhstmt hw hr _ (hmem _ List.mem_cons_self) st1 g1).1
          simp only [rhstmts, rhstmt] at h
          simp only [rhstmt] at g2
          rcases hl2 : st1.look o r f with ⟨st2, q⟩
          have e2 : st2 = (st1.look o r f).1 := by rw [hl2]
          rw [hl2] at h g2 hlv
          dsimp only at hlv
          subst hlv
          have hb2 : st2.buf = st.buf := by rw [e2]; exact hb1
          have hlc2 : st2.loc = st.loc := by rw [e2]; exact hlc1
          have hk2 : st2.k = st1.k + 1 := by rw [e2]; rfl
          clear e2
          dsimp only [RHSt.wrote] at h g2
          rcases hwr : writeVal st2.buf t e (.num nv) with ⟨b2, _ | err⟩
          · rw [hwr] at h
            dsimp only at h
            obtain ⟨val, fr, to, k1, k2, k3, k4, k5⟩ := ih ss' hlen' hmem' hps hnd'.2 { st2 with buf := b2 } st' g2 h
            dsimp only at k1 k4
            unfold SeqSaw
            rw [hus]
            refine ⟨val, fr, to, ?_, k2, k3, by omega, ?_⟩
            · intro i hi
              have := k1 i hi
              omega
            · intro es hb hlc hfl hv hcv2
              obtain ⟨fs1, c1, c2, c3, c4⟩ := hes1 es hb hfl (hcv2 f (by rw [hfm]; exact List.mem_cons_self) hcf)
              simp only [encStmts, c1]
              simp only [encStmt, c3]
              rw [hb, ← hb2, hwr]
              refine k5 ⟨fs1, b2, es.loc⟩ rfl (by rw [hlc, ← hlc2]) (by rw [c2, hfl]) ?_ ?_
              · intro i hi
                have hif : f ≠ i := by
                  rintro rfl
                  exact hnd'.1 (List.mem_filter.1 hi).1
                exact (c4 i hif).trans (hv i hi)
              · intro i hi hic
                have hif : f ≠ i := by
                  rintro rfl
                  exact hnd'.1 hi
                exact (c4 i hif).trans (hcv2 i (by rw [hfm]; exact List.mem_cons_of_mem _ hi) hic)
          · rw [hwr] at h
            cases h
        have hnum : ∀ st1, rhstmts w o call r (.num f t e :: ss') st1 = (st', none) → ∃ nv, (st1.look o r f).2 = some (.num nv) := by
          intro st1 h
          simp only [rhstmts, rhstmt] at h
          rcases hl2 : st1.look o r f with ⟨st2, q⟩
          rw [hl2] at h
          rcases q with _ | (_ | m | _ | _) <;> first | exact ⟨m, rfl⟩ | cases h
        rcases hsv : Registry.getService w.svc alg with _ | sv
        · -- no service: the field keeps its value
          simp only [rhstmt, hsv] at g1
          have h1 : rhstmts w o call r (.num f t e :: ss') st = (st', none) := by
            rw [rhstmts] at h
            simp only [rhstmt, hsv] at h
            exact h
          obtain ⟨nv, hnv⟩ := hnum st h1
          refine fin st nv g rfl rfl (Nat.le_refl _) h1 hnv ?_
          intro es hb hfl hf0
          have hfc : fieldComputed w.svc c f = false := by
            unfold fieldComputed
            unfold wire at hwf
            rw [List.getElem?_map] at hwf
            rcases hlay : (layout c)[f]? with _ | ⟨nm, ty⟩
            · rfl
            · rw [hlay] at hwf
              simp only [Option.map_some, Option.some.injEq] at hwf
              subst hwf
              simp [hsv]
          have hv := look_val hr hfc g
          rw [hnv, fieldAt_spared hs hr ht] at hv
          rw [← hv] at hf0
          refine ⟨es.fs, ?_, rfl, hf0, fun _ _ => rfl⟩
          simp only [encStmt, hsv]
        · simp only [rhstmt, hsv] at g1
          have h1 : rhstmts w o call r (.num f t e :: ss') (st.put o r f (.num (.int (sv.calcOn st.buf.readable)))) = (st', none) := by
            rw [rhstmts] at h
            simp only [rhstmt, hsv] at h
            exact h
          obtain ⟨nv, hnv⟩ := hnum _ h1
          obtain ⟨hq, hfy⟩ := put_look (w := w) hr hs ht g hnv
          cases hq
          refine fin _ _ g1 rfl rfl (Nat.le_succ _) h1 hnv ?_
          intro es hb hfl _
          refine ⟨es.fs.set f (.num (.int (sv.calcOn es.buf.readable))), ?_, by simp, ?_, fun i hi => List.getElem?_set_ne hi⟩
          · simp only [encStmt, hsv]
          · rw [hb]
            exact List.getElem?_set_self (by rw [hfl]; exact hfy)

end

theorem pair_sublist {m f g : Nat} (hfg : f < g) (hg : g < m) : [f, g].Sublist (List.range m) := by
  rw [show List.range m = List.range (f + 1) ++ (List.range (m - (f + 1))).map (f + 1 + ·) from by
    rw [← List.range_add]; congr 1; omega]
  refine List.Sublist.append (l₁ := [f]) ?_ ?_
  · exact List.singleton_sublist.2 (List.mem_range.2 (Nat.lt_succ_self f))
  · exact List.singleton_sublist.2 (List.mem_map.2 ⟨g - (f + 1), List.mem_range.2 (by omega), by omega⟩)

theorem rhencode_saw (hs : HSpares h0 o) (hfit : HListsFit h0) : ∀ n, CallSaw w o h0 (rhencode w o n) (encode w n) := by
  intro n
  induction n with
  | zero =>
    intro x h k b h' k' b' g hcl
    cases x <;> cases hcl
  | succ n ih =>
    intro x h k b h' k' b' g hcl
    cases x with
    | null => cases hcl
    | num n => cases hcl
    | str n => cases hcl
    | ref r =>
      simp only [rhencode] at hcl
      rcases hr : h[r]? with _ | (⟨c, ys1⟩ | xs)
      · rw [hr] at hcl; cases hcl
      · rw [hr] at hcl
        dsimp only at hcl
        obtain ⟨ys, hr0, -⟩ := g.msg hr
        rcases hst : rhstmts w o (rhencode w o n) r (decl c).enc ⟨h, k, b, fun _ => none⟩ with ⟨st', oe⟩
        rw [hst] at hcl
        simp only [Prod.mk.injEq] at hcl
        obtain ⟨rfl, rfl, rfl, rfl⟩ := hcl
        have hnull : ∀ b, (encode w n .null b).2.2 ≠ none := by
          intro b
          cases n <;> simp [encode]
        obtain ⟨val, fr, to, k1, k2, k3, k4, k5⟩ := rhstmts_saw hr0 hs hfit hnull ih (run_rhencode n) (decl c).enc.length (decl c).enc (Nat.le_refl _)
          (fun _ h => h) (enc_paired c) (nodup_of _ (enc_uses c)) ⟨h, k, b, fun _ => none⟩ st' g hst
        rw [enc_plain] at k1 k2 k3 k5
        have hin : ∀ f, f < (wire c).length → ¬ Computed c f → f ∈ (List.range (wire c).length).filter fun f => !compB c f := by
          intro f hf hcf
          rw [computed_iff] at hcf
          exact List.mem_filter.2 ⟨List.mem_range.2 hf, by simpa using hcf⟩
        let vs : List Val := (List.range ys.length).map fun f => if f < (wire c).length ∧ compB c f = false then val f else ((ys[f]?).getD .null).leaf
        have hlen : vs.length = ys.length := by simp [vs]
        have hvs : ∀ f, f < ys.length → vs[f]? = some (if f < (wire c).length ∧ compB c f = false then val f else ((ys[f]?).getD .null).leaf) := by
          intro f hf
          simp [vs, hf]
        have hfield : ∀ f, h0.field r f = ys[f]? := fun f => Heap.field_msg h0 r f c ys hr0
        refine ⟨.obj c vs, .msg k st'.k r c ys vs fr to hr0 hlen (fun f hf hcf => k1 f (hin f hf hcf)) ?_ ?_ ?_, ?_⟩
        · intro f g hfg hg hcf hcg
          have h2 := (pair_sublist hfg hg).filter (fun f => !compB c f)
          rw [computed_iff] at hcf hcg
          have h3 : [f, g].Sublist ((List.range (wire c).length).filter fun f => !compB c f) := by simpa [hcf, hcg] using h2
          simpa using k2.sublist h3
        · intro f y v hf hcf hy hv
          obtain ⟨y', hy', hsaw⟩ := k3 f (hin f hf hcf)
          rw [hy] at hy'
          cases hy'
          have hfl : f < ys.length := by rw [← hlen]; exact (List.getElem?_eq_some_iff.1 hv).1
          rw [hvs f hfl, if_pos ⟨hf, by rw [computed_iff] at hcf; simpa using hcf⟩] at hv
          rw [← Option.some.inj hv]
          exact hsaw
        · intro f y hcf hy
          rw [hfield] at hy
          have hfl := (List.getElem?_eq_some_iff.1 hy).1
          rw [computed_iff] at hcf
          rw [hvs f hfl, if_neg (by simp [hcf]), hy]
          simp only [Option.getD_some]
        · have hv1 : ∀ f ∈ (List.range (wire c).length).filter (fun f => !compB c f), vs[f]? = some (val f) := by
            intro f hf
            obtain ⟨y, hy, -⟩ := k3 f hf
            have hfl : f < ys.length := by
              unfold fieldAt at hy
              rw [hfield] at hy
              rcases hyf : ys[f]? with _ | u
              · rw [hyf] at hy; cases hy
              · exact (List.getElem?_eq_some_iff.1 hyf).1
            have h2 := List.mem_filter.1 hf
            rw [hvs f hfl, if_pos ⟨List.mem_range.1 h2.1, by simpa using h2.2⟩]
          have hv2 : ∀ f ∈ (decl c).enc.flatMap usesOf, compB c f = true → vs[f]? = (h0.field r f).map HVal.leaf := by
            intro f _ hcf
            rw [hfield]
            by_cases hfl : f < ys.length
            · rw [hvs f hfl, if_neg (by simp [hcf]), List.getElem?_eq_getElem hfl]
              rfl
            · rw [List.getElem?_eq_none (by rw [hlen]; omega), List.getElem?_eq_none (by omega)]
              rfl
          obtain ⟨es', e1, e2⟩ := k5 ⟨vs, b, fun _ => none⟩ rfl rfl hlen hv1 hv2
          simp only [encode, e1, e2]
      · rw [hr] at hcl; cases hcl

end

/-! ### Nobody else -/

/-- Nobody does anything. -/
abbrev nobody : HOthers := fun _ => []

/-- Without the number of accesses. -/
def RHSt.strip (st : RHSt) : HEncSt := ⟨st.h, st.buf, st.loc⟩

/-- The calls do the same. -/
def CallSame (call : RHCall) (hcall : HEncCall) : Prop :=
  ∀ x h k b, HListsFit h → ((call x h k b).1, (call x h k b).2.2.1, (call x h k b).2.2.2) = hcall x h b

theorem HGood.fit {w : World} {o : HOthers} {h0 h : Heap} {k : Nat} (g : HGood w o h0 h k) (hfit : HListsFit h0) : HListsFit h :=
  fun a xs ha => hfit a xs ((g.arr xs).1 ha)

theorem fieldAt_nobody (h : Heap) (q g k : Nat) : fieldAt nobody h q g k = h.field q g := by
  induction k with
  | zero => exact fieldAt_zero _ h q g
  | succ k ih => rw [fieldAt_succ, ih]; simp [toField]

theorem good_nobody (w : World) (h : Heap) (k : Nat) : HGood w nobody h h k := ⟨fun _ => rfl, fun q _ _ f _ _ => (fieldAt_nobody h q f k).symm⟩

theorem spares_nobody (h : Heap) : HSpares h nobody := fun _ _ hp => nomatch hp

theorem look_nobody (r f : Nat) (st : RHSt) : st.look nobody r f = ({ st with k := st.k + 1 }, st.h.field r f) := rfl

theorem rhdyn_nobody (x : RHSt → RHSt × Except JErr HVal) (v : HVal) (st : RHSt) (h1 : x st = ({ st with k := st.k + 1 }, .ok v)) (h2 : x { st with k := st.k + 1 } = ({ st with k := st.k + 2 }, .ok v))
    (zt t : PTy) (e : Endian) : ∃ k, rhdyn x zt t e st = ({ st with k := k, buf := (writeDynVal st.buf v.leaf zt t e).1 }, (writeDynVal st.buf v.leaf zt t e).2) := by
  unfold rhdyn
  rw [h1]
  dsimp only
  cases v with
  | null => exact ⟨_, rfl⟩
  | num n => exact ⟨_, rfl⟩
  | ref a => exact ⟨_, rfl⟩
  | str s =>
    cases s with
    | nil => exact ⟨_, rfl⟩
    | cons ch cs =>
      simp only [HVal.leaf, Val.asStr, h2, writeDynVal, writeDyn]
      rcases writeInt st.buf t e (utf8Enc (ch :: cs)).length with ⟨b, _ | err⟩
      · exact ⟨_, rfl⟩
      · exact ⟨_, rfl⟩

section
variable {w : World} {h0 : Heap} {r f : Nat} {c : Cls} {ys : List HVal}

theorem rhelem_nobody (hr : h0[r]? = some (.msg c ys)) (hf : compB c f = false) (ht : Touchy c f) {a : Nat} {xs : List HVal}
    (ha : h0.field r f = some (.ref a)) (hx : h0[a]? = some (.arr xs)) {call : RHCall} {hcall : HEncCall} (hc : CallSame call hcall) (hfit : HListsFit h0)
    (el : EncElem) {i : Nat} {x : HVal} (hi : xs[i]? = some x) (st : RHSt) (g : Fine w nobody h0 st) :
    let q := rhelem nobody call el r f i st
    (q.1.h, q.1.buf, q.2) = hencElem hcall el x st.h st.buf ∧ q.1.loc = st.loc := by
  intro q
  have hg := get_val hr (spares_nobody h0) hf ht ha hx hi g
  rw [look_nobody] at hg
  dsimp only at hg
  cases el with
  | num t e =>
    simp only [q, rhelem, hg, hencElem, RHSt.wrote]
    exact ⟨trivial, trivial⟩
  | fixed n pad left =>
    simp only [q, rhelem, hg, hencElem, RHSt.wrote]
    exact ⟨trivial, trivial⟩
  | dyn zt t e =>
    have g1 : Fine w nobody h0 { st with k := st.k + 1 } := (run_look r f st g).1
    have hg2 := get_val hr (spares_nobody h0) hf ht ha hx hi g1
    rw [look_nobody] at hg2
    obtain ⟨k, hk⟩ := rhdyn_nobody (fun st => st.get nobody r f i) x st hg hg2 zt t e
    simp only [q, rhelem, hk, hencElem]
    exact ⟨trivial, trivial⟩
  | obj =>
    simp only [q, rhelem, hg, hencElem, RHSt.call]
    exact ⟨hc x st.h (st.k + 1) st.buf (g.fit hfit), trivial⟩

theorem rhloop_nobody (hr : h0[r]? = some (.msg c ys)) (hf : compB c f = false) (ht : Touchy c f) {a : Nat} {xs : List HVal}
    (ha : h0.field r f = some (.ref a)) (hx : h0[a]? = some (.arr xs)) {call : RHCall} {hcall : HEncCall} (hc : CallSame call hcall) (hfit : HListsFit h0)
    (hw : CallWent w nobody h0 call) (el : EncElem) : ∀ (m i : Nat) (st : RHSt), xs.length ≤ m + i → Fine w nobody h0 st →
    let q := rhloop nobody call el r f m i st
    (q.1.h, q.1.buf, q.2) = hencElems hcall el (xs.drop i) st.h st.buf ∧ q.1.loc = st.loc := by
  intro m
  induction m with
  | zero =>
    intro i st hl g
    rw [List.drop_eq_nil_of_le (by omega)]
    exact ⟨rfl, rfl⟩
  | succ m ih =>
    intro i st hl g
    have he := elems_val hr (spares_nobody h0) hf ht ha hx g
    have g1 : Fine w nobody h0 { st with k := st.k + 1 } := (run_look r f st g).1
    rw [look_nobody] at he
    dsimp only at he
    simp only [rhloop, he]
    by_cases hi : i < xs.length
    · rw [if_pos hi, List.drop_eq_getElem_cons hi]
      obtain ⟨h1, h2⟩ := rhelem_nobody hr hf ht ha hx hc hfit el (List.getElem?_eq_getElem hi) _ g1
      have g2 := (run_rhelem hw el r f i _ g1).1
      simp only [hencElems]
      rcases hq : rhelem nobody call el r f i { st with k := st.k + 1 } with ⟨st1, oe⟩
      rw [hq] at h1 h2 g2
      dsimp only at h1 h2 g2
      rw [← h1]
      cases oe with
      | some err => exact ⟨rfl, h2⟩
      | none =>
        dsimp only
        obtain ⟨h3, h4⟩ := ih (i + 1) st1 (by omega) g2
        exact ⟨h3, h4.trans h2⟩
    · rw [if_neg hi, List.drop_eq_nil_of_le (by omega)]
      exact ⟨rfl, rfl⟩

/-- Lists are lists in the layout. -/
def listB (c : Cls) : EncStmt → Bool
  | .list f _ _ _ _ => touchyB c f && !compB c f
  | _ => true

theorem enc_lists (c : Cls) : (decl c).enc.all (listB c) = true := by
  cases c <;> rfl

theorem rhstmt_nobody {call : RHCall} {hcall : HEncCall} (hc : CallSame call hcall) (hw : ∀ h0, CallWent w nobody h0 call) (s : EncStmt)
    (hs : s ∈ (decl c).enc) (st : RHSt) (hr : st.h[r]? = some (.msg c ys)) (hfit : HListsFit st.h) :
    ((rhstmt w nobody call r s st).1.strip, (rhstmt w nobody call r s st).2) = hencStmt w hcall r s st.strip := by
  have hlist := List.all_eq_true.1 (enc_lists c) s hs
  cases s with
  | num f t e =>
    simp only [rhstmt, hencStmt, look_nobody, RHSt.strip]
    rcases st.h.field r f with _ | (_ | _ | _ | _) <;> rfl
  | fixed f n pad left =>
    simp only [rhstmt, hencStmt, look_nobody, RHSt.strip]
    rcases st.h.field r f with _ | x <;> rfl
  | dyn f zt t e =>
    rcases hx : st.h.field r f with _ | x
    · simp only [rhstmt, hencStmt, rhdyn, RHSt.field, look_nobody, RHSt.strip, hx]
    · obtain ⟨k, hk⟩ := rhdyn_nobody (fun st => st.field nobody r f) x st
        (by simp [RHSt.field, look_nobody, hx]) (by simp [RHSt.field, look_nobody, hx]) zt t e
      simp only [rhstmt, hencStmt, RHSt.strip, hx, hk]
  | list f zt t e el =>
    have hp : touchyB c f = true ∧ compB c f = false := by simpa [listB] using hlist
    obtain ⟨ht, hf⟩ := hp
    rw [← touchy_iff] at ht
    simp only [rhstmt, hencStmt, look_nobody, RHSt.strip, RHSt.elems]
    rcases hx : st.h.field r f with _ | (_ | n | n | a)
    · rfl
    · rfl
    · dsimp only
      rw [hx]
    · dsimp only
      rw [hx]
    · dsimp only
      rw [hx]
      dsimp only
      rcases hax : st.h[a]? with _ | (⟨d, zs⟩ | xs)
      · rfl
      · rfl
      · cases xs with
        | nil => rfl
        | cons x xs =>
          dsimp only [RHSt.wrote]
          rw [hx]
          dsimp only
          rw [hax]
          dsimp only
          rcases writeInt st.buf t e (x :: xs).length with ⟨b, _ | err⟩
          · dsimp only
            have g : Fine w nobody st.h ⟨st.h, st.k + 1 + 1 + 1, b, st.loc⟩ := good_nobody w st.h _
            obtain ⟨h1, h2⟩ := rhloop_nobody hr hf ht hx hax hc hfit (hw st.h) el 2147483647 0 ⟨st.h, st.k + 1 + 1 + 1, b, st.loc⟩
              (by have := hfit a _ hax; omega) g
            rw [List.drop_zero] at h1
            dsimp only at h1 h2
            rw [← h1, h2]
          · rfl
  | obj f =>
    simp only [rhstmt, hencStmt, look_nobody, RHSt.strip]
    rcases st.h.field r f with _ | x
    · rfl
    · simp only [RHSt.call, ← hc x st.h (st.k + 1) st.buf hfit]
  | objOpt f =>
    simp only [rhstmt, hencStmt, look_nobody, RHSt.strip]
    rcases hx : st.h.field r f with _ | (_ | n | n | n)
    · rfl
    · rfl
    · simp only [hx, RHSt.call, ← hc _ st.h (st.k + 1 + 1) st.buf hfit]
    · simp only [hx, RHSt.call, ← hc _ st.h (st.k + 1 + 1) st.buf hfit]
    · simp only [hx, RHSt.call, ← hc _ st.h (st.k + 1 + 1) st.buf hfit]
  | save x => rfl
  | zero t e => rfl
  | setLen f x y =>
    simp only [rhstmt, hencStmt, RHSt.strip]
    rcases st.loc x with _ | a <;> rcases st.loc y with _ | b <;> rfl
  | patch x f t e =>
    simp only [rhstmt, hencStmt, look_nobody, RHSt.strip]
    rcases hl : st.loc x with _ | p <;> rcases st.h.field r f with _ | (_ | n | _ | _) <;> try rfl
    · dsimp only
      rw [hl]
    · dsimp only
      rw [hl]
      cases n.convert t <;> rfl
  | checksum f alg =>
    simp only [rhstmt, hencStmt, RHSt.strip]
    rcases Registry.getService w.svc alg with _ | s <;> rfl

theorem rhstmts_nobody {call : RHCall} {hcall : HEncCall} (hc : CallSame call hcall) (hw : ∀ h0, CallWent w nobody h0 call) :
    ∀ (ss : List EncStmt), (∀ s ∈ ss, s ∈ (decl c).enc) → ∀ (st : RHSt) (ys : List HVal), st.h[r]? = some (.msg c ys) → HListsFit st.h →
      ((rhstmts w nobody call r ss st).1.strip, (rhstmts w nobody call r ss st).2) = hencStmts w hcall r ss st.strip := by
  intro ss
  induction ss with
  | nil => intro _ st _ _ _; rfl
  | cons s ss ih =>
    intro hss st ys hr hfit
    have h1 := rhstmt_nobody hc hw s (hss s List.mem_cons_self) st hr hfit
    have g1 := (run_rhstmt (hw st.h) hr s (hss s List.mem_cons_self) st (good_nobody w st.h st.k)).1
    simp only [rhstmts, hencStmts, ← h1]
    rcases hq : rhstmt w nobody call r s st with ⟨st1, _ | err⟩
    · rw [hq] at g1
      obtain ⟨ys', hr', -⟩ := g1.msg' hr
      exact ih (fun s' hs' => hss s' (List.mem_cons_of_mem _ hs')) st1 ys' hr' (g1.fit hfit)
    · rfl

theorem rhencode_nobody (w : World) : ∀ n : Nat, CallSame (rhencode w nobody n) (hencode w n) := by
  intro n
  induction n with
  | zero =>
    intro x h k b _
    cases x <;> rfl
  | succ n ih =>
    intro x h k b hfit
    cases x with
    | ref r =>
      simp only [rhencode, hencode]
      rcases hr : h[r]? with _ | (⟨c, ys⟩ | xs)
      · rfl
      · have := rhstmts_nobody (w := w) (r := r) ih (fun h0 => run_rhencode n) (decl c).enc (fun _ hs => hs) ⟨h, k, b, fun _ => none⟩ ys hr hfit
        dsimp only
        simp only [RHSt.strip] at this
        rw [← this]
      · rfl
    | _ => rfl

end

/-! ### Types -/

theorem fieldsHaveType_of : ∀ (ts : List FTy) (vs : List Val), vs.length = ts.length →
    (∀ (f : Nat) t v, ts[f]? = some t → vs[f]? = some v → hasType t v = true) → fieldsHaveType ts vs = true
  | [], [], _, _ => rfl
  | [], _ :: _, h, _ => by simp at h
  | _ :: _, [], h, _ => by simp at h
  | t :: ts, v :: vs, h, hf => by
    simp only [fieldsHaveType, Bool.and_eq_true]
    exact ⟨hf 0 t v rfl rfl, fieldsHaveType_of ts vs (by simpa using h) fun f t' v' h1 h2 => hf (f + 1) t' v' h1 h2⟩

theorem elemsHaveType_of (e : ElTy) : ∀ (vs : List Val), (∀ (i : Nat) v, vs[i]? = some v → elemHasType e v = true) → elemsHaveType e vs = true
  | [], _ => rfl
  | v :: vs, h => by
    simp only [elemsHaveType, Bool.and_eq_true]
    exact ⟨h 0 v rfl, elemsHaveType_of e vs fun i v' h1 => h (i + 1) v' h1⟩

theorem types_length (c : Cls) : (javaTypes c).length = (wire c).length := by
  cases c <;> rfl

/-- Computed fields are numbers. -/
theorem comp_table (c : Cls) : ((List.range (wire c).length).all fun f => !compB c f || match (javaTypes c)[f]? with | some (.prim _) => true | _ => false) = true := by
  cases c <;> rfl

theorem fieldAt_typed {o : HOthers} {h : Heap} (ht : TypedHeap h) (ho : HTyped h o) {r : Nat} {c : Cls} {ys : List HVal} (hr : h[r]? = some (.msg c ys)) {f : Nat}
    {t : FTy} (hf : (javaTypes c)[f]? = some t) : ∀ (k : Nat) (y : HVal), fieldAt o h r f k = some y → ValOf h t y := by
  intro k
  induction k with
  | zero =>
    intro y hy
    rw [fieldAt_zero, Heap.field_msg h r f c ys hr] at hy
    exact (ht.fields r c ys hr).2 f t y hf hy
  | succ k ih =>
    intro y hy
    rw [fieldAt_succ] at hy
    rcases hz : fieldAt o h r f k with _ | z
    · rw [hz] at hy; cases hy
    · rw [hz] at hy
      simp only [Option.map_some, Option.some.injEq] at hy
      rcases hl : (toField (o k) r f).getLast? with _ | u
      · rw [hl] at hy
        exact hy ▸ ih z hz
      · rw [hl] at hy
        have hm := List.mem_of_getLast? hl
        unfold toField at hm
        obtain ⟨p, hp, hpu⟩ := List.mem_map.1 hm
        have hp' := List.mem_filter.1 hp
        simp only [Bool.and_eq_true, beq_iff_eq] at hp'
        have := ho k p hp'.1 c ys t (hp'.2.1 ▸ hr) (hp'.2.2 ▸ hf)
        rw [hpu] at this
        exact hy ▸ this

theorem saw_typed {o : HOthers} {h : Heap} (ht : TypedHeap h) (ho : HTyped h o) {lo hi : Nat} {x : HVal} {v : Val} (hs : Saw o h lo hi x v) :
    (∀ t, ValOf h t x → hasType t v = true) ∧ ∀ e, ElOf h e x → elemHasType e v = true := by
  induction hs with
  | null lo hi =>
    refine ⟨fun t hv => ?_, fun e _ => rfl⟩
    cases hv with
    | null hp => cases t <;> first | rfl | exact absurd rfl (hp _)
  | num lo hi n =>
    refine ⟨fun t hv => ?_, fun e hv => ?_⟩
    · cases hv with | num hn => simp [hasType, hn]
    · cases hv with | num hn => simp [elemHasType, hn]
  | str lo hi s =>
    refine ⟨fun t hv => ?_, fun e hv => ?_⟩
    · cases hv with | str => rfl
    · cases hv with | str => rfl
  | list lo hi a xs vs fr to ha hl hm hp hsaw ih =>
    refine ⟨fun t hv => ?_, fun e hv => ?_⟩
    · cases hv with
      | list h1 h2 =>
        rw [ha] at h1
        cases h1
        simp only [hasType]
        refine elemsHaveType_of _ vs fun i v hv => ?_
        have hi' : i < xs.length := hl ▸ (List.getElem?_eq_some_iff.1 hv).1
        exact (ih i _ v (List.getElem?_eq_getElem hi') hv).2 _ (h2 _ (List.getElem_mem hi'))
      | obj h1 => rw [ha] at h1; cases h1
      | codec h1 => rw [ha] at h1; cases h1
    · cases hv with
      | obj h1 => rw [ha] at h1; cases h1
  | msg lo hi r c ys vs fr to hr hl hm hp hsaw hcomp ih =>
    have hfields : fieldsHaveType (javaTypes c) vs = true := by
      have hlen := (ht.fields r c ys hr).1
      refine fieldsHaveType_of _ _ (hl.trans hlen) fun f t v hf hv => ?_
      have hfl : f < (wire c).length := by rw [← types_length]; exact (List.getElem?_eq_some_iff.1 hf).1
      have hfy : f < ys.length := by rw [← hl]; exact (List.getElem?_eq_some_iff.1 hv).1
      have hfield : h.field r f = some ys[f] := by rw [Heap.field_msg h r f c ys hr, List.getElem?_eq_getElem hfy]
      by_cases hcf : Computed c f
      · have h1 := hcomp f _ hcf hfield
        rw [hv] at h1
        cases h1
        have h2 := (ht.fields r c ys hr).2 f t _ hf (List.getElem?_eq_getElem hfy)
        have h3 := List.all_eq_true.1 (comp_table c) f (List.mem_range.2 hfl)
        rw [computed_iff] at hcf
        rw [hcf, hf] at h3
        generalize ys[f] = y at h2 ⊢
        cases h2 with
        | num hn => simp [HVal.leaf, hasType, hn]
        | null hp => cases t <;> first | exact absurd rfl (hp _) | cases h3
        | str => cases h3
        | list => cases h3
        | obj => cases h3
        | codec => cases h3
      · have hsome : ∃ y, fieldAt o h r f (fr f) = some y := by
          unfold fieldAt
          rw [hfield]
          exact ⟨_, rfl⟩
        obtain ⟨y, hy⟩ := hsome
        exact (ih f y v hfl hcf hy hv).1 t (fieldAt_typed ht ho hr hf _ y hy)
    refine ⟨fun t hv => ?_, fun e hv => ?_⟩
    · cases hv with
      | list h1 => rw [hr] at h1; cases h1
      | obj h1 =>
        rw [hr] at h1
        cases h1
        simp [hasType, hfields]
      | codec h1 => simp [hasType, hfields]
    · cases hv with
      | obj h1 =>
        rw [hr] at h1
        cases h1
        simp [elemHasType, hfields]

theorem ftyped_cons {t : FTy} {ts : List FTy} {vs : List Val} (h : fieldsHaveType (t :: ts) vs = true) :
    ∃ v vs', vs = v :: vs' ∧ hasType t v = true ∧ fieldsHaveType ts vs' = true := by
  rcases vs with _ | ⟨v, vs⟩
  · simp [fieldsHaveType] at h
  · simp only [fieldsHaveType, Bool.and_eq_true] at h
    exact ⟨v, vs, rfl, h.1, h.2⟩

theorem ftyped_num {p : PTy} {ts : List FTy} {vs : List Val} (h : fieldsHaveType (.prim p :: ts) vs = true) :
    ∃ n vs', vs = .num n :: vs' ∧ fieldsHaveType ts vs' = true := by
  obtain ⟨v, vs', rfl, h1, h2⟩ := ftyped_cons h
  cases v <;> first | exact ⟨_, _, rfl, h2⟩ | cases h1

theorem ftyped_nil {vs : List Val} (h : fieldsHaveType [] vs = true) : vs = [] := by
  cases vs with
  | nil => rfl
  | cons v vs => simp [fieldsHaveType] at h

end FinProto
