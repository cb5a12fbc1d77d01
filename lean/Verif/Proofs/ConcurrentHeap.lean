import Verif.Model.ConcurrentHeap
import Verif.Proofs.HeapEncode
import Verif.Proofs.ConcurrentEncode
/-
Helper lemmas for threads that encode messages of one heap at the same time.
-/
namespace FinProto

/-! ### One thread alone does what `hencode` does -/

/-- `k` steps of a thread alone. -/
def HThread.go (w : World) (n : Nat) : Nat → Heap × HThread → Heap × HThread
  | 0, p => p
  | k + 1, p => HThread.go w n k (p.2.step w n p.1)

theorem HThread.go_add (w : World) (n : Nat) (k l : Nat) : ∀ p, HThread.go w n (k + l) p = HThread.go w n l (HThread.go w n k p) := by
  induction k with
  | zero => intro p; rw [Nat.zero_add]; rfl
  | succ k ih =>
    intro p
    rw [show k + 1 + l = (k + l) + 1 by omega, HThread.go, ih]
    rfl

theorem HThread.go_succ (w : World) (n : Nat) (k : Nat) (p : Heap × HThread) :
    HThread.go w n (k + 1) p = (HThread.go w n k p).2.step w n (HThread.go w n k p).1 := by
  rw [HThread.go_add]; rfl

theorem HThread.step_done (w : World) (n : Nat) (h : Heap) (t : HThread) (hd : t.err ≠ none ∨ t.stack = []) : t.step w n h = (h, t) := by
  unfold HThread.step
  split
  · rename_i a as he hs
    rcases hd with hd | hd
    · exact absurd he hd
    · rw [hs] at hd; cases hd
  · rfl

theorem HThread.go_done (w : World) (n : Nat) (p : Heap × HThread) (hd : p.2.err ≠ none ∨ p.2.stack = []) : ∀ k, HThread.go w n k p = p
  | 0 => rfl
  | k + 1 => by
    rw [HThread.go, HThread.step_done w n _ _ hd]
    exact HThread.go_done w n p hd k

/-- In some number of steps the thread gets from `p` to a state with heap `h'`, buffer `b'` and exception `e'`, and if there is none, with these
calls in progress. -/
def Gets (w : World) (n : Nat) (p : Heap × HThread) (h' : Heap) (b' : WBuf) (e' : Option JErr) (as : List Activation) : Prop :=
  ∃ k, (HThread.go w n k p).1 = h' ∧ (HThread.go w n k p).2.buf = b' ∧ (HThread.go w n k p).2.err = e' ∧
    (e' = none → (HThread.go w n k p).2.stack = as)

theorem Gets.now {w : World} {n : Nat} (h : Heap) (t : HThread) : Gets w n (h, t) h t.buf t.err t.stack :=
  ⟨0, rfl, rfl, rfl, fun _ => rfl⟩

theorem Gets.now' {w : World} {n : Nat} (h : Heap) (t : HThread) {b : WBuf} {e : Option JErr} {as : List Activation} (hb : t.buf = b)
    (he : t.err = e) (hs : e = none → t.stack = as) : Gets w n (h, t) h b e as :=
  ⟨0, rfl, hb, he, hs⟩

theorem Gets.step {w : World} {n : Nat} {p : Heap × HThread} {h' : Heap} {b' : WBuf} {e' : Option JErr} {as : List Activation}
    (h : Gets w n (p.2.step w n p.1) h' b' e' as) : Gets w n p h' b' e' as := by
  obtain ⟨k, hk⟩ := h
  exact ⟨k + 1, hk⟩

/-- Go on after a part that has ended without exception. -/
theorem Gets.then {w : World} {n : Nat} {p : Heap × HThread} {h1 h2 : Heap} {b1 b2 : WBuf} {e2 : Option JErr} {as1 as2 : List Activation}
    (h : Gets w n p h1 b1 none as1) (h' : Gets w n (h1, ⟨as1, b1, none⟩) h2 b2 e2 as2) : Gets w n p h2 b2 e2 as2 := by
  obtain ⟨k, k1, k2, k3, k4⟩ := h
  obtain ⟨l, hl⟩ := h'
  have : HThread.go w n k p = (h1, ⟨as1, b1, none⟩) := by
    rw [← k1, ← k2, ← k3, ← k4 rfl]
  refine ⟨k + l, ?_⟩
  rw [HThread.go_add, this]
  exact hl

theorem Gets.fail {w : World} {n : Nat} {p : Heap × HThread} {h1 : Heap} {b1 : WBuf} {e : JErr} {as1 as2 : List Activation}
    (h : Gets w n p h1 b1 (some e) as1) : Gets w n p h1 b1 (some e) as2 := by
  obtain ⟨k, k1, k2, k3, -⟩ := h
  exact ⟨k, k1, k2, k3, fun h => by cases h⟩

/-- Calls at depth `m` do what `call` says. -/
def CallGets (w : World) (n m : Nat) (call : HEncCall) : Prop := ∀ x h as b, as.length + m = n →
  Gets w n (h, HThread.enter n x h ⟨as, b, none⟩) (call x h b).1 (call x h b).2.1 (call x h b).2.2 as

def listField : EncStmt → Option Nat
  | .list f _ _ _ _ => some f
  | _ => none

theorem list_table (c : Cls) : ((decl c).enc.all fun s => match listField s with | some f => !(targets c).contains f | none => true) = true := by
  cases c <;> rfl

theorem list_not_computed (w : World) {c : Cls} {f : Nat} {zt t : PTy} {e : Endian} {el : EncElem}
    (hs : EncStmt.list f zt t e el ∈ (decl c).enc) : computed w c f = false :=
  not_target (List.all_eq_true.mp (list_table c) _ hs)

theorem listAt_chg {w : World} {h h' : Heap} (hc : Chg w h h') {r f : Nat} {c : Cls} {ys : List HVal} (hr : h[r]? = some (.msg c ys))
    (hf : computed w c f = false) {xs : List HVal} (hl : h.listAt r f = some xs) : h'.listAt r f = some xs := by
  obtain ⟨ys', h1, -, h2⟩ := hc.2.2 r c ys hr
  unfold Heap.listAt at hl ⊢
  rw [Heap.field_msg h' r f c ys' h1, h2 f hf, ← Heap.field_msg h r f c ys hr]
  revert hl
  rcases h.field r f with _ | _ | _ | _ | a <;> intro hl <;> try cases hl
  dsimp only at hl ⊢
  revert hl
  rcases ha : h[a]? with _ | _ | zs <;> intro hl <;> try cases hl
  rw [hc.2.1 a _ ha]

section
variable {w : World} {n m : Nat} {call : HEncCall} (hc : CallGets w n m call) (hch : CallChg w call)
include hc hch

theorem gets_elems {c : Cls} {r f : Nat} (hf : computed w c f = false) (el : EncElem) (ss : List EncStmt) (loc : Nat → Option Nat)
    (as : List Activation) (hn : as.length + 1 + m = n) (ys : List HVal) : ∀ (pre : List HVal) (h : Heap) (b : WBuf),
    (∃ zs, h[r]? = some (.msg c zs)) → h.listAt r f = some (pre ++ ys) →
    Gets w n (h, ⟨⟨r, ss, loc, some (f, el, pre.length)⟩ :: as, b, none⟩) (hencElems call el ys h b).1 (hencElems call el ys h b).2.1
      (hencElems call el ys h b).2.2 (⟨r, ss, loc, none⟩ :: as) := by
  induction ys with
  | nil =>
    intro pre h b hr hl
    refine Gets.step (Gets.now' _ _ ?_ ?_ ?_) <;> simp [HThread.iterate, hl, hencElems]
  | cons y ys ih =>
    intro pre h b hr hl
    have hi : (pre ++ y :: ys)[pre.length]? = some y := by simp
    have next : ∀ h' b', Chg w h h' →
        Gets w n (h', ⟨⟨r, ss, loc, some (f, el, pre.length + 1)⟩ :: as, b', none⟩) (hencElems call el ys h' b').1 (hencElems call el ys h' b').2.1
          (hencElems call el ys h' b').2.2 (⟨r, ss, loc, none⟩ :: as) := by
      intro h' b' hcg
      obtain ⟨zs, hr⟩ := hr
      have := ih (pre ++ [y]) h' b' (by obtain ⟨zs', h1, -⟩ := hcg.2.2 r c zs hr; exact ⟨zs', h1⟩)
        (by rw [List.append_assoc]; exact listAt_chg hcg hr hf hl)
      rw [List.length_append] at this
      exact this
    have one : Gets w n (h, ⟨⟨r, ss, loc, some (f, el, pre.length)⟩ :: as, b, none⟩) (hencElem call el y h b).1 (hencElem call el y h b).2.1
        (hencElem call el y h b).2.2 (⟨r, ss, loc, some (f, el, pre.length + 1)⟩ :: as) := by
      refine Gets.step ?_
      simp only [HThread.step, HThread.iterate, hl, hi]
      cases el with
      | num p e => exact Gets.now' _ _ rfl rfl (fun _ => rfl)
      | fixed k pad left => exact Gets.now' _ _ rfl rfl (fun _ => rfl)
      | dyn zt p e => exact Gets.now' _ _ rfl rfl (fun _ => rfl)
      | obj => exact hc y h (⟨r, ss, loc, some (f, .obj, pre.length + 1)⟩ :: as) b (by simpa using hn)
    have hcg : Chg w h (hencElem call el y h b).1 := by
      cases el with
      | obj => exact hch y h b
      | _ => exact Chg.refl w h
    simp only [hencElems]
    revert one hcg
    rcases hencElem call el y h b with ⟨h', b', _ | e⟩ <;> intro one hcg
    · exact one.then (next h' b' hcg)
    · exact one.fail

theorem gets_stmt {c : Cls} {r : Nat} (s : EncStmt) (hmem : s ∈ (decl c).enc) (ss : List EncStmt) (as : List Activation)
    (hn : as.length + 1 + m = n) (st : HEncSt) (hr : ∃ zs, st.h[r]? = some (.msg c zs)) :
    Gets w n (st.h, ⟨⟨r, s :: ss, st.loc, none⟩ :: as, st.buf, none⟩) (hencStmt w call r s st).1.h (hencStmt w call r s st).1.buf
      (hencStmt w call r s st).2 (⟨r, ss, (hencStmt w call r s st).1.loc, none⟩ :: as) := by
  refine Gets.step ?_
  obtain ⟨h, b, loc⟩ := st
  simp only [HThread.step]
  cases s with
  | list f zt t e el =>
    have hf := list_not_computed w hmem
    have hl : ∀ xs, h.listAt r f = some xs →
        Gets w n (h, ⟨⟨r, ss, loc, some (f, el, 0)⟩ :: as, b, none⟩) (hencElems call el xs h b).1 (hencElems call el xs h b).2.1
          (hencElems call el xs h b).2.2 (⟨r, ss, loc, none⟩ :: as) := by
      intro xs hl
      exact gets_elems hc hch hf el ss loc as hn xs [] h b hr hl
    simp only [HThread.exec, hencStmt, Heap.listAt] at hl ⊢
    rcases hfd : h.field r f with _ | _ | _ | _ | a
    · exact Gets.now' _ _ rfl rfl (fun h => by cases h)
    · exact Gets.now' _ _ rfl rfl (fun h => rfl)
    · exact Gets.now' _ _ rfl rfl (fun h => by cases h)
    · exact Gets.now' _ _ rfl rfl (fun h => by cases h)
    · dsimp only
      rcases ha : h[a]? with _ | _ | ⟨_ | ⟨x, xs⟩⟩
      · exact Gets.now' _ _ rfl rfl (fun h => by cases h)
      · exact Gets.now' _ _ rfl rfl (fun h => by cases h)
      · exact Gets.now' _ _ rfl rfl (fun h => rfl)
      · dsimp only
        rcases hw : writeInt b t e (x :: xs).length with ⟨b', _ | err⟩
        · have := gets_elems hc hch hf el ss loc as hn (x :: xs) [] h b' hr (by simp [Heap.listAt, hfd, ha])
          exact this
        · exact Gets.now' _ _ rfl rfl (fun h => by cases h)
  | obj f =>
    simp only [HThread.exec, hencStmt]
    rcases h.field r f with _ | x
    · exact Gets.now' _ _ rfl rfl (fun h => by cases h)
    · exact hc x h (⟨r, ss, loc, none⟩ :: as) b (by simpa using hn)
  | objOpt f =>
    simp only [HThread.exec, hencStmt]
    rcases h.field r f with _ | _ | _ | _ | _
    · exact Gets.now' _ _ rfl rfl (fun h => by cases h)
    · exact Gets.now' _ _ rfl rfl (fun h => rfl)
    · exact hc _ h (⟨r, ss, loc, none⟩ :: as) b (by simpa using hn)
    · exact hc _ h (⟨r, ss, loc, none⟩ :: as) b (by simpa using hn)
    · exact hc _ h (⟨r, ss, loc, none⟩ :: as) b (by simpa using hn)
  | _ => exact Gets.now' _ _ rfl rfl (fun h => rfl)

theorem gets_stmts {c : Cls} {r : Nat} (as : List Activation) (hn : as.length + 1 + m = n) (ss : List EncStmt) : ∀ (st : HEncSt),
    (∀ s ∈ ss, s ∈ (decl c).enc) → (∃ zs, st.h[r]? = some (.msg c zs)) →
    Gets w n (st.h, ⟨⟨r, ss, st.loc, none⟩ :: as, st.buf, none⟩) (hencStmts w call r ss st).1.h (hencStmts w call r ss st).1.buf
      (hencStmts w call r ss st).2 as := by
  induction ss with
  | nil => intro st _ _; exact Gets.step (Gets.now' _ _ rfl rfl (fun _ => rfl))
  | cons s ss ih =>
    intro st hmem hr
    have one := gets_stmt hc hch s (hmem s (List.mem_cons_self ..)) ss as hn st hr
    have hcg := hencStmt_chg hch s (hmem s (List.mem_cons_self ..)) st hr
    simp only [hencStmts]
    revert one hcg
    rcases hencStmt w call r s st with ⟨st', _ | e⟩ <;> intro one hcg
    · obtain ⟨zs, hr⟩ := hr
      obtain ⟨zs', h1, -⟩ := hcg.2.2 r c zs hr
      exact one.then (ih st' (fun s hs => hmem s (List.mem_cons_of_mem _ hs)) ⟨zs', h1⟩)
    · exact one.fail
end

theorem gets_hencode (w : World) (n : Nat) : ∀ m, CallGets w n m (hencode w m) := by
  intro m
  induction m with
  | zero =>
    intro x h as b hn
    have hlt : ¬ as.length < n := by omega
    cases x <;> simp only [HThread.enter, hlt, if_false, hencode] <;> exact Gets.now' _ _ rfl rfl (fun h => by cases h)
  | succ m ih =>
    intro x h as b hn
    have hlt : as.length < n := by omega
    cases x with
    | ref r =>
      simp only [HThread.enter, hlt, if_true, hencode]
      rcases hr : h[r]? with _ | ⟨c, ys⟩ | _
      · exact Gets.now' _ _ rfl rfl (fun h => by cases h)
      · exact gets_stmts ih (hencode_chg w m) as (by omega) (decl c).enc ⟨h, b, fun _ => none⟩ (fun _ h => h) ⟨ys, hr⟩
      · exact Gets.now' _ _ rfl rfl (fun h => by cases h)
    | _ => simp only [HThread.enter, hlt, if_true, hencode]; exact Gets.now' _ _ rfl rfl (fun h => by cases h)

/-- A thread alone that has finished did what `hencode` does; and it finishes. -/
theorem go_hencode (w : World) (n : Nat) (x : HVal) (h : Heap) (b : WBuf) : ∃ K, ∀ k,
    (K ≤ k → (HThread.go w n k (h, HThread.enter n x h ⟨[], b, none⟩)).2.err ≠ none
      ∨ (HThread.go w n k (h, HThread.enter n x h ⟨[], b, none⟩)).2.stack = [])
    ∧ ((HThread.go w n k (h, HThread.enter n x h ⟨[], b, none⟩)).2.err ≠ none
      ∨ (HThread.go w n k (h, HThread.enter n x h ⟨[], b, none⟩)).2.stack = [] →
        ((HThread.go w n k (h, HThread.enter n x h ⟨[], b, none⟩)).1, (HThread.go w n k (h, HThread.enter n x h ⟨[], b, none⟩)).2.buf,
          (HThread.go w n k (h, HThread.enter n x h ⟨[], b, none⟩)).2.err) = hencode w n x h b) := by
  obtain ⟨K, h1, h2, h3, h4⟩ := gets_hencode w n n x h [] b (by simp)
  have hfin : (HThread.go w n K (h, HThread.enter n x h ⟨[], b, none⟩)).2.err ≠ none
      ∨ (HThread.go w n K (h, HThread.enter n x h ⟨[], b, none⟩)).2.stack = [] := by
    rw [h3]
    rcases he : (hencode w n x h b).2.2 with _ | e
    · exact .inr (h4 he)
    · exact .inl (by simp)
  refine ⟨K, fun k => ⟨fun hk => ?_, fun hd => ?_⟩⟩
  · obtain ⟨l, rfl⟩ := Nat.le.dest hk
    rw [HThread.go_add, HThread.go_done w n _ hfin]
    exact hfin
  · have h5 : HThread.go w n k (h, HThread.enter n x h ⟨[], b, none⟩) = HThread.go w n K (h, HThread.enter n x h ⟨[], b, none⟩) := by
      rcases Nat.le_total k K with hk | hk
      · obtain ⟨l, rfl⟩ := Nat.le.dest hk
        rw [HThread.go_add, HThread.go_done w n _ hd]
      · obtain ⟨l, rfl⟩ := Nat.le.dest hk
        rw [HThread.go_add, HThread.go_done w n _ hfin]
    rw [h5, h1, h2, h3]

/-! ### Threads that do not disturb each other -/

/-- References lead from objects of `P` to objects of `P` only. -/
def ClosedUnder (P : Nat → Prop) (h : Heap) : Prop := ∀ r o, P r → h[r]? = some o → ∀ q, HVal.ref q ∈ o.values → P q

/-- The calls in progress are calls on objects of `P`, with statements of their classes. -/
def Own (P : Nat → Prop) (h : Heap) (t : HThread) : Prop :=
  ∀ a ∈ t.stack, P a.this ∧ ∃ c, (∃ ys, h[a.this]? = some (.msg c ys)) ∧ ∀ s ∈ a.todo, s ∈ (decl c).enc

section
variable {P : Nat → Prop} {h h' : Heap} (hcl : ClosedUnder P h) (hag : ∀ q, P q → h'[q]? = h[q]?)
include hcl

theorem field_in {r f q : Nat} (hr : P r) (hf : h.field r f = some (.ref q)) : P q := by
  unfold Heap.field at hf
  revert hf
  rcases ho : h[r]? with _ | ⟨c, ys⟩ | ys <;> intro hf <;> try cases hf
  exact hcl r _ hr ho q (List.mem_of_getElem? hf)

theorem listAt_in {r f q : Nat} {xs : List HVal} (hr : P r) (hl : h.listAt r f = some xs) (hq : HVal.ref q ∈ xs) : P q := by
  unfold Heap.listAt at hl
  revert hl
  rcases hf : h.field r f with _ | _ | _ | _ | a <;> intro hl <;> try cases hl
  dsimp only at hl
  revert hl
  rcases ho : h[a]? with _ | _ | ys <;> intro hl <;> try cases hl
  exact hcl a _ (field_in hcl hr hf) ho q hq

include hag

omit hcl in
theorem field_agree {r : Nat} (f : Nat) (hr : P r) : h'.field r f = h.field r f := by
  unfold Heap.field
  rw [hag r hr]

theorem listAt_agree {r : Nat} (f : Nat) (hr : P r) : h'.listAt r f = h.listAt r f := by
  unfold Heap.listAt
  rw [field_agree hag f hr]
  rcases hf : h.field r f with _ | _ | _ | _ | a <;> try rfl
  dsimp only
  rw [hag a (field_in hcl hr hf)]

omit hcl in
theorem enter_agree (n : Nat) (x : HVal) (hx : ∀ q, x = .ref q → P q) (t : HThread) : t.enter n x h' = t.enter n x h := by
  unfold HThread.enter
  split
  · rfl
  · split
    · split
      · rename_i r _
        rw [hag r (hx r rfl)]
      · rfl
    · rfl
end

theorem enter_own {P : Nat → Prop} {h : Heap} (n : Nat) (x : HVal) (hx : ∀ q, x = .ref q → P q) (t : HThread) (ho : Own P h t) :
    Own P h (t.enter n x h) := by
  unfold HThread.enter
  split
  · exact ho
  · split
    · split
      · rename_i r _
        split
        · rename_i c ys hr
          intro a ha
          rcases List.mem_cons.mp ha with rfl | ha
          · exact ⟨hx r rfl, c, ⟨ys, hr⟩, fun _ hs => hs⟩
          · exact ho a ha
        · exact ho
      · exact ho
    · exact ho

/-- What a step does to the heap: nothing, or one assignment to a computed field of the message the innermost call is on. -/
def Assigns (w : World) (P : Nat → Prop) (h h' : Heap) (o o' : Heap) : Prop :=
  (o = h ∧ o' = h') ∨ ∃ r c f k, P r ∧ (∃ ys, h[r]? = some (.msg c ys)) ∧ computed w c f = true ∧ hasComputed c = true
    ∧ o = h.setField r f (.num k) ∧ o' = h'.setField r f (.num k)

theorem computed_has {w : World} {c : Cls} {s : EncStmt} {f : Nat} (hs : s ∈ (decl c).enc) (ha : assigns w f s = true) :
    computed w c f = true ∧ hasComputed c = true := by
  refine ⟨List.any_eq_true.mpr ⟨s, hs, ha⟩, ?_⟩
  rw [frame_table]
  refine List.any_eq_true.mpr ⟨s, hs, ?_⟩
  cases s <;> simp [assigns] at ha <;> rfl

theorem own_top {P : Nat → Prop} {h : Heap} {a a' : Activation} {as : List Activation} {b b' : WBuf} {e e' : Option JErr}
    (ho : Own P h ⟨a :: as, b, e⟩) (ht : a'.this = a.this) (hs : ∀ s ∈ a'.todo, s ∈ a.todo) : Own P h ⟨a' :: as, b', e'⟩ := by
  intro x hx
  rcases List.mem_cons.mp hx with rfl | hx
  · obtain ⟨h1, c, h2, h3⟩ := ho a (List.mem_cons_self ..)
    rw [ht]
    exact ⟨h1, c, h2, fun s h => h3 s (hs s h)⟩
  · exact ho x (List.mem_cons_of_mem _ hx)

theorem step_form (w : World) (n : Nat) {P : Nat → Prop} {h h' : Heap} (hcl : ClosedUnder P h) (hag : ∀ q, P q → h'[q]? = h[q]?) (t : HThread)
    (ho : Own P h t) : (t.step w n h').2 = (t.step w n h).2 ∧ Own P h (t.step w n h).2
      ∧ Assigns w P h h' (t.step w n h).1 (t.step w n h').1 := by
  obtain ⟨stk, b, err⟩ := t
  rcases err with _ | e
  case some => exact ⟨rfl, ho, .inl ⟨rfl, rfl⟩⟩
  rcases stk with _ | ⟨⟨r, todo, loc, loop⟩, as⟩
  · exact ⟨rfl, ho, .inl ⟨rfl, rfl⟩⟩
  obtain ⟨hP, c, hr, hmem⟩ := ho ⟨r, todo, loc, loop⟩ (List.mem_cons_self ..)
  dsimp only at hP hr hmem
  rcases loop with _ | ⟨f, el, i⟩
  · rcases todo with _ | ⟨s, ss⟩
    · exact ⟨rfl, fun a ha => ho a (List.mem_cons_of_mem _ ha), .inl ⟨rfl, rfl⟩⟩
    have top : ∀ (l : Option (Nat × EncElem × Nat)) (loc' : Nat → Option Nat) (b' : WBuf) (e' : Option JErr),
        Own P h ⟨⟨r, ss, loc', l⟩ :: as, b', e'⟩ := fun l loc' b' e' => own_top ho rfl (fun s hs => List.mem_cons_of_mem _ hs)
    have hs := hmem s (List.mem_cons_self ..)
    simp only [HThread.step]
    cases s with
    | list f zt p e el =>
      simp only [HThread.exec, field_agree hag f hP, listAt_agree hcl hag f hP]
      split
      · exact ⟨rfl, top _ _ _ _, .inl ⟨rfl, rfl⟩⟩
      · split
        · exact ⟨rfl, top _ _ _ _, .inl ⟨rfl, rfl⟩⟩
        · exact ⟨rfl, top _ _ _ _, .inl ⟨rfl, rfl⟩⟩
        · exact ⟨rfl, top _ _ _ _, .inl ⟨rfl, rfl⟩⟩
    | obj f =>
      simp only [HThread.exec, field_agree hag f hP]
      split
      · rename_i x hx
        have hxP : ∀ q, x = .ref q → P q := fun q hq => field_in hcl hP (hq ▸ hx)
        exact ⟨enter_agree hag n x hxP _, enter_own n x hxP _ (top _ _ _ _), .inl ⟨rfl, rfl⟩⟩
      · exact ⟨rfl, top _ _ _ _, .inl ⟨rfl, rfl⟩⟩
    | objOpt f =>
      simp only [HThread.exec, field_agree hag f hP]
      split
      · exact ⟨rfl, top _ _ _ _, .inl ⟨rfl, rfl⟩⟩
      · rename_i x _ hx
        have hxP : ∀ q, x = .ref q → P q := fun q hq => field_in hcl hP (hq ▸ hx)
        exact ⟨enter_agree hag n x hxP _, enter_own n x hxP _ (top _ _ _ _), .inl ⟨rfl, rfl⟩⟩
      · exact ⟨rfl, top _ _ _ _, .inl ⟨rfl, rfl⟩⟩
    | setLen f x y =>
      simp only [HThread.exec, hencStmt]
      rcases loc x with _ | p
      · exact ⟨rfl, top _ _ _ _, .inl ⟨rfl, rfl⟩⟩
      · rcases loc y with _ | q
        · exact ⟨rfl, top _ _ _ _, .inl ⟨rfl, rfl⟩⟩
        · have hc := computed_has (w := w) (f := f) hs (by simp [assigns])
          exact ⟨rfl, top _ _ _ _, .inr ⟨r, c, f, _, hP, hr, hc.1, hc.2, rfl, rfl⟩⟩
    | checksum f alg =>
      simp only [HThread.exec, hencStmt]
      rcases hg : Registry.getService w.svc alg with _ | sv
      · exact ⟨rfl, top _ _ _ _, .inl ⟨rfl, rfl⟩⟩
      · have hc := computed_has (w := w) (f := f) hs (by simp [assigns, hg])
        exact ⟨rfl, top _ _ _ _, .inr ⟨r, c, f, _, hP, hr, hc.1, hc.2, rfl, rfl⟩⟩
    | num f p e =>
      simp only [HThread.exec, hencStmt, field_agree hag f hP]
      rcases h.field r f with _ | _ | _ | _ | _ <;> exact ⟨rfl, top _ _ _ _, .inl ⟨rfl, rfl⟩⟩
    | fixed f k pad left =>
      simp only [HThread.exec, hencStmt, field_agree hag f hP]
      rcases h.field r f with _ | _ <;> exact ⟨rfl, top _ _ _ _, .inl ⟨rfl, rfl⟩⟩
    | dyn f zt p e =>
      simp only [HThread.exec, hencStmt, field_agree hag f hP]
      rcases h.field r f with _ | _ <;> exact ⟨rfl, top _ _ _ _, .inl ⟨rfl, rfl⟩⟩
    | patch x f p e =>
      simp only [HThread.exec, hencStmt, field_agree hag f hP]
      rcases loc x with _ | q
      · exact ⟨rfl, top _ _ _ _, .inl ⟨rfl, rfl⟩⟩
      · rcases h.field r f with _ | _ | k | _ | _ <;> try exact ⟨rfl, top _ _ _ _, .inl ⟨rfl, rfl⟩⟩
        dsimp only
        rcases k.convert p with _ | _ <;> exact ⟨rfl, top _ _ _ _, .inl ⟨rfl, rfl⟩⟩
    | save x => exact ⟨rfl, top _ _ _ _, .inl ⟨rfl, rfl⟩⟩
    | zero p e => exact ⟨rfl, top _ _ _ _, .inl ⟨rfl, rfl⟩⟩
  · have top : ∀ (l : Option (Nat × EncElem × Nat)) (b' : WBuf) (e' : Option JErr),
        Own P h ⟨⟨r, todo, loc, l⟩ :: as, b', e'⟩ := fun l b' e' => own_top ho rfl (fun s hs => hs)
    simp only [HThread.step, HThread.iterate, listAt_agree hcl hag f hP, field_agree hag f hP]
    split
    · exact ⟨rfl, top _ _ _, .inl ⟨rfl, rfl⟩⟩
    · rename_i xs hl
      split
      · exact ⟨rfl, top _ _ _, .inl ⟨rfl, rfl⟩⟩
      · rename_i x hx
        have hxP : ∀ q, x = .ref q → P q := fun q hq => listAt_in hcl hP hl (hq ▸ List.mem_of_getElem? hx)
        cases el with
        | obj => exact ⟨enter_agree hag n x hxP _, enter_own n x hxP _ (top _ _ _), .inl ⟨rfl, rfl⟩⟩
        | _ => exact ⟨rfl, top _ _ _, .inl ⟨rfl, rfl⟩⟩

theorem Assigns.chg {w : World} {P : Nat → Prop} {h h' o o' : Heap} (ha : Assigns w P h h' o o') : Chg w h o := by
  rcases ha with ⟨rfl, -⟩ | ⟨r, c, f, k, -, hr, hf, -, rfl, -⟩
  · exact Chg.refl w _
  · exact chg_setField f k hr hf

theorem Assigns.agree {w : World} {P : Nat → Prop} {h h' o o' : Heap} (ha : Assigns w P h h' o o') (hag : ∀ q, P q → h'[q]? = h[q]?) :
    ∀ q, P q → o'[q]? = o[q]? := by
  rcases ha with ⟨rfl, rfl⟩ | ⟨r, c, f, k, hP, ⟨ys, hr⟩, hf, -, rfl, rfl⟩
  · exact hag
  · intro q hq
    by_cases hqr : q = r
    · subst hqr
      rw [Heap.setField_self h q f c ys _ hr, Heap.setField_self h' q f c ys _ (by rw [hag q hq, hr])]
    · rw [Heap.setField_ne _ _ _ _ _ hqr, Heap.setField_ne _ _ _ _ _ hqr, hag q hq]

theorem Assigns.others {w : World} {P : Nat → Prop} {h h' o o' : Heap} (ha : Assigns w P h h' o o') (q : Nat)
    (hq : P q → ∀ c ys, h[q]? = some (.msg c ys) → hasComputed c = false) : o[q]? = h[q]? := by
  rcases ha with ⟨rfl, -⟩ | ⟨r, c, f, k, hP, ⟨ys, hr⟩, hf, hc, rfl, -⟩
  · rfl
  · refine Heap.setField_ne _ _ _ _ _ ?_
    rintro rfl
    rw [hq hP c ys hr] at hc
    cases hc

theorem Assigns.closed {w : World} {P : Nat → Prop} {h h' o o' : Heap} (ha : Assigns w P h h' o o') (hcl : ClosedUnder P h) : ClosedUnder P o := by
  rcases ha with ⟨rfl, -⟩ | ⟨r, c, f, k, hP, ⟨ys, hr⟩, hf, hc, rfl, -⟩
  · exact hcl
  · intro q x hq hx p hp
    by_cases hqr : q = r
    · subst hqr
      rw [Heap.setField_self h q f c ys _ hr] at hx
      cases hx
      have hp' : HVal.ref p ∈ ys.set f (.num k) := hp
      rcases List.mem_or_eq_of_mem_set hp' with h1 | h1
      · exact hcl q _ hq hr p h1
      · cases h1
    · rw [Heap.setField_ne _ _ _ _ _ hqr] at hx
      exact hcl q x hq hx p hp

theorem Own.chg {w : World} {P : Nat → Prop} {h h' : Heap} {t : HThread} (ho : Own P h t) (hc : Chg w h h') : Own P h' t := by
  intro a ha
  obtain ⟨h1, c, ⟨ys, h2⟩, h3⟩ := ho a ha
  obtain ⟨ys', h4, -⟩ := hc.2.2 _ c ys h2
  exact ⟨h1, c, ⟨ys', h4⟩, h3⟩

theorem closed_agree {P : Nat → Prop} {h h' : Heap} (hcl : ClosedUnder P h) (hag : ∀ q, P q → h'[q]? = h[q]?) : ClosedUnder P h' := by
  intro r o hr ho q hq
  rw [hag r hr] at ho
  exact hcl r o hr ho q hq

theorem own_agree {P : Nat → Prop} {h h' : Heap} {t : HThread} (ho : Own P h t) (hag : ∀ q, P q → h'[q]? = h[q]?) : Own P h' t := by
  intro a ha
  obtain ⟨h1, c, ⟨ys, h2⟩, h3⟩ := ho a ha
  exact ⟨h1, c, ⟨ys, by rw [hag _ h1, h2]⟩, h3⟩

theorem chg_back {w : World} {h h' : Heap} (hc : Chg w h h') {q : Nat} {c : Cls} {ys : List HVal} (hq : h'[q]? = some (.msg c ys)) :
    ∃ ys', h[q]? = some (.msg c ys') := by
  have hlt : q < h.length := by
    have := (List.getElem?_eq_some_iff.1 hq).1
    rw [hc.1] at this
    exact this
  rcases ho : h[q]? with _ | ⟨c', zs⟩ | zs
  · rw [List.getElem?_eq_none_iff] at ho; omega
  · obtain ⟨ys', h1, -⟩ := hc.2.2 q c' zs ho
    rw [h1] at hq
    cases hq
    exact ⟨zs, rfl⟩
  · rw [hc.2.1 q zs ho] at hq
    cases hq

/-- The invariant: each thread is where it would be alone after as many steps, and the objects it can reach are as they would be then. -/
structure HInv (w : World) (n : Nat) (h0 : Heap) (t0 : Nat → HThread) (P : Nat → Nat → Prop) (st : HSys) (ks : Nat → Nat) : Prop where
  chg : Chg w h0 st.h
  thr : ∀ i, st.thr i = (HThread.go w n (ks i) (h0, t0 i)).2
  heap : ∀ i q, P i q → (HThread.go w n (ks i) (h0, t0 i)).1[q]? = st.h[q]?
  closed : ∀ i, ClosedUnder (P i) st.h
  own : ∀ i, Own (P i) st.h (st.thr i)
  rest : ∀ q, (∀ i, ¬ P i q) → st.h[q]? = h0[q]?

theorem HInv.step {w : World} {n : Nat} {h0 : Heap} {t0 : Nat → HThread} {P : Nat → Nat → Prop} {st : HSys} {ks : Nat → Nat}
    (hsep : ∀ i j, i ≠ j → ∀ q, P i q → P j q → ∀ c ys, h0[q]? = some (.msg c ys) → hasComputed c = false)
    (hi : HInv w n h0 t0 P st ks) (i : Nat) : HInv w n h0 t0 P (st.step w n i) (fun j => if j = i then ks i + 1 else ks j) := by
  obtain ⟨f1, f2, f3⟩ := step_form w n (hi.closed i) (hi.heap i) (st.thr i) (hi.own i)
  have hchg := f3.chg
  have hag := f3.agree (hi.heap i)
  have hcl := f3.closed (hi.closed i)
  have hoth : ∀ j, j ≠ i → ∀ q, P j q → ((st.thr i).step w n st.h).1[q]? = st.h[q]? := by
    intro j hj q hq
    refine f3.others q (fun hPi c ys hc => ?_)
    obtain ⟨ys', h1⟩ := chg_back hi.chg hc
    exact hsep i j (Ne.symm hj) q hPi hq c ys' h1
  have hgo : HThread.go w n (ks i + 1) (h0, t0 i) =
      (((st.thr i).step w n (HThread.go w n (ks i) (h0, t0 i)).1).1, ((st.thr i).step w n st.h).2) := by
    rw [HThread.go_succ, ← hi.thr i, ← f1]
  refine ⟨hi.chg.trans hchg, fun j => ?_, fun j q hq => ?_, fun j => ?_, fun j => ?_, fun q hq => ?_⟩
  · by_cases hj : j = i
    · subst hj
      simp only [HSys.step, if_true]
      rw [hgo]
    · simp only [HSys.step, if_neg hj]
      exact hi.thr j
  · by_cases hj : j = i
    · subst hj
      simp only [HSys.step, if_true]
      rw [hgo]
      exact hag q hq
    · simp only [HSys.step, if_neg hj]
      rw [hi.heap j q hq, hoth j hj q hq]
  · by_cases hj : j = i
    · subst hj; exact hcl
    · exact closed_agree (hi.closed j) (hoth j hj)
  · by_cases hj : j = i
    · subst hj
      simp only [HSys.step, if_true]
      exact f2.chg hchg
    · simp only [HSys.step, if_neg hj]
      exact own_agree (hi.own j) (hoth j hj)
  · show ((st.thr i).step w n st.h).1[q]? = h0[q]?
    rw [f3.others q (fun hP => absurd hP (hq i)), hi.rest q hq]

theorem HInv.run {w : World} {n : Nat} {h0 : Heap} {t0 : Nat → HThread} {P : Nat → Nat → Prop}
    (hsep : ∀ i j, i ≠ j → ∀ q, P i q → P j q → ∀ c ys, h0[q]? = some (.msg c ys) → hasComputed c = false) (sched : List Nat) :
    ∀ (st : HSys) (ks : Nat → Nat), HInv w n h0 t0 P st ks → HInv w n h0 t0 P (st.run w n sched) (fun j => ks j + sched.count j) := by
  induction sched with
  | nil => intro st ks hi; exact hi
  | cons i sched ih =>
    intro st ks hi
    have := ih _ _ (hi.step hsep i)
    refine (funext fun j => ?_ : (fun j => (if j = i then ks i + 1 else ks j) + sched.count j) = fun j => ks j + (i :: sched).count j) ▸ this
    by_cases hj : j = i
    · subst hj; simp; omega
    · rw [List.count_cons_of_ne (fun e => hj e.symm)]; simp [hj]

theorem reach_closed (h : Heap) (x : HVal) : ClosedUnder (Reach h x) h := by
  intro r o hr ho q hq
  induction hr with
  | here r => exact .step r q o (.ref q) ho hq (.here q)
  | step r' p o' y h1 h2 _ ih => exact .step r' q o' y h1 h2 (ih ho)

theorem HInv.start (w : World) (n : Nat) (h : Heap) (roots : Nat → HVal) (bufs : Nat → WBuf) :
    HInv w n h (fun i => HThread.enter n (roots i) h ⟨[], bufs i, none⟩) (fun i => Reach h (roots i)) (HSys.start n h roots bufs) (fun _ => 0) := by
  refine ⟨Chg.refl w h, fun i => rfl, fun i q _ => rfl, fun i => reach_closed h (roots i), fun i => ?_, fun q _ => rfl⟩
  refine enter_own n (roots i) (fun q hq => ?_) _ (fun a ha => by cases ha)
  rw [hq]
  exact .here q

end FinProto
