import Verif.Spec.Kept
import Verif.Proofs.HeapShows
/-
`decode` writes to new objects, to the message it is called on and to its nested messages only, whatever objects are shared (C97).
-/
namespace FinProto

/-- `P` is closed under following fields declared with a message class. -/
def InnerClosed (P : Nat → Prop) (h : Heap) : Prop :=
  ∀ r, P r → ∀ c d ys (f a : Nat), h[r]? = some (.msg c ys) → (javaTypes c)[f]? = some (.obj d) → ys[f]? = some (.ref a) → P a

/-- Objects outside `P` are as before, classes are kept, and a list field keeps its list or gets a list from `L` on. -/
structure Mv (P : Nat → Prop) (L : Nat) (h h' : Heap) : Prop where
  len : h.length ≤ h'.length
  keep : ∀ q, ¬ P q → h'[q]? = h[q]?
  cls : ∀ (q : Nat) c ys, h[q]? = some (.msg c ys) → ∃ ys', h'[q]? = some (.msg c ys')
    ∧ ∀ (f : Nat) e, (javaTypes c)[f]? = some (.list e) → ys'[f]? = ys[f]? ∨ ∃ a, L ≤ a ∧ ys'[f]? = some (.ref a)
  closed : InnerClosed P h → InnerClosed P h'

theorem Mv.refl (P : Nat → Prop) (L : Nat) (h : Heap) : Mv P L h h :=
  ⟨Nat.le_refl _, fun _ _ => rfl, fun _ _ ys hq => ⟨ys, hq, fun _ _ _ => .inl rfl⟩, id⟩

theorem Mv.trans {P : Nat → Prop} {L : Nat} {h1 h2 h3 : Heap} (a : Mv P L h1 h2) (b : Mv P L h2 h3) : Mv P L h1 h3 := by
  refine ⟨Nat.le_trans a.len b.len, fun q hq => by rw [b.keep q hq, a.keep q hq], fun q c ys hq => ?_, fun hc => b.closed (a.closed hc)⟩
  obtain ⟨ys1, h1, g1⟩ := a.cls q c ys hq
  obtain ⟨ys2, h2, g2⟩ := b.cls q c ys1 h1
  refine ⟨ys2, h2, fun f e hf => ?_⟩
  rcases g2 f e hf with g | g
  · rw [g]; exact g1 f e hf
  · exact .inr g

/-- New objects. -/
theorem Mv.append {P : Nat → Prop} {L : Nat} {h : Heap} (hP : ∀ q, L ≤ q → P q) (hL : L ≤ h.length) (more : List HObj)
    (hm : ∀ o ∈ more, ∀ a, HVal.ref a ∈ o.values → L ≤ a) : Mv P L h (h ++ more) := by
  have hlt : ∀ {q : Nat} {o : HObj}, h[q]? = some o → (h ++ more)[q]? = some o := by
    intro q o hq
    rw [List.getElem?_append_left (List.getElem?_eq_some_iff.1 hq).1, hq]
  refine ⟨by simp, fun q hq => ?_, fun q c ys hq => ⟨ys, hlt hq, fun _ _ _ => .inl rfl⟩, fun hc r hr c d ys f a h1 h2 h3 => ?_⟩
  · rw [List.getElem?_append_left]
    rcases Nat.lt_or_ge q h.length with h1 | h1
    · exact h1
    · exact absurd (hP q (Nat.le_trans hL h1)) hq
  · rcases Nat.lt_or_ge r h.length with g | g
    · rw [List.getElem?_append_left g] at h1
      exact hc r hr c d ys f a h1 h2 h3
    · rw [List.getElem?_append_right g] at h1
      exact hP a (hm _ (List.mem_of_getElem? h1) a (List.mem_of_getElem? h3))

/-- An assignment to a field of an object of `P`. -/
theorem Mv.set {P : Nat → Prop} {L : Nat} {h : Heap} {r f : Nat} {c : Cls} {ys : List HVal} (hr : P r) (hc : h[r]? = some (.msg c ys)) (y : HVal)
    (ho : ∀ a d, (javaTypes c)[f]? = some (.obj d) → y = .ref a → P a)
    (hl : ∀ e, (javaTypes c)[f]? = some (.list e) → ∃ a, L ≤ a ∧ y = .ref a) : Mv P L h (h.setField r f y) := by
  have hs := Heap.setField_self h r f c ys y hc
  refine ⟨by simp [Heap.setField, hc], fun q hq => Heap.setField_ne h r f q y fun e => hq (e ▸ hr), fun q d zs hq => ?_, fun hcl q hq d d' zs g a h1 h2 h3 => ?_⟩
  · by_cases e : q = r
    · subst e
      rw [hc] at hq
      cases hq
      refine ⟨_, hs, fun g e hg => ?_⟩
      by_cases hgf : g = f
      · subst hgf
        obtain ⟨a, ha, rfl⟩ := hl e hg
        rcases Nat.lt_or_ge g ys.length with hlt | hge
        · exact .inr ⟨a, ha, List.getElem?_set_self hlt⟩
        · rw [List.set_eq_of_length_le hge]; exact .inl rfl
      · exact .inl (List.getElem?_set_ne (Ne.symm hgf))
    · exact ⟨zs, by rw [Heap.setField_ne h r f q y e, hq], fun _ _ _ => .inl rfl⟩
  · by_cases e : q = r
    · subst e
      rw [hs] at h1
      cases h1
      by_cases hgf : g = f
      · subst hgf
        rcases Nat.lt_or_ge g ys.length with hlt | hge
        · rw [List.getElem?_set_self hlt] at h3
          exact ho a d' h2 (by simpa using h3)
        · rw [List.set_eq_of_length_le hge] at h3
          exact hcl q hq c d' ys g a hc h2 h3
      · rw [List.getElem?_set_ne (Ne.symm hgf)] at h3
        exact hcl q hq c d' ys g a hc h2 h3
    · rw [Heap.setField_ne h r f q y e] at h1
      exact hcl q hq d d' zs g a h1 h2 h3

/-- An addition to a list of `P`. -/
theorem Mv.add {P : Nat → Prop} {L : Nat} {h : Heap} {a : Nat} {xs : List HVal} (ha : P a) (hx : h[a]? = some (.arr xs)) (zs : List HVal) :
    Mv P L h (h.set a (.arr zs)) := by
  have hs : (h.set a (.arr zs))[a]? = some (.arr zs) := List.getElem?_set_self (List.getElem?_eq_some_iff.1 hx).1
  have hne : ∀ q, q ≠ a → (h.set a (.arr zs))[q]? = h[q]? := fun q hq => List.getElem?_set_ne (Ne.symm hq)
  refine ⟨by simp, fun q hq => hne q fun e => hq (e ▸ ha), fun q c ys hq => ⟨ys, ?_, fun _ _ _ => .inl rfl⟩, fun hcl q hq c d ys g b h1 h2 h3 => ?_⟩
  · rw [hne q ?_, hq]
    rintro rfl
    rw [hx] at hq; cases hq
  · by_cases e : q = a
    · subst e; rw [hs] at h1; cases h1
    · rw [hne q e] at h1
      exact hcl q hq c d ys g b h1 h2 h3

/-- Objects built by a supplier are new. -/
theorem alloc_new (v : Val) : ∀ h : Heap, ∃ more, (alloc v h).1 = h ++ more ∧ (∀ o ∈ more, ∀ a, HVal.ref a ∈ o.values → h.length ≤ a)
    ∧ ∀ a, (alloc v h).2 = .ref a → h.length ≤ a := by
  have mk : ∀ (h : Heap) (more : List HObj) (o : HObj), (∀ o ∈ more, ∀ a, HVal.ref a ∈ o.values → h.length ≤ a) →
      (∀ a, HVal.ref a ∈ o.values → h.length ≤ a) → ∃ more', h ++ more ++ [o] = h ++ more' ∧
        (∀ o ∈ more', ∀ a, HVal.ref a ∈ o.values → h.length ≤ a) ∧ ∀ a, HVal.ref (h ++ more).length = .ref a → h.length ≤ a := by
    intro h more o h1 h2
    refine ⟨more ++ [o], by simp, fun o' ho' => ?_, fun a ha => ?_⟩
    · rcases List.mem_append.mp ho' with g | g
      · exact h1 o' g
      · rw [List.mem_singleton] at g; subst g; exact h2
    · cases ha; simp
  apply Val.rec
    (motive_1 := fun v => ∀ h : Heap, ∃ more, (alloc v h).1 = h ++ more ∧ (∀ o ∈ more, ∀ a, HVal.ref a ∈ o.values → h.length ≤ a)
      ∧ ∀ a, (alloc v h).2 = .ref a → h.length ≤ a)
    (motive_2 := fun vs => ∀ h : Heap, ∃ more, (allocAll vs h).1 = h ++ more ∧ (∀ o ∈ more, ∀ a, HVal.ref a ∈ o.values → h.length ≤ a)
      ∧ ∀ a, HVal.ref a ∈ (allocAll vs h).2 → h.length ≤ a)
  · intro h; exact ⟨[], by simp [alloc], by simp, by simp [alloc]⟩
  · intro n h; exact ⟨[], by simp [alloc], by simp, by simp [alloc]⟩
  · intro s h; exact ⟨[], by simp [alloc], by simp, by simp [alloc]⟩
  · intro xs ih h
    obtain ⟨more, h1, h2, h3⟩ := ih h
    simp only [alloc, h1]
    exact mk h more _ h2 h3
  · intro c fs ih h
    obtain ⟨more, h1, h2, h3⟩ := ih h
    simp only [alloc, h1]
    exact mk h more _ h2 h3
  · intro h; exact ⟨[], by simp [allocAll], by simp, by simp [allocAll]⟩
  · intro v vs ih1 ih2 h
    obtain ⟨m1, a1, a2, a3⟩ := ih1 h
    obtain ⟨m2, b1, b2, b3⟩ := ih2 (alloc v h).1
    simp only [allocAll]
    refine ⟨m1 ++ m2, by rw [b1, a1, List.append_assoc], fun o ho a ha => ?_, fun a ha => ?_⟩
    · rcases List.mem_append.mp ho with g | g
      · exact a2 o g a ha
      · have := b2 o g a ha
        rw [a1, List.length_append] at this
        omega
    · rcases List.mem_cons.mp ha with g | g
      · exact a3 a g.symm
      · have := b3 a g
        rw [a1, List.length_append] at this
        omega

/-- Call of `decode` on an object of `P`. -/
def CallMv (P : Nat → Prop) (L : Nat) (call : HDecCall) : Prop :=
  ∀ r h b, P r → L ≤ h.length → InnerClosed P h → Mv P L h (call r h b).1

section
variable {P : Nat → Prop} {L : Nat} {call : HDecCall} (hP : ∀ q, L ≤ q → P q) (hcall : CallMv P L call)
include hP hcall

omit hcall in
theorem newMsg_mv {h : Heap} (hL : L ≤ h.length) (c : Cls) : Mv P L h (h ++ [newMsg c]) := by
  refine Mv.append hP hL _ fun o ho a ha => ?_
  rw [List.mem_singleton] at ho
  subst ho
  simp only [newMsg, HObj.values, List.mem_map] at ha
  obtain ⟨f, -, hf⟩ := ha
  revert hf
  cases f.2 <;> simp [FTy.hdefault]

omit hP hcall in
theorem hadd_mv {h : Heap} {r f : Nat} (hf : ∀ a, h.field r f = some (.ref a) → P a) (y : HVal) : Mv P L h (hadd h r f y).1 := by
  unfold hadd
  split
  · next a ha =>
    split
    · next xs hx => exact Mv.add (hf a ha) hx _
    · exact Mv.refl ..
  all_goals exact Mv.refl ..

omit hcall in
/-- The list in a list field stays one from `L` on. -/
theorem field_list {h h' : Heap} {r f : Nat} {c : Cls} {ys : List HVal} {e : ElTy} (hm : Mv P L h h') (hc : h[r]? = some (.msg c ys))
    (ht : (javaTypes c)[f]? = some (.list e)) (hf : ∀ a, h.field r f = some (.ref a) → P a) : ∀ a, h'.field r f = some (.ref a) → P a := by
  intro a ha
  obtain ⟨ys', h1, h2⟩ := hm.cls r c ys hc
  rw [Heap.field_msg _ _ _ _ _ h1] at ha
  rcases h2 f e ht with g | ⟨b2, hb, g⟩
  · rw [g] at ha
    exact hf a (by rw [Heap.field_msg _ _ _ _ _ hc, ha])
  · rw [g] at ha
    cases ha
    exact hP _ hb

theorem hdecElem_mv {r f : Nat} {c : Cls} {e : ElTy} (el : DecElem) (h : Heap) (b : RBuf) (ys : List HVal) (hL : L ≤ h.length)
    (hcl : InnerClosed P h) (hc : h[r]? = some (.msg c ys)) (ht : (javaTypes c)[f]? = some (.list e))
    (hf : ∀ a, h.field r f = some (.ref a) → P a) : Mv P L h (hdecElem call r f el h b).1 := by
  cases el with
  | num t e =>
    simp only [hdecElem]
    split
    · exact hadd_mv hf _
    · exact Mv.refl ..
  | fixed n pad left =>
    simp only [hdecElem]
    split
    · exact hadd_mv hf _
    · exact Mv.refl ..
  | dyn t e =>
    simp only [hdecElem]
    split
    · exact hadd_mv hf _
    · exact Mv.refl ..
    · exact Mv.refl ..
  | obj d =>
    simp only [hdecElem]
    have h1 := newMsg_mv hP hL d
    have h2 := h1.trans (hcall h.length (h ++ [newMsg d]) b (hP _ hL) (Nat.le_trans hL h1.len) (h1.closed hcl))
    split
    · next h' b' e =>
      rw [e] at h2
      exact h2.trans (hadd_mv (field_list hP h2 hc ht hf) _)
    · next h' b' err e =>
      rw [e] at h2
      exact h2

theorem hdecElems_mv {r f : Nat} {c : Cls} {e : ElTy} (el : DecElem) (ht : (javaTypes c)[f]? = some (.list e)) :
    ∀ (n : Nat) (h : Heap) (b : RBuf) (ys : List HVal), L ≤ h.length → InnerClosed P h → h[r]? = some (.msg c ys) →
      (∀ a, h.field r f = some (.ref a) → P a) → Mv P L h (hdecElems call r f el n h b).1
  | 0, h, b, ys, _, _, _, _ => Mv.refl ..
  | n + 1, h, b, ys, hL, hcl, hc, hf => by
    have h1 := hdecElem_mv hP hcall el h b ys hL hcl hc ht hf
    simp only [hdecElems]
    split
    · next h' b' err e => rw [e] at h1; exact h1
    · next h' b' e =>
      rw [e] at h1
      obtain ⟨ys', hc', -⟩ := h1.cls r c ys hc
      exact h1.trans (hdecElems_mv el ht n h' b' ys' (Nat.le_trans hL h1.len) (h1.closed hcl) hc' (field_list hP h1 hc ht hf))

omit hP in
theorem hcallField_mv {r f : Nat} (st : HDecSt) (hL : L ≤ st.h.length) (hcl : InnerClosed P st.h)
    (hf : ∀ a, st.h.field r f = some (.ref a) → P a) : Mv P L st.h (hcallField call r f st).1.h := by
  unfold hcallField
  split
  · exact Mv.refl ..
  · next a ha =>
    split
    · exact hcall a st.h st.buf (hf a ha) hL hcl
    · exact Mv.refl ..
  · exact Mv.refl ..
end

/-- The fields statements assign to have the types Java requires. -/
def DecStmt.typed (tys : List FTy) : DecStmt → Bool
  | .num f _ _ => match tys[f]? with | some (.prim _) => true | _ => false
  | .fixed f _ _ _ => match tys[f]? with | some .str => true | _ => false
  | .dyn f _ _ => match tys[f]? with | some .str => true | _ => false
  | .list f _ _ _ => match tys[f]? with | some (.list _) => true | _ => false
  | .obj f _ => match tys[f]? with | some (.obj _) => true | _ => false
  | .create f _ _ => match tys[f]? with | some .codec => true | _ => false
  | .call _ => true

/-- Every `this.F.decode(byteBuf)` comes right after `this.F = …create(…)`. -/
def callsAfterCreate : List DecStmt → Bool
  | .create f _ _ :: .call g :: ss => f == g && callsAfterCreate ss
  | .call _ :: _ => false
  | _ :: ss => callsAfterCreate ss
  | [] => true

theorem decStmts_table (c : Cls) : ((decl c).dec.all (DecStmt.typed (javaTypes c)) && callsAfterCreate (decl c).dec) = true := by
  cases c <;> rfl

section
variable {P : Nat → Prop} {L : Nat} {call : HDecCall} (sup : Suppliers) (hP : ∀ q, L ≤ q → P q) (hcall : CallMv P L call)
  (hsup : ∀ fac k a, sup fac k = some (.give (.ref a)) → P a)
include hP hcall hsup

omit hcall in
/-- After `this.F = …create(…)` the object in the field is in `P`. -/
theorem hcreate_mv {h : Heap} {r f : Nat} {c : Cls} {ys : List HVal} (hr : P r) (hL : L ≤ h.length) (hc : h[r]? = some (.msg c ys))
    (ht : (javaTypes c)[f]? = some .codec) {fac : Fac} {k : Key} {s : Supplier} (hs : sup fac k = some s) :
    Mv P L h (hcreate h r f s) ∧ ∀ a, (hcreate h r f s).field r f = some (.ref a) → P a := by
  have key : ∀ (h1 : Heap) (zs : List HVal) (y : HVal), h1[r]? = some (.msg c zs) → (∀ a, y = .ref a → P a) →
      Mv P L h1 (h1.setField r f y) ∧ (f < zs.length ∨ zs[f]? = none) ∧ ∀ a, (h1.setField r f y).field r f = some (.ref a) → P a := by
    intro h1 zs y hz hy
    refine ⟨Mv.set hr hz y (fun a d hd => by rw [ht] at hd; cases hd) (fun e he => by rw [ht] at he; cases he), ?_, ?_⟩
    · rcases Nat.lt_or_ge f zs.length with g | g
      · exact .inl g
      · exact .inr (List.getElem?_eq_none g)
    · intro a ha
      rw [Heap.field_msg _ _ _ _ _ (Heap.setField_self h1 r f c zs y hz)] at ha
      rcases Nat.lt_or_ge f zs.length with g | g
      · rw [List.getElem?_set_self g] at ha
        exact hy a (by simpa using ha)
      · rw [List.set_eq_of_length_le g, List.getElem?_eq_none g] at ha
        cases ha
  cases s with
  | give x =>
    simp only [hcreate]
    obtain ⟨g1, -, g3⟩ := key h ys x hc fun a ha => hsup fac k a (by rw [hs, ha])
    exact ⟨g1, g3⟩
  | make v =>
    simp only [hcreate]
    obtain ⟨more, m1, m2, m3⟩ := alloc_new v h
    have h1 : Mv P L h (alloc v h).1 := by
      rw [m1]
      exact Mv.append hP hL more fun o ho a ha => Nat.le_trans hL (m2 o ho a ha)
    obtain ⟨zs, hz, -⟩ := h1.cls r c ys hc
    obtain ⟨g1, -, g3⟩ := key (alloc v h).1 zs (alloc v h).2 hz fun a ha => hP a (Nat.le_trans hL (m3 a ha))
    exact ⟨h1.trans g1, g3⟩

theorem hdecStmt_mv {r : Nat} {c : Cls} (hr : P r) (s : DecStmt) (st : HDecSt) (ys : List HVal) (hL : L ≤ st.h.length)
    (hcl : InnerClosed P st.h) (hc : st.h[r]? = some (.msg c ys)) (hs : s.typed (javaTypes c) = true)
    (hcallf : ∀ f, s = .call f → ∀ a, st.h.field r f = some (.ref a) → P a) :
    Mv P L st.h (hdecStmt sup call r (javaTypes c) s st).1.h := by
  have plain : ∀ (f : Nat) (y : HVal), (∀ d, (javaTypes c)[f]? ≠ some (.obj d)) → (∀ e, (javaTypes c)[f]? ≠ some (.list e)) →
      Mv P L st.h (st.h.setField r f y) := fun f y h1 h2 =>
    Mv.set hr hc y (fun a d hd => absurd hd (h1 d)) (fun e he => absurd he (h2 e))
  cases s with
  | num f t e =>
    simp only [DecStmt.typed] at hs
    split at hs <;> try contradiction
    next p hp =>
    simp only [hdecStmt]
    split
    · exact Mv.refl ..
    · split
      · exact plain f _ (fun d hd => by rw [hp] at hd; cases hd) (fun d hd => by rw [hp] at hd; cases hd)
      · exact Mv.refl ..
  | fixed f n pad left =>
    simp only [DecStmt.typed] at hs
    split at hs <;> try contradiction
    next hp =>
    simp only [hdecStmt]
    split
    · exact plain f _ (fun d hd => by rw [hp] at hd; cases hd) (fun d hd => by rw [hp] at hd; cases hd)
    · exact Mv.refl ..
  | dyn f t e =>
    simp only [DecStmt.typed] at hs
    split at hs <;> try contradiction
    next hp =>
    simp only [hdecStmt]
    split
    · exact plain f _ (fun d hd => by rw [hp] at hd; cases hd) (fun d hd => by rw [hp] at hd; cases hd)
    · exact Mv.refl ..
    · exact Mv.refl ..
  | list f t e el =>
    simp only [DecStmt.typed] at hs
    split at hs <;> try contradiction
    next e' hp =>
    simp only [hdecStmt]
    split
    · exact Mv.refl ..
    · next b' n _ =>
      split
      · have h1 : Mv P L st.h (st.h ++ [.arr []]) := Mv.append hP hL _ fun o ho a ha => by
          rw [List.mem_singleton] at ho; subst ho; simp [HObj.values] at ha
        obtain ⟨zs, hz, -⟩ := h1.cls r c ys hc
        have h2 : Mv P L st.h (Heap.setField (st.h ++ [.arr []]) r f (.ref st.h.length)) :=
          h1.trans (Mv.set hr hz _ (fun a d hd => by rw [hp] at hd; cases hd) (fun e he => ⟨_, hL, rfl⟩))
        obtain ⟨zs', hz', -⟩ := h2.cls r c ys hc
        refine h2.trans (hdecElems_mv hP hcall el hp _ _ b' zs' (Nat.le_trans hL h2.len) (h2.closed hcl) hz' fun a ha => ?_)
        rw [Heap.field_msg _ _ _ _ _ (Heap.setField_self _ r f c zs _ hz)] at ha
        rcases Nat.lt_or_ge f zs.length with g | g
        · rw [List.getElem?_set_self g] at ha
          cases ha
          exact hP _ hL
        · rw [List.set_eq_of_length_le g, List.getElem?_eq_none g] at ha
          cases ha
      · exact Mv.refl ..
  | obj f d =>
    simp only [DecStmt.typed] at hs
    split at hs <;> try contradiction
    next d' hp =>
    have inn : ∀ (h : Heap) (zs : List HVal), InnerClosed P h → h[r]? = some (.msg c zs) → ∀ a, h.field r f = some (.ref a) → P a := by
      intro h zs hcl' hz a ha
      rw [Heap.field_msg _ _ _ _ _ hz] at ha
      exact hcl' r hr c d' zs f a hz hp ha
    simp only [hdecStmt]
    split
    · have h1 := newMsg_mv hP hL d
      obtain ⟨zs, hz, -⟩ := h1.cls r c ys hc
      have h2 : Mv P L st.h (Heap.setField (st.h ++ [newMsg d]) r f (.ref st.h.length)) :=
        h1.trans (Mv.set hr hz _ (fun a d _ ha => by cases ha; exact hP _ hL) (fun e he => by rw [hp] at he; cases he))
      obtain ⟨zs', hz', -⟩ := h2.cls r c ys hc
      exact h2.trans (hcallField_mv hcall ⟨_, st.buf⟩ (Nat.le_trans hL h2.len) (h2.closed hcl) (inn _ zs' (h2.closed hcl) hz'))
    · exact hcallField_mv hcall st hL hcl (inn _ ys hcl hc)
  | create f fac key =>
    simp only [DecStmt.typed] at hs
    split at hs <;> try contradiction
    next hp =>
    simp only [hdecStmt]
    split
    · split
      · next s hs => exact (hcreate_mv sup hP hsup hr hL hc hp hs).1
      · exact Mv.refl ..
    · exact Mv.refl ..
  | call f => exact hcallField_mv hcall st hL hcl (hcallf f rfl)

theorem hdecStmts_mv {r : Nat} {c : Cls} (hr : P r) : ∀ (ss : List DecStmt) (st : HDecSt) (ys : List HVal), L ≤ st.h.length →
    InnerClosed P st.h → st.h[r]? = some (.msg c ys) → ss.all (DecStmt.typed (javaTypes c)) = true →
    (callsAfterCreate ss = true ∨ ∃ f rest, ss = .call f :: rest ∧ callsAfterCreate rest = true ∧ ∀ a, st.h.field r f = some (.ref a) → P a) →
    Mv P L st.h (hdecStmts sup call r (javaTypes c) ss st).1.h
  | [], st, ys, _, _, _, _, _ => Mv.refl ..
  | s :: ss, st, ys, hL, hcl, hc, ht, hca => by
    rw [List.all_cons, Bool.and_eq_true] at ht
    have h1 := hdecStmt_mv sup hP hcall hsup hr s st ys hL hcl hc ht.1 (by
      rintro f rfl
      rcases hca with g | ⟨f', rest, g, -, h⟩
      · simp [callsAfterCreate] at g
      · cases g; exact h)
    simp only [hdecStmts]
    split
    · next st' e =>
      rw [e] at h1
      obtain ⟨ys', hc', -⟩ := h1.cls r c ys hc
      refine h1.trans (hdecStmts_mv hr ss st' ys' (Nat.le_trans hL h1.len) (h1.closed hcl) hc' ht.2 ?_)
      rcases hca with g | ⟨f', rest, g, g2, -⟩
      · by_cases hcr : ∃ f fac key g ss', s = .create f fac key ∧ ss = .call g :: ss'
        · obtain ⟨f, fac, key, g', ss', rfl, rfl⟩ := hcr
          simp only [callsAfterCreate, Bool.and_eq_true, beq_iff_eq] at g
          obtain ⟨rfl, g⟩ := g
          refine .inr ⟨f, ss', rfl, g, ?_⟩
          have hp := ht.1
          simp only [DecStmt.typed] at hp
          split at hp <;> try contradiction
          next hp' =>
          simp only [hdecStmt] at e
          split at e
          · split at e
            · next s hs =>
              have := (hcreate_mv sup hP hsup hr hL hc hp' hs).2
              cases e
              exact this
            · cases e
          · cases e
        · left
          cases s with
          | create f fac key =>
            cases ss with
            | nil => rfl
            | cons s' ss' =>
              cases s' with
              | call g' => exact absurd ⟨f, fac, key, g', ss', rfl, rfl⟩ hcr
              | _ => simpa [callsAfterCreate] using g
          | call f => simp [callsAfterCreate] at g
          | _ => simpa [callsAfterCreate] using g
      · cases g; exact .inl g2
    · next st' err e => rw [e] at h1; exact h1
end

theorem hdecode_mv {P : Nat → Prop} {L : Nat} (sup : Suppliers) (hP : ∀ q, L ≤ q → P q)
    (hsup : ∀ fac k a, sup fac k = some (.give (.ref a)) → P a) : ∀ n, CallMv P L (hdecode sup n)
  | 0 => fun r h b _ _ _ => Mv.refl ..
  | n + 1 => fun r h b hr hL hcl => by
    simp only [hdecode]
    split
    · next c ys hc =>
      have ht := decStmts_table c
      rw [Bool.and_eq_true] at ht
      exact hdecStmts_mv sup hP (hdecode_mv sup hP hsup n) hsup hr (decl c).dec ⟨h, b⟩ ys hL hcl hc ht.1 (.inl ht.2)
    · exact Mv.refl ..

theorem Inner.snoc {h : Heap} {r q : Nat} (hq : Inner h r q) {c d : Cls} {ys : List HVal} {f a : Nat} (h1 : h[q]? = some (.msg c ys))
    (h2 : (javaTypes c)[f]? = some (.obj d)) (h3 : ys[f]? = some (.ref a)) : Inner h r a := by
  induction hq with
  | here r => exact .field r a c d ys f a h1 h2 h3 (.here a)
  | field r q c' d' ys' f' a' g1 g2 g3 _ ih => exact .field r a c' d' ys' f' a' g1 g2 g3 (ih h1)

end FinProto
