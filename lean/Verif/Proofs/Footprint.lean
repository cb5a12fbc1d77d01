import Verif.Proofs.Races
/-
Helper lemmas: a step changes only the places it writes, and what it does depends only on the places it reads.
-/
namespace FinProto

/-! ### Reading after a change -/

theorem read_setField_ne (h : Heap) (r f : Nat) (y : HVal) (p : Place) (hp : p ≠ .field r f) : (h.setField r f y).read p = h.read p := by
  unfold Heap.setField
  split
  · rename_i c ys hr
    have hlt := (List.getElem?_eq_some_iff.mp hr).1
    cases p with
    | field q g =>
      by_cases hq : r = q
      · subst hq
        have hg : f ≠ g := fun e => hp (by rw [e])
        simp only [Heap.read, Heap.field, List.getElem?_set_self hlt, hr, List.getElem?_set_ne hg]
      · simp only [Heap.read, Heap.field, List.getElem?_set_ne hq]
    | elems a =>
      by_cases hq : r = a
      · subst hq
        simp only [Heap.read, List.getElem?_set_self hlt, hr]
      · simp only [Heap.read, List.getElem?_set_ne hq]
  · rfl

theorem read_setField_self (h : Heap) (r f : Nat) (y : HVal) :
    (h.setField r f y).read (.field r f) = (h.read (.field r f)).map fun _ => [y] := by
  unfold Heap.setField
  rcases hr : h[r]? with _ | ⟨c, ys⟩ | xs
  · simp [Heap.read, Heap.field, hr]
  · have hlt := (List.getElem?_eq_some_iff.mp hr).1
    simp only [Heap.read, Heap.field, List.getElem?_set_self hlt, hr]
    by_cases hf : f < ys.length
    · rw [List.getElem?_set_self hf, List.getElem?_eq_getElem hf]; rfl
    · rw [List.getElem?_eq_none_iff.mpr (by simp; omega), List.getElem?_eq_none_iff.mpr (by omega)]; rfl
  · simp [Heap.read, Heap.field, hr]

theorem read_append (h k : Heap) (p : Place) (hp : p.object < h.length) : (h ++ k).read p = h.read p := by
  cases p with
  | field r f => simp only [Heap.read, Heap.field, List.getElem?_append_left (show r < h.length from hp)]
  | elems a => simp only [Heap.read, List.getElem?_append_left (show a < h.length from hp)]

theorem read_none {h : Heap} {p : Place} (hp : h.length ≤ p.object) : h.read p = none := by
  cases p with
  | field r f => simp only [Heap.read, Heap.field, List.getElem?_eq_none_iff.mpr (show h.length ≤ r from hp)]; rfl
  | elems a => simp only [Heap.read, List.getElem?_eq_none_iff.mpr (show h.length ≤ a from hp)]

theorem read_set_ne (h : Heap) {a : Nat} {zs : List HVal} (ha : h[a]? = some (.arr zs)) (xs : List HVal) (p : Place) (hp : p ≠ .elems a) :
    (Heap.read (h.set a (.arr xs)) p) = h.read p := by
  have hlt := (List.getElem?_eq_some_iff.mp ha).1
  cases p with
  | field q g =>
    by_cases hq : a = q
    · subst hq
      simp only [Heap.read, Heap.field, List.getElem?_set_self hlt, ha]
    · simp only [Heap.read, Heap.field, List.getElem?_set_ne hq]
  | elems b =>
    have hb : a ≠ b := fun e => hp (by rw [e])
    simp only [Heap.read, List.getElem?_set_ne hb]

theorem hadd_read (h : Heap) (r f : Nat) (y : HVal) (p : Place) (hp : (⟨true, p⟩ : Access) ∉ addList h r f) : (hadd h r f y).1.read p = h.read p := by
  unfold hadd
  unfold addList at hp
  revert hp
  rcases hf : h.field r f with _ | _ | _ | _ | a <;> intro hp <;> try rfl
  dsimp only
  split
  · rename_i xs ha
    refine read_set_ne h ha _ p ?_
    rintro rfl
    exact hp (by simp)
  · rfl

/-! ### A step changes only what it writes -/

theorem hstep_read (w : World) (n : Nat) (h : Heap) (t : HThread) (p : Place) (hp : (⟨true, p⟩ : Access) ∉ t.accesses w h) :
    (t.step w n h).1.read p = h.read p := by
  obtain ⟨stk, b, err⟩ := t
  rcases err with _ | e
  case some => rfl
  rcases stk with _ | ⟨⟨r, todo, loc, loop⟩, as⟩
  · rfl
  rcases loop with _ | ⟨f, el, i⟩
  case some => rfl
  rcases todo with _ | ⟨s, ss⟩
  · rfl
  simp only [HThread.accesses] at hp
  simp only [HThread.step]
  cases s with
  | list f zt t e el =>
    simp only [HThread.exec]
    split
    · rfl
    · split <;> rfl
  | obj f => simp only [HThread.exec]; split <;> rfl
  | objOpt f => simp only [HThread.exec]; split <;> rfl
  | setLen f x y =>
    simp only [HThread.exec, hencStmt]
    split
    · refine read_setField_ne _ _ _ _ _ ?_
      rintro rfl
      exact hp (by simp [EncStmt.accesses])
    · rfl
  | checksum f alg =>
    simp only [HThread.exec, hencStmt]
    split
    · rename_i s hs
      refine read_setField_ne _ _ _ _ _ ?_
      rintro rfl
      exact hp (by simp [EncStmt.accesses, hs])
    · rfl
  | patch x f t e =>
    simp only [HThread.exec, hencStmt]
    split
    · split <;> rfl
    · rfl
  | save x => rfl
  | zero t e => rfl
  | _ => simp only [HThread.exec, hencStmt]; split <;> rfl

theorem dstep_read (sup : Suppliers) (n : Nat) (h : Heap) (t : DThread) (p : Place) (hl : p.object < h.length)
    (hp : (⟨true, p⟩ : Access) ∉ t.accesses h) : (t.step sup n h).1.read p = h.read p := by
  obtain ⟨stk, b, err⟩ := t
  rcases err with _ | e
  case some => rfl
  rcases stk with _ | ⟨⟨r, c, todo, loop⟩, as⟩
  · rfl
  rcases loop with _ | ⟨f, el, k, q⟩
  · rcases todo with _ | ⟨s, ss⟩
    · rfl
    simp only [DThread.accesses] at hp
    simp only [DThread.step]
    have hset : ∀ (g : Heap) (f : Nat) (y : HVal), g.read p = h.read p → (⟨true, .field r f⟩ : Access) ∈ s.accesses r →
        (g.setField r f y).read p = h.read p := by
      intro g f y hg hm
      rw [read_setField_ne g r f y p (fun e => hp (by rw [e]; exact hm)), hg]
    cases s with
    | list f t e el =>
      simp only [DThread.exec]
      split
      · rfl
      · split
        · exact hset _ _ _ (read_append _ _ _ hl) (by simp [DecStmt.accesses])
        · rfl
    | obj f d =>
      simp only [DThread.exec]
      split
      · exact hset _ _ _ (read_append _ _ _ hl) (by simp [DecStmt.accesses])
      · rfl
    | call f => rfl
    | num f t e =>
      simp only [DThread.exec, hdecStmt]
      split
      · rfl
      · split
        · exact hset _ _ _ rfl (by simp [DecStmt.accesses])
        · rfl
    | create f fac key =>
      simp only [DThread.exec, hdecStmt]
      split
      · split
        · rename_i s _
          cases s with
          | make v =>
            obtain ⟨k, hk⟩ := alloc_append v h
            simp only [hcreate]
            refine hset _ _ _ ?_ (by simp [DecStmt.accesses])
            rw [hk, read_append _ _ _ hl]
          | give x => exact hset _ _ _ rfl (by simp [DecStmt.accesses])
        · rfl
      · rfl
    | _ =>
      simp only [DThread.exec, hdecStmt]
      split <;> first | rfl | exact hset _ _ _ rfl (by simp [DecStmt.accesses])
  · simp only [DThread.accesses] at hp
    simp only [DThread.step]
    rcases q with _ | q
    · rcases k with _ | k
      · rfl
      · cases el with
        | obj d => exact read_append _ _ _ hl
        | _ =>
          simp only [DThread.iterate, hdecElem]
          split <;> first | rfl | exact hadd_read _ _ _ _ _ hp
    · have : (⟨true, p⟩ : Access) ∉ addList h r f := by
        rcases k with _ | k
        · exact hp
        · cases el <;> exact hp
      exact hadd_read _ _ _ _ _ this

theorem created_read {h h' : Heap} (p : Place) (hl : h.length ≤ p.object) (hp : (⟨true, p⟩ : Access) ∉ created h h') :
    h'.read p = h.read p := by
  rw [read_none hl]
  rcases Nat.lt_or_ge p.object h'.length with hl' | hl'
  · have : p ∉ h'.places p.object := by
      intro hm
      refine hp (List.mem_map.mpr ⟨p, List.mem_flatMap.mpr ⟨p.object, ?_, hm⟩, rfl⟩)
      rw [List.mem_range'_1]
      omega
    unfold Heap.places at this
    have ho := List.getElem?_eq_getElem hl'
    revert this ho
    generalize h'[p.object] = o
    intro this ho
    rw [ho] at this
    cases o with
    | msg c ys =>
      cases p with
      | field r f =>
        simp only [Place.object] at ho this
        simp only [Heap.read, Heap.field, ho]
        rw [List.getElem?_eq_none_iff.mpr]
        · rfl
        · rcases Nat.lt_or_ge f ys.length with hf | hf
          · exact absurd (List.mem_map.mpr ⟨f, List.mem_range.mpr hf, rfl⟩) this
          · exact hf
      | elems a =>
        simp only [Place.object] at ho
        simp only [Heap.read, ho]
    | arr xs =>
      cases p with
      | field r f =>
        simp only [Place.object] at ho
        simp only [Heap.read, Heap.field, ho]
        rfl
      | elems a => exact absurd (List.mem_singleton.mpr rfl) this
  · exact read_none hl'

theorem wstep_read (w : World) (sup : Suppliers) (n : Nat) (h : Heap) (t : Worker) (p : Place)
    (hp : (⟨true, p⟩ : Access) ∉ t.accesses w sup n h) : (t.step w sup n h).1.read p = h.read p := by
  unfold Worker.accesses at hp
  rw [List.mem_append, not_or] at hp
  rcases Nat.lt_or_ge p.object h.length with hl | hl
  · cases t with
    | enc t => exact hstep_read w n h t p hp.1
    | dec t => exact dstep_read sup n h t p hl hp.1
  · exact created_read p hl hp.2

/-! ### What a step does depends only on what it reads -/

theorem same_cases {h k : Heap} (hs : SameObjects h k) (q : Nat) :
    (h[q]? = none ∧ k[q]? = none) ∨ ∃ o o', h[q]? = some o ∧ k[q]? = some o' ∧ SameKind o o' := by
  have := hs.2 q
  rcases h1 : h[q]? with _ | ⟨c, ys⟩ | xs <;> rcases h2 : k[q]? with _ | ⟨d, zs⟩ | ys <;> rw [h1, h2] at this <;> try exact this.elim
  · exact .inl ⟨rfl, rfl⟩
  · obtain ⟨rfl, hl⟩ := this
    exact .inr ⟨_, _, rfl, rfl, .msg _ hl⟩
  · exact .inr ⟨_, _, rfl, rfl, .arr _ _⟩

theorem same_of {h k : Heap} (hl : k.length = h.length) (hs : ∀ (q : Nat) o, h[q]? = some o → ∃ o', k[q]? = some o' ∧ SameKind o o') : SameObjects h k := by
  refine ⟨hl, fun q => ?_⟩
  rcases h1 : h[q]? with _ | o
  · have : k[q]? = none := by
      rw [List.getElem?_eq_none_iff] at h1 ⊢
      omega
    rw [this]
    trivial
  · obtain ⟨o', h2, h3⟩ := hs q o h1
    rw [h2]
    cases h3 with
    | msg c h4 => exact ⟨rfl, h4⟩
    | arr xs ys => trivial

/-- The same change to two heaps with the same objects: a place is given the same contents in both, or left alone in both. -/
def Alters (h k h' k' : Heap) : Prop :=
  SameObjects h' k' ∧ ∀ p : Place, k'.read p = h'.read p ∨ (h'.read p = h.read p ∧ k'.read p = k.read p)

theorem Alters.refl {h k : Heap} (hs : SameObjects h k) : Alters h k h k := ⟨hs, fun _ => .inr ⟨rfl, rfl⟩⟩

theorem Alters.trans {h k h' k' h'' k'' : Heap} (h1 : Alters h k h' k') (h2 : Alters h' k' h'' k'') : Alters h k h'' k'' := by
  refine ⟨h2.1, fun p => ?_⟩
  rcases h2.2 p with h3 | ⟨h3, h4⟩
  · exact .inl h3
  · rcases h1.2 p with h5 | ⟨h5, h6⟩
    · exact .inl (by rw [h3, h4, h5])
    · exact .inr ⟨by rw [h3, h5], by rw [h4, h6]⟩

theorem same_read {h k : Heap} (hs : SameObjects h k) (p : Place) : (k.read p = none ↔ h.read p = none) := by
  cases p with
  | field r f =>
    simp only [Heap.read, Heap.field]
    rcases same_cases hs r with ⟨h1, h2⟩ | ⟨o, o', h1, h2, h3⟩
    · rw [h1, h2]
    · rw [h1, h2]
      cases h3 with
      | msg c hl => simp [hl]
      | arr xs ys => simp
  | elems a =>
    simp only [Heap.read]
    rcases same_cases hs a with ⟨h1, h2⟩ | ⟨o, o', h1, h2, h3⟩
    · rw [h1, h2]
    · rw [h1, h2]
      cases h3 with
      | msg c hl => simp
      | arr xs ys => simp

theorem same_set {h k : Heap} (hs : SameObjects h k) {q : Nat} {o o' : HObj} (ha : SameKind o o') : SameObjects (h.set q o) (k.set q o') := by
  refine same_of (by simp [hs.1]) (fun p x hx => ?_)
  by_cases hp : q = p
  · subst hp
    have hlt : q < h.length := by
      have := (List.getElem?_eq_some_iff.mp hx).1
      simpa using this
    rw [List.getElem?_set_self hlt] at hx
    cases hx
    exact ⟨o', List.getElem?_set_self (by rw [hs.1]; exact hlt), ha⟩
  · rw [List.getElem?_set_ne hp] at hx ⊢
    rcases same_cases hs p with ⟨h1, -⟩ | ⟨x', y, h1, h2, h3⟩
    · rw [h1] at hx; cases hx
    · rw [h1] at hx; cases hx
      exact ⟨y, h2, h3⟩

theorem alters_setField {h k : Heap} (hs : SameObjects h k) (r f : Nat) (y : HVal) : Alters h k (h.setField r f y) (k.setField r f y) := by
  refine ⟨?_, fun p => ?_⟩
  · unfold Heap.setField
    rcases same_cases hs r with ⟨h1, h2⟩ | ⟨o, o', h1, h2, h3⟩
    · rw [h1, h2]; exact hs
    · rw [h1, h2]
      cases h3 with
      | msg c hl => exact same_set hs (.msg c (by simp [hl]))
      | arr xs ys => exact hs
  · by_cases hp : p = .field r f
    · subst hp
      left
      rw [read_setField_self, read_setField_self]
      have := same_read hs (.field r f)
      rcases h1 : h.read (.field r f) with _ | x <;> rcases h2 : k.read (.field r f) with _ | z <;> simp [h1, h2] at this ⊢
    · exact .inr ⟨read_setField_ne _ _ _ _ _ hp, read_setField_ne _ _ _ _ _ hp⟩

theorem alters_append {h k : Heap} (hs : SameObjects h k) (l : Heap) : Alters h k (h ++ l) (k ++ l) := by
  refine ⟨same_of (by simp [hs.1]) (fun q o ho => ?_), fun p => ?_⟩
  · rcases Nat.lt_or_ge q h.length with hq | hq
    · rw [List.getElem?_append_left hq] at ho
      rw [List.getElem?_append_left (by rw [hs.1]; exact hq)]
      rcases same_cases hs q with ⟨h1, -⟩ | ⟨x', y, h1, h2, h3⟩
      · rw [h1] at ho; cases ho
      · rw [h1] at ho; cases ho
        exact ⟨y, h2, h3⟩
    · rw [List.getElem?_append_right hq] at ho
      rw [List.getElem?_append_right (by rw [hs.1]; exact hq), hs.1]
      exact ⟨o, ho, .refl o⟩
  · rcases Nat.lt_or_ge p.object h.length with hp | hp
    · exact .inr ⟨read_append _ _ _ hp, read_append _ _ _ (by rw [hs.1]; exact hp)⟩
    · left
      cases p with
      | field r f =>
        have hp : h.length ≤ r := hp
        simp only [Heap.read, Heap.field]
        rw [List.getElem?_append_right hp, List.getElem?_append_right (by rw [hs.1]; exact hp), hs.1]
      | elems a =>
        have hp : h.length ≤ a := hp
        simp only [Heap.read]
        rw [List.getElem?_append_right hp, List.getElem?_append_right (by rw [hs.1]; exact hp), hs.1]

theorem alloc_same (v : Val) : ∀ h k : Heap, k.length = h.length →
    ∃ l, (alloc v h).1 = h ++ l ∧ (alloc v k).1 = k ++ l ∧ (alloc v k).2 = (alloc v h).2 := by
  apply Val.rec
    (motive_1 := fun v => ∀ h k : Heap, k.length = h.length →
      ∃ l, (alloc v h).1 = h ++ l ∧ (alloc v k).1 = k ++ l ∧ (alloc v k).2 = (alloc v h).2)
    (motive_2 := fun vs => ∀ h k : Heap, k.length = h.length →
      ∃ l, (allocAll vs h).1 = h ++ l ∧ (allocAll vs k).1 = k ++ l ∧ (allocAll vs k).2 = (allocAll vs h).2)
  · intro h k _; exact ⟨[], by simp [alloc], by simp [alloc], by simp [alloc]⟩
  · intro n h k _; exact ⟨[], by simp [alloc], by simp [alloc], by simp [alloc]⟩
  · intro s h k _; exact ⟨[], by simp [alloc], by simp [alloc], by simp [alloc]⟩
  · intro vs ih h k hl
    obtain ⟨l, h1, h2, h3⟩ := ih h k hl
    refine ⟨l ++ [.arr (allocAll vs h).2], ?_, ?_, ?_⟩
    · simp [alloc, h1]
    · simp [alloc, h2, h3]
    · simp [alloc, h1, h2, hl]
  · intro c vs ih h k hl
    obtain ⟨l, h1, h2, h3⟩ := ih h k hl
    refine ⟨l ++ [.msg c (allocAll vs h).2], ?_, ?_, ?_⟩
    · simp [alloc, h1]
    · simp [alloc, h2, h3]
    · simp [alloc, h1, h2, hl]
  · intro h k _; exact ⟨[], by simp [allocAll], by simp [allocAll], by simp [allocAll]⟩
  · intro v vs ih1 ih2 h k hl
    obtain ⟨l, h1, h2, h3⟩ := ih1 h k hl
    obtain ⟨m, h4, h5, h6⟩ := ih2 (alloc v h).1 (alloc v k).1 (by rw [h1, h2]; simp [hl])
    refine ⟨l ++ m, ?_, ?_, ?_⟩
    · rw [allocAll]; dsimp only; rw [h4, h1, List.append_assoc]
    · rw [allocAll]; dsimp only; rw [h5, h2, List.append_assoc]
    · rw [allocAll, allocAll]; dsimp only; rw [h6, h3]

theorem field_of_read {h k : Heap} {r f : Nat} (hr : k.read (.field r f) = h.read (.field r f)) : k.field r f = h.field r f := by
  simp only [Heap.read] at hr
  rcases h1 : h.field r f with _ | x <;> rcases h2 : k.field r f with _ | z <;> rw [h1, h2] at hr <;> simp at hr ⊢
  exact hr

theorem listAt_of_read {h k : Heap} {r f : Nat} (hr : ∀ x ∈ readList h r f, x.write = false → k.read x.place = h.read x.place) :
    k.listAt r f = h.listAt r f := by
  have h1 : k.field r f = h.field r f := field_of_read (hr ⟨false, .field r f⟩ (List.mem_cons_self ..) rfl)
  unfold Heap.listAt
  rw [h1]
  unfold readList at hr
  rcases hf : h.field r f with _ | _ | _ | _ | a <;> try rfl
  rw [hf] at hr
  have := hr ⟨false, .elems a⟩ (by simp) rfl
  simp only [Heap.read] at this
  exact this

theorem henter_same {h k : Heap} (hs : SameObjects h k) (n : Nat) (x : HVal) (t : HThread) : t.enter n x k = t.enter n x h := by
  unfold HThread.enter
  split
  · rfl
  · split
    · split
      · rename_i r _
        rcases same_cases hs r with ⟨h1, h2⟩ | ⟨o, o', h1, h2, h3⟩
        · rw [h1, h2]
        · rw [h1, h2]
          cases h3 <;> rfl
      · rfl
    · rfl

theorem hstep_same (w : World) (n : Nat) {h k : Heap} (hs : SameObjects h k) (t : HThread)
    (hr : ∀ x ∈ t.accesses w h, x.write = false → k.read x.place = h.read x.place) :
    (t.step w n k).2 = (t.step w n h).2 ∧ Alters h k (t.step w n h).1 (t.step w n k).1 := by
  obtain ⟨stk, b, err⟩ := t
  rcases err with _ | e
  case some => exact ⟨rfl, .refl hs⟩
  rcases stk with _ | ⟨⟨r, todo, loc, loop⟩, as⟩
  · exact ⟨rfl, .refl hs⟩
  rcases loop with _ | ⟨f, el, i⟩
  case some =>
    simp only [HThread.accesses] at hr
    have hf : k.field r f = h.field r f := field_of_read (hr ⟨false, .field r f⟩ (List.mem_cons_self ..) rfl)
    simp only [HThread.step, HThread.iterate]
    rw [listAt_of_read hr, hf]
    refine ⟨?_, .refl hs⟩
    split
    · rfl
    · split
      · rfl
      · split <;> first | rfl | exact henter_same hs n _ _
  rcases todo with _ | ⟨s, ss⟩
  · exact ⟨rfl, .refl hs⟩
  simp only [HThread.accesses] at hr
  simp only [HThread.step]
  have hfd : ∀ f, (⟨false, .field r f⟩ : Access) ∈ s.accesses w h r → k.field r f = h.field r f := fun f hm => field_of_read (hr _ hm rfl)
  cases s with
  | list f zt t e el =>
    simp only [HThread.exec]
    rw [listAt_of_read hr, hfd f (List.mem_cons_self ..)]
    refine ⟨?_, ?_⟩
    · split
      · rfl
      · split <;> rfl
    · split
      · exact .refl hs
      · split <;> exact .refl hs
  | obj f =>
    simp only [HThread.exec]
    rw [hfd f (List.mem_cons_self ..)]
    split
    · exact ⟨henter_same hs n _ _, .refl hs⟩
    · exact ⟨rfl, .refl hs⟩
  | objOpt f =>
    simp only [HThread.exec]
    rw [hfd f (List.mem_cons_self ..)]
    split
    · exact ⟨rfl, .refl hs⟩
    · exact ⟨henter_same hs n _ _, .refl hs⟩
    · exact ⟨rfl, .refl hs⟩
  | setLen f x y =>
    simp only [HThread.exec, hencStmt]
    split
    · exact ⟨rfl, alters_setField hs _ _ _⟩
    · exact ⟨rfl, .refl hs⟩
  | checksum f alg =>
    simp only [HThread.exec, hencStmt]
    split
    · exact ⟨rfl, alters_setField hs _ _ _⟩
    · exact ⟨rfl, .refl hs⟩
  | patch x f t e =>
    simp only [HThread.exec, hencStmt]
    rw [hfd f (List.mem_cons_self ..)]
    split
    · split <;> exact ⟨rfl, .refl hs⟩
    · exact ⟨rfl, .refl hs⟩
  | save x => exact ⟨rfl, .refl hs⟩
  | zero t e => exact ⟨rfl, .refl hs⟩
  | num f t e =>
    simp only [HThread.exec, hencStmt]
    rw [hfd f (List.mem_cons_self ..)]
    split <;> exact ⟨rfl, .refl hs⟩
  | fixed f m pad left =>
    simp only [HThread.exec, hencStmt]
    rw [hfd f (List.mem_cons_self ..)]
    split <;> exact ⟨rfl, .refl hs⟩
  | dyn f zt t e =>
    simp only [HThread.exec, hencStmt]
    rw [hfd f (List.mem_cons_self ..)]
    split <;> exact ⟨rfl, .refl hs⟩

theorem hadd_same {h k : Heap} (hs : SameObjects h k) (r f : Nat) (y : HVal)
    (hr : ∀ x ∈ addList h r f, x.write = false → k.read x.place = h.read x.place) :
    (hadd k r f y).2 = (hadd h r f y).2 ∧ Alters h k (hadd h r f y).1 (hadd k r f y).1 := by
  have hf : k.field r f = h.field r f := field_of_read (hr ⟨false, .field r f⟩ (List.mem_cons_self ..) rfl)
  unfold hadd
  rw [hf]
  unfold addList at hr
  rcases hg : h.field r f with _ | _ | _ | _ | a <;> try exact ⟨rfl, .refl hs⟩
  dsimp only
  rw [hg] at hr
  have he := hr ⟨false, .elems a⟩ (by simp) rfl
  simp only [Heap.read] at he
  rcases same_cases hs a with ⟨h1, h2⟩ | ⟨o, o', h1, h2, h3⟩
  · rw [h1, h2]; exact ⟨rfl, .refl hs⟩
  · rw [h1, h2] at he ⊢
    cases h3 with
    | msg c hl => exact ⟨rfl, .refl hs⟩
    | arr xs ys =>
      dsimp only at he ⊢
      injection he with he
      subst he
      refine ⟨rfl, same_set hs (.refl _), fun p => ?_⟩
      by_cases hp : p = .elems a
      · subst hp
        left
        simp only [Heap.read]
        rw [List.getElem?_set_self (List.getElem?_eq_some_iff.mp h1).1, List.getElem?_set_self (List.getElem?_eq_some_iff.mp h2).1]
      · exact .inr ⟨read_set_ne h h1 _ p hp, read_set_ne k h2 _ p hp⟩

theorem denter_same {h k : Heap} (hs : SameObjects h k) (n r : Nat) (t : DThread) : t.enter n r k = t.enter n r h := by
  unfold DThread.enter
  split
  · rcases same_cases hs r with ⟨h1, h2⟩ | ⟨o, o', h1, h2, h3⟩
    · rw [h1, h2]
    · rw [h1, h2]
      cases h3 <;> rfl
  · rfl

theorem dfield_same {h k : Heap} (hs : SameObjects h k) (n r f : Nat) (hf : k.field r f = h.field r f) (t : DThread) :
    t.enterField n r f k = t.enterField n r f h := by
  unfold DThread.enterField
  rw [hf]
  split
  · rfl
  · rename_i a _
    rw [denter_same hs]
    rcases same_cases hs a with ⟨h1, h2⟩ | ⟨o, o', h1, h2, h3⟩
    · rw [h1, h2]
    · rw [h1, h2]
      cases h3 <;> rfl
  · rfl

theorem dstep_same (sup : Suppliers) (n : Nat) {h k : Heap} (hs : SameObjects h k) (t : DThread)
    (hr : ∀ x ∈ t.accesses h, x.write = false → k.read x.place = h.read x.place) :
    (t.step sup n k).2 = (t.step sup n h).2 ∧ Alters h k (t.step sup n h).1 (t.step sup n k).1 := by
  obtain ⟨stk, b, err⟩ := t
  rcases err with _ | e
  case some => exact ⟨rfl, .refl hs⟩
  rcases stk with _ | ⟨⟨r, c, todo, loop⟩, as⟩
  · exact ⟨rfl, .refl hs⟩
  have hsl : ∀ o : HObj, SameObjects (h ++ [o]) (k ++ [o]) := fun o => (alters_append hs [o]).1
  rcases loop with _ | ⟨f, el, m, q⟩
  · rcases todo with _ | ⟨s, ss⟩
    · exact ⟨rfl, .refl hs⟩
    simp only [DThread.accesses] at hr
    simp only [DThread.step]
    cases s with
    | list f t e el =>
      simp only [DThread.exec]
      split
      · exact ⟨rfl, .refl hs⟩
      · split
        · rw [hs.1]
          exact ⟨rfl, (alters_append hs _).trans (alters_setField (hsl _) _ _ _)⟩
        · exact ⟨rfl, .refl hs⟩
    | obj f d =>
      have hf : k.field r f = h.field r f := field_of_read (hr ⟨false, .field r f⟩ (by simp [DecStmt.accesses]) rfl)
      simp only [DThread.exec]
      rw [hf]
      split
      · rw [hs.1]
        exact ⟨rfl, (alters_append hs _).trans (alters_setField (hsl _) _ _ _)⟩
      · exact ⟨rfl, .refl hs⟩
    | call f =>
      have hf : k.field r f = h.field r f := field_of_read (hr ⟨false, .field r f⟩ (by simp [DecStmt.accesses]) rfl)
      exact ⟨dfield_same hs n r f hf _, .refl hs⟩
    | num f t e =>
      simp only [DThread.exec, hdecStmt]
      split
      · exact ⟨rfl, .refl hs⟩
      · split
        · exact ⟨rfl, alters_setField hs _ _ _⟩
        · exact ⟨rfl, .refl hs⟩
    | create f fac key =>
      have hf : k.field r key = h.field r key := field_of_read (hr ⟨false, .field r key⟩ (by simp [DecStmt.accesses]) rfl)
      simp only [DThread.exec, hdecStmt]
      rw [hf]
      split
      · split
        · rename_i s _
          cases s with
          | make v =>
            obtain ⟨l, h1, h2, h3⟩ := alloc_same v h k hs.1
            simp only [hcreate]
            rw [h1, h2, h3]
            exact ⟨trivial, (alters_append hs _).trans (alters_setField (alters_append hs l).1 _ _ _)⟩
          | give x => exact ⟨rfl, alters_setField hs _ _ _⟩
        · exact ⟨rfl, .refl hs⟩
      · exact ⟨rfl, .refl hs⟩
    | fixed f m pad left =>
      simp only [DThread.exec, hdecStmt]
      split
      · exact ⟨rfl, alters_setField hs _ _ _⟩
      · exact ⟨rfl, .refl hs⟩
    | dyn f t e =>
      simp only [DThread.exec, hdecStmt]
      split
      · exact ⟨rfl, alters_setField hs _ _ _⟩
      · exact ⟨rfl, .refl hs⟩
      · exact ⟨rfl, .refl hs⟩
  · simp only [DThread.accesses] at hr
    simp only [DThread.step]
    rcases q with _ | q
    · rcases m with _ | m
      · exact ⟨rfl, .refl hs⟩
      · cases el with
        | obj d =>
          simp only [DThread.iterate]
          rw [hs.1]
          exact ⟨denter_same (hsl _) n _ _, alters_append hs _⟩
        | num t e =>
          simp only [DThread.iterate, hdecElem]
          split
          · obtain ⟨h1, h2⟩ := hadd_same hs r f (.num _) hr
            exact ⟨by rw [h1], h2⟩
          · exact ⟨rfl, .refl hs⟩
        | fixed t e =>
          simp only [DThread.iterate, hdecElem]
          split
          · obtain ⟨h1, h2⟩ := hadd_same hs r f (.str _) hr
            exact ⟨by rw [h1], h2⟩
          · exact ⟨rfl, .refl hs⟩
        | dyn t e =>
          simp only [DThread.iterate, hdecElem]
          split
          · obtain ⟨h1, h2⟩ := hadd_same hs r f (.str _) hr
            exact ⟨by rw [h1], h2⟩
          · exact ⟨rfl, .refl hs⟩
          · exact ⟨rfl, .refl hs⟩
    · have : ∀ x ∈ addList h r f, x.write = false → k.read x.place = h.read x.place := by
        rcases m with _ | m
        · exact hr
        · cases el <;> exact hr
      obtain ⟨h1, h2⟩ := hadd_same hs r f (.ref q) this
      simp only [DThread.iterate]
      exact ⟨by rw [h1], h2⟩

theorem wstep_same (w : World) (sup : Suppliers) (n : Nat) {h k : Heap} (hs : SameObjects h k) (t : Worker)
    (hr : ∀ x ∈ t.accesses w sup n h, x.write = false → k.read x.place = h.read x.place) :
    (t.step w sup n k).2 = (t.step w sup n h).2 ∧ Alters h k (t.step w sup n h).1 (t.step w sup n k).1 := by
  cases t with
  | enc t =>
    obtain ⟨h1, h2⟩ := hstep_same w n hs t (fun x hx => hr x (List.mem_append_left _ hx))
    exact ⟨by simp only [Worker.step, h1], h2⟩
  | dec t =>
    obtain ⟨h1, h2⟩ := dstep_same sup n hs t (fun x hx => hr x (List.mem_append_left _ hx))
    exact ⟨by simp only [Worker.step, h1], h2⟩

end FinProto
