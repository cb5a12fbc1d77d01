import Verif.Spec.Heap
/-
Helper lemmas about what is shown by objects on the heap.
-/
namespace FinProto

theorem ShowsAll_length (h : Heap) : ∀ (vs : List Val) (ys : List HVal), ShowsAll h vs ys → vs.length = ys.length
  | [], ys, hs => by rw [ShowsAll] at hs; subst hs; rfl
  | v :: vs, ys, hs => by
    rw [ShowsAll] at hs
    obtain ⟨z, zs, rfl, _, ha⟩ := hs
    rw [List.length_cons, List.length_cons, ShowsAll_length h vs zs ha]

theorem ShowsAll_cons (h : Heap) (v : Val) (vs : List Val) (y : HVal) (ys : List HVal) :
    ShowsAll h (v :: vs) (y :: ys) ↔ Shows h v y ∧ ShowsAll h vs ys := by
  simp only [ShowsAll, List.cons.injEq]
  constructor
  · rintro ⟨z, zs, ⟨rfl, rfl⟩, h1, h2⟩; exact ⟨h1, h2⟩
  · rintro ⟨h1, h2⟩; exact ⟨_, _, ⟨rfl, rfl⟩, h1, h2⟩

theorem ShowsAll_append (h : Heap) : ∀ (vs vs' : List Val) (ys ys' : List HVal), vs.length = ys.length →
    (ShowsAll h (vs ++ vs') (ys ++ ys') ↔ ShowsAll h vs ys ∧ ShowsAll h vs' ys')
  | [], vs', ys, ys', hl => by
    cases ys with
    | nil => simp [ShowsAll]
    | cons y ys => simp at hl
  | v :: vs, vs', ys, ys', hl => by
    cases ys with
    | nil => simp at hl
    | cons y ys =>
      have ih := ShowsAll_append h vs vs' ys ys' (by simpa using hl)
      rw [List.cons_append, List.cons_append, ShowsAll_cons, ShowsAll_cons, ih, and_assoc]

theorem ShowsAll_single (h : Heap) (v : Val) (y : HVal) : ShowsAll h [v] [y] ↔ Shows h v y := by
  simp [ShowsAll]

theorem refsAll_append (h : Heap) : ∀ (vs vs' : List Val) (ys ys' : List HVal), vs.length = ys.length →
    refsAll h (vs ++ vs') (ys ++ ys') = refsAll h vs ys ++ refsAll h vs' ys'
  | [], vs', ys, ys', hl => by
    cases ys with
    | nil => simp [refsAll]
    | cons y ys => simp at hl
  | v :: vs, vs', ys, ys', hl => by
    cases ys with
    | nil => simp at hl
    | cons y ys =>
      have ih := refsAll_append h vs vs' ys ys' (by simpa using hl)
      simp only [List.cons_append, refsAll, ih, List.append_assoc]

theorem refs_obj (h : Heap) (c : Cls) (fs : List Val) (r : Nat) (c' : Cls) (ys : List HVal) (hr : h[r]? = some (.msg c' ys)) :
    refs h (.obj c fs) (.ref r) = r :: refsAll h fs ys := by
  simp only [refs, hr]

theorem refs_list (h : Heap) (xs : List Val) (a : Nat) (ys : List HVal) (hr : h[a]? = some (.arr ys)) :
    refs h (.list xs) (.ref a) = a :: refsAll h xs ys := by
  simp only [refs, hr]

/-- Objects that are not met do not matter. -/
theorem shows_frame_aux (h h' : Heap) : ∀ (v : Val),
    ∀ x, Shows h v x → (∀ q ∈ refs h v x, h'[q]? = h[q]?) → Shows h' v x ∧ refs h' v x = refs h v x := by
  intro v
  apply Val.rec
    (motive_1 := fun v => ∀ x, Shows h v x → (∀ q ∈ refs h v x, h'[q]? = h[q]?) → Shows h' v x ∧ refs h' v x = refs h v x)
    (motive_2 := fun vs => ∀ ys, ShowsAll h vs ys → (∀ q ∈ refsAll h vs ys, h'[q]? = h[q]?) →
      ShowsAll h' vs ys ∧ refsAll h' vs ys = refsAll h vs ys)
  · intro x hx _; rw [Shows] at hx; subst hx; simp [Shows, refs]
  · intro n x hx _; rw [Shows] at hx; subst hx; simp [Shows, refs]
  · intro s x hx _; rw [Shows] at hx; subst hx; simp [Shows, refs]
  · intro xs ih x hx hq
    rw [Shows] at hx
    obtain ⟨a, ys, rfl, ha, hall⟩ := hx
    rw [refs_list h xs a ys ha] at hq ⊢
    have ha' : h'[a]? = some (.arr ys) := by rw [hq a (List.mem_cons_self ..), ha]
    obtain ⟨h1, h2⟩ := ih ys hall (fun q hm => hq q (List.mem_cons_of_mem _ hm))
    rw [refs_list h' xs a ys ha', h2]
    refine ⟨?_, rfl⟩
    rw [Shows]
    exact ⟨a, ys, rfl, ha', h1⟩
  · intro c fs ih x hx hq
    rw [Shows] at hx
    obtain ⟨a, ys, rfl, ha, hall⟩ := hx
    rw [refs_obj h c fs a c ys ha] at hq ⊢
    have ha' : h'[a]? = some (.msg c ys) := by rw [hq a (List.mem_cons_self ..), ha]
    obtain ⟨h1, h2⟩ := ih ys hall (fun q hm => hq q (List.mem_cons_of_mem _ hm))
    rw [refs_obj h' c fs a c ys ha', h2]
    refine ⟨?_, rfl⟩
    rw [Shows]
    exact ⟨a, ys, rfl, ha', h1⟩
  · intro ys hy _; rw [ShowsAll] at hy; subst hy; simp [ShowsAll, refsAll]
  · intro v vs ih1 ih2 ys hy hq
    rw [ShowsAll] at hy
    obtain ⟨z, zs, rfl, hz, hzs⟩ := hy
    rw [refsAll] at hq
    obtain ⟨h1, h2⟩ := ih1 z hz (fun q hm => hq q (List.mem_append_left _ hm))
    obtain ⟨h3, h4⟩ := ih2 zs hzs (fun q hm => hq q (List.mem_append_right _ hm))
    rw [ShowsAll_cons, refsAll, refsAll, h2, h4]
    exact ⟨⟨h1, h3⟩, rfl⟩

theorem shows_frame (h h' : Heap) (v : Val) (x : HVal) (hs : Shows h v x) (hq : ∀ q ∈ refs h v x, h'[q]? = h[q]?) :
    Shows h' v x ∧ refs h' v x = refs h v x := shows_frame_aux h h' v x hs hq

theorem showsAll_frame (h h' : Heap) : ∀ (vs : List Val) (ys : List HVal), ShowsAll h vs ys →
    (∀ q ∈ refsAll h vs ys, h'[q]? = h[q]?) → ShowsAll h' vs ys ∧ refsAll h' vs ys = refsAll h vs ys
  | [], ys, hy, _ => by rw [ShowsAll] at hy; subst hy; simp [ShowsAll, refsAll]
  | v :: vs, ys, hy, hq => by
    rw [ShowsAll] at hy
    obtain ⟨z, zs, rfl, hz, hzs⟩ := hy
    rw [refsAll] at hq
    obtain ⟨h1, h2⟩ := shows_frame h h' v z hz (fun q hm => hq q (List.mem_append_left _ hm))
    obtain ⟨h3, h4⟩ := showsAll_frame h h' vs zs hzs (fun q hm => hq q (List.mem_append_right _ hm))
    rw [ShowsAll_cons, refsAll, refsAll, h2, h4]
    exact ⟨⟨h1, h3⟩, rfl⟩

/-- Everything met is on the heap. -/
theorem refs_lt_aux (h : Heap) : ∀ (v : Val), ∀ x, Shows h v x → ∀ q ∈ refs h v x, q < h.length := by
  intro v
  apply Val.rec
    (motive_1 := fun v => ∀ x, Shows h v x → ∀ q ∈ refs h v x, q < h.length)
    (motive_2 := fun vs => ∀ ys, ShowsAll h vs ys → ∀ q ∈ refsAll h vs ys, q < h.length)
  · intro x hx q hq; simp [refs] at hq
  · intro n x hx q hq; simp [refs] at hq
  · intro s x hx q hq; simp [refs] at hq
  · intro xs ih x hx q hq
    rw [Shows] at hx
    obtain ⟨a, ys, rfl, ha, hall⟩ := hx
    rw [refs_list h xs a ys ha, List.mem_cons] at hq
    rcases hq with rfl | hq
    · exact (List.getElem?_eq_some_iff.1 ha).1
    · exact ih ys hall q hq
  · intro c fs ih x hx q hq
    rw [Shows] at hx
    obtain ⟨a, ys, rfl, ha, hall⟩ := hx
    rw [refs_obj h c fs a c ys ha, List.mem_cons] at hq
    rcases hq with rfl | hq
    · exact (List.getElem?_eq_some_iff.1 ha).1
    · exact ih ys hall q hq
  · intro ys hy q hq; simp [refsAll] at hq
  · intro v vs ih1 ih2 ys hy q hq
    rw [ShowsAll] at hy
    obtain ⟨z, zs, rfl, hz, hzs⟩ := hy
    rw [refsAll, List.mem_append] at hq
    rcases hq with hq | hq
    · exact ih1 z hz q hq
    · exact ih2 zs hzs q hq

theorem refs_lt (h : Heap) (v : Val) (x : HVal) (hs : Shows h v x) : ∀ q ∈ refs h v x, q < h.length := refs_lt_aux h v x hs

theorem refsAll_lt (h : Heap) : ∀ (vs : List Val) (ys : List HVal), ShowsAll h vs ys → ∀ q ∈ refsAll h vs ys, q < h.length
  | [], ys, hy, q, hq => by simp [refsAll] at hq
  | v :: vs, ys, hy, q, hq => by
    rw [ShowsAll] at hy
    obtain ⟨z, zs, rfl, hz, hzs⟩ := hy
    rw [refsAll, List.mem_append] at hq
    rcases hq with hq | hq
    · exact refs_lt h v z hz q hq
    · exact refsAll_lt h vs zs hzs q hq

/-- The objects met are the objects that can be reached. -/
theorem refs_iff_reach (h : Heap) (v : Val) : ∀ x, Shows h v x → ∀ q, q ∈ refs h v x ↔ Reach h x q := by
  apply Val.rec
    (motive_1 := fun v => ∀ x, Shows h v x → ∀ q, q ∈ refs h v x ↔ Reach h x q)
    (motive_2 := fun vs => ∀ ys, ShowsAll h vs ys → ∀ q, q ∈ refsAll h vs ys ↔ ∃ y ∈ ys, Reach h y q)
  · intro x hx q; rw [Shows] at hx; subst hx
    simp only [refs, List.not_mem_nil, false_iff]
    intro hr; cases hr
  · intro n x hx q; rw [Shows] at hx; subst hx
    simp only [refs, List.not_mem_nil, false_iff]
    intro hr; cases hr
  · intro s x hx q; rw [Shows] at hx; subst hx
    simp only [refs, List.not_mem_nil, false_iff]
    intro hr; cases hr
  · intro xs ih x hx q
    rw [Shows] at hx
    obtain ⟨a, ys, rfl, ha, hall⟩ := hx
    rw [refs_list h xs a ys ha, List.mem_cons, ih ys hall q]
    constructor
    · rintro (rfl | ⟨y, hy, hr⟩)
      · exact .here _
      · exact .step _ _ _ y ha hy hr
    · intro hr
      cases hr with
      | here => exact .inl rfl
      | step _ _ o y ho hy hr =>
        rw [ha] at ho
        obtain rfl := Option.some.inj ho
        exact .inr ⟨y, hy, hr⟩
  · intro c fs ih x hx q
    rw [Shows] at hx
    obtain ⟨a, ys, rfl, ha, hall⟩ := hx
    rw [refs_obj h c fs a c ys ha, List.mem_cons, ih ys hall q]
    constructor
    · rintro (rfl | ⟨y, hy, hr⟩)
      · exact .here _
      · exact .step _ _ _ y ha hy hr
    · intro hr
      cases hr with
      | here => exact .inl rfl
      | step _ _ o y ho hy hr =>
        rw [ha] at ho
        obtain rfl := Option.some.inj ho
        exact .inr ⟨y, hy, hr⟩
  · intro ys hy q; rw [ShowsAll] at hy; subst hy; simp [refsAll]
  · intro v vs ih1 ih2 ys hy q
    rw [ShowsAll] at hy
    obtain ⟨z, zs, rfl, hz, hzs⟩ := hy
    rw [refsAll, List.mem_append, ih1 z hz q, ih2 zs hzs q]
    simp

/-! ### Field updates -/

theorem Heap.field_msg (h : Heap) (r f : Nat) (c : Cls) (ys : List HVal) (hr : h[r]? = some (.msg c ys)) : h.field r f = ys[f]? := by
  simp only [Heap.field, hr]

theorem Heap.setField_msg (h : Heap) (r f : Nat) (c : Cls) (ys : List HVal) (y : HVal) (hr : h[r]? = some (.msg c ys)) :
    h.setField r f y = h.set r (.msg c (ys.set f y)) := by
  simp only [Heap.setField, hr]

theorem Heap.setField_length (h : Heap) (r f : Nat) (y : HVal) : (h.setField r f y).length = h.length := by
  simp only [Heap.setField]
  split <;> simp

theorem Heap.setField_ne (h : Heap) (r f q : Nat) (y : HVal) (hq : q ≠ r) : (h.setField r f y)[q]? = h[q]? := by
  simp only [Heap.setField]
  split
  · rw [List.getElem?_set_ne (Ne.symm hq)]
  · rfl

theorem Heap.setField_self (h : Heap) (r f : Nat) (c : Cls) (ys : List HVal) (y : HVal) (hr : h[r]? = some (.msg c ys)) :
    (h.setField r f y)[r]? = some (.msg c (ys.set f y)) := by
  rw [Heap.setField_msg h r f c ys y hr, List.getElem?_set_self (List.getElem?_eq_some_iff.1 hr).1]

/-- Split two lists of the same length at a position. -/
theorem split_at {α β : Type} (vs : List α) (ys : List β) (f : Nat) (hl : vs.length = ys.length) (v : α) (hv : vs[f]? = some v) :
    ∃ v1 v2 y1 y y2, vs = v1 ++ v :: v2 ∧ ys = y1 ++ y :: y2 ∧ v1.length = f ∧ y1.length = f ∧ v2.length = y2.length := by
  obtain ⟨hf, hv⟩ := List.getElem?_eq_some_iff.1 hv
  have hf' : f < ys.length := by omega
  refine ⟨vs.take f, vs.drop (f + 1), ys.take f, ys[f], ys.drop (f + 1), ?_, ?_, ?_, ?_, ?_⟩
  · rw [← hv, List.getElem_cons_drop, List.take_append_drop]
  · rw [List.getElem_cons_drop, List.take_append_drop]
  · rw [List.length_take]; omega
  · rw [List.length_take]; omega
  · rw [List.length_drop, List.length_drop]; omega

end FinProto
