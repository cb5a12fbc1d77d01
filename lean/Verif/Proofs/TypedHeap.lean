import Verif.Spec.TypedHeap
import Verif.Proofs.HeapBasic
import Verif.Proofs.EmptyText
/-
Helper lemmas on typed heaps: what assignments, list operations and new objects do.
-/
namespace FinProto

/-- Messages stay messages of their class. -/
def Keeps (h h' : Heap) : Prop := ∀ (r : Nat) c ys, h[r]? = some (.msg c ys) → ∃ ys', h'[r]? = some (.msg c ys')

theorem Keeps.refl (h : Heap) : Keeps h h := fun _ _ ys hr => ⟨ys, hr⟩

theorem Keeps.trans {h1 h2 h3 : Heap} (h12 : Keeps h1 h2) (h23 : Keeps h2 h3) : Keeps h1 h3 := by
  intro r c ys hr
  obtain ⟨ys', h'⟩ := h12 r c ys hr
  exact h23 r c ys' h'

theorem ElOf.keep {h h' : Heap} (hk : Keeps h h') {e : ElTy} {x : HVal} (hx : ElOf h e x) : ElOf h' e x := by
  cases hx with
  | null => exact .null _
  | num hn => exact .num hn
  | str s => exact .str s
  | obj hr => obtain ⟨ys', h1⟩ := hk _ _ _ hr; exact .obj h1

theorem ValOf.keep {h h' : Heap} (hk : Keeps h h') (ha : ∀ (a : Nat) xs, h[a]? = some (.arr xs) → h'[a]? = some (.arr xs)) {t : FTy} {x : HVal}
    (hx : ValOf h t x) : ValOf h' t x := by
  cases hx with
  | null hp => exact .null hp
  | num hn => exact .num hn
  | str s => exact .str s
  | list h1 h2 => exact .list (ha _ _ h1) fun x hx => (h2 x hx).keep hk
  | obj hr => obtain ⟨ys', h1⟩ := hk _ _ _ hr; exact .obj h1
  | codec hr => obtain ⟨ys', h1⟩ := hk _ _ _ hr; exact .codec h1

theorem ValOf.codec_keep {h h' : Heap} (hk : Keeps h h') {x : HVal} (hx : ValOf h .codec x) : ValOf h' .codec x := by
  cases hx with
  | null hp => exact .null hp
  | codec hr => obtain ⟨ys', h1⟩ := hk _ _ _ hr; exact .codec h1

theorem SupplierOf.keep {h h' : Heap} (hk : Keeps h h') {s : Supplier} (hs : SupplierOf h s) : SupplierOf h' s := by
  cases s with
  | make v => exact hs
  | give x => exact ValOf.codec_keep hk hs

theorem TypedSups.keep {h h' : Heap} (hk : Keeps h h') {sup : Suppliers} (hs : TypedSups h sup) : TypedSups h' sup :=
  fun fac key s h1 => (hs fac key s h1).keep hk

theorem TypedHeap.field {h : Heap} (ht : TypedHeap h) {r : Nat} {c : Cls} {ys : List HVal} (hr : h[r]? = some (.msg c ys)) {f : Nat} {t : FTy}
    (hf : (javaTypes c)[f]? = some t) : ∃ y, h.field r f = some y ∧ ys[f]? = some y ∧ ValOf h t y := by
  obtain ⟨h1, h2⟩ := ht.fields r c ys hr
  have hlt : f < ys.length := by
    rw [h1]; exact (List.getElem?_eq_some_iff.mp hf).1
  have hy : ys[f]? = some ys[f] := List.getElem?_eq_getElem hlt
  exact ⟨ys[f], by rw [Heap.field_msg h r f c ys hr, hy], hy, h2 f t _ hf hy⟩

/-! ### Assignments -/

theorem keeps_setField (h : Heap) (r f : Nat) (y : HVal) : Keeps h (h.setField r f y) := by
  intro q c ys hq
  by_cases hqr : q = r
  · subst hqr
    exact ⟨_, Heap.setField_self h q f c ys y hq⟩
  · exact ⟨ys, by rw [Heap.setField_ne h r f q y hqr, hq]⟩

theorem setField_arr (h : Heap) (r f : Nat) (y : HVal) (a : Nat) (xs : List HVal) (ha : h[a]? = some (.arr xs)) :
    (h.setField r f y)[a]? = some (.arr xs) := by
  by_cases har : a = r
  · subst har
    unfold Heap.setField
    rw [ha]
    exact ha
  · rw [Heap.setField_ne h r f a y har, ha]

theorem setField_back {h : Heap} {r : Nat} {c : Cls} {ys : List HVal} (hr : h[r]? = some (.msg c ys)) (f : Nat) (y : HVal) {q : Nat} {c' : Cls}
    {zs : List HVal} (hq : (h.setField r f y)[q]? = some (.msg c' zs)) :
    (q = r ∧ c' = c ∧ zs = ys.set f y) ∨ (q ≠ r ∧ h[q]? = some (.msg c' zs)) := by
  by_cases hqr : q = r
  · subst hqr
    rw [Heap.setField_self h q f c ys y hr] at hq
    simp only [Option.some.injEq, HObj.msg.injEq] at hq
    exact .inl ⟨rfl, hq.1.symm, hq.2.symm⟩
  · rw [Heap.setField_ne h r f q y hqr] at hq
    exact .inr ⟨hqr, hq⟩

theorem holds_setField {h : Heap} {r : Nat} {c : Cls} {ys : List HVal} (hr : h[r]? = some (.msg c ys)) {f : Nat} {t : FTy}
    (hf : (javaTypes c)[f]? = some t) {y : HVal} {a : Nat} {e : ElTy} (hh : Holds (h.setField r f y) a e) :
    Holds h a e ∨ (t = .list e ∧ y = .ref a) := by
  obtain ⟨q, c', zs, g, h1, h2, h3⟩ := hh
  rcases setField_back hr f y h1 with ⟨rfl, rfl, rfl⟩ | ⟨-, h4⟩
  · by_cases hg : g = f
    · subst hg
      rw [hf] at h2
      rw [List.getElem?_set] at h3
      simp only [if_true] at h3
      split at h3
      · simp only [Option.some.injEq] at h2 h3
        exact .inr ⟨h2, h3⟩
      · cases h3
    · rw [List.getElem?_set_ne (fun h => hg h.symm)] at h3
      exact .inl ⟨_, _, _, g, hr, h2, h3⟩
  · exact .inl ⟨_, _, _, g, h4, h2, h3⟩

theorem typed_setField {h : Heap} (ht : TypedHeap h) {r : Nat} {c : Cls} {ys : List HVal} (hr : h[r]? = some (.msg c ys)) {f : Nat} {t : FTy}
    (hf : (javaTypes c)[f]? = some t) {y : HVal} (hy : ValOf h t y)
    (hl : ∀ e a, t = .list e → y = .ref a → ∀ e', Holds h a e' → e' = e) : TypedHeap (h.setField r f y) := by
  have hk := keeps_setField h r f y
  have ha := setField_arr h r f y
  refine ⟨fun q c' zs hq => ?_, fun a e e' h1 h2 => ?_⟩
  · rcases setField_back hr f y hq with ⟨rfl, rfl, rfl⟩ | ⟨-, h4⟩
    · obtain ⟨h1, h2⟩ := ht.fields _ _ _ hr
      refine ⟨by rw [List.length_set, h1], fun g t' z hg hz => ?_⟩
      by_cases hgf : g = f
      · subst hgf
        rw [hf] at hg
        rw [List.getElem?_set] at hz
        simp only [if_true] at hz
        split at hz
        · simp only [Option.some.injEq] at hg hz
          rw [← hg, ← hz]
          exact hy.keep hk ha
        · cases hz
      · rw [List.getElem?_set_ne (fun h => hgf h.symm)] at hz
        exact (h2 g t' z hg hz).keep hk ha
    · obtain ⟨h1, h2⟩ := ht.fields _ _ _ h4
      exact ⟨h1, fun g t' z hg hz => (h2 g t' z hg hz).keep hk ha⟩
  · rcases holds_setField hr hf h1 with h1 | ⟨h1, h3⟩ <;> rcases holds_setField hr hf h2 with h2 | ⟨h2, h4⟩
    · exact ht.lists a e e' h1 h2
    · exact hl e' a h2 h4 e h1
    · exact (hl e a h1 h3 e' h2).symm
    · rw [h1] at h2
      simpa using h2

/-- Assignment of anything but a list. -/
theorem typed_assign {h : Heap} (ht : TypedHeap h) {r : Nat} {c : Cls} {ys : List HVal} (hr : h[r]? = some (.msg c ys)) {f : Nat} {t : FTy}
    (hf : (javaTypes c)[f]? = some t) {y : HVal} (hy : ValOf h t y) (hn : ∀ e, t ≠ .list e) : TypedHeap (h.setField r f y) :=
  typed_setField ht hr hf hy fun e _ he => absurd he (hn e)

/-! ### Lists -/

theorem set_arr_back {h : Heap} {a : Nat} {zs : List HVal} (ha : h[a]? = some (.arr zs)) (xs : List HVal) {q : Nat} {c : Cls} {ys : List HVal} :
    (h.set a (.arr xs))[q]? = some (.msg c ys) ↔ h[q]? = some (.msg c ys) := by
  by_cases hq : q = a
  · subst hq
    have hlt := (List.getElem?_eq_some_iff.mp ha).1
    rw [List.getElem?_set_self hlt, ha]
    simp
  · rw [List.getElem?_set_ne (fun h => hq h.symm)]

theorem keeps_arr {h : Heap} {a : Nat} {zs : List HVal} (ha : h[a]? = some (.arr zs)) (xs : List HVal) : Keeps h (h.set a (.arr xs)) :=
  fun _ _ ys hr => ⟨ys, (set_arr_back ha xs).mpr hr⟩

theorem typed_arr {h : Heap} (ht : TypedHeap h) {a : Nat} {zs : List HVal} (ha : h[a]? = some (.arr zs)) {xs : List HVal}
    (hx : ∀ e, Holds h a e → ∀ x ∈ xs, ElOf h e x) : TypedHeap (h.set a (.arr xs)) := by
  have hk := keeps_arr ha xs
  have hlt := (List.getElem?_eq_some_iff.mp ha).1
  have hh : ∀ b e, Holds (h.set a (.arr xs)) b e → Holds h b e := by
    rintro b e ⟨q, c, ys, f, h1, h2, h3⟩
    exact ⟨q, c, ys, f, (set_arr_back ha xs).mp h1, h2, h3⟩
  refine ⟨fun q c ys hq => ?_, fun b e e' h1 h2 => ht.lists b e e' (hh b e h1) (hh b e' h2)⟩
  have hq' := (set_arr_back ha xs).mp hq
  obtain ⟨h1, h2⟩ := ht.fields q c ys hq'
  refine ⟨h1, fun f t y hf hy => ?_⟩
  have hv := h2 f t y hf hy
  cases hv with
  | null hp => exact .null hp
  | num hn => exact .num hn
  | str s => exact .str s
  | @list b e us h3 h4 =>
    by_cases hb : b = a
    · subst hb
      exact .list (List.getElem?_set_self hlt) fun x hx' => (hx e ⟨q, c, ys, f, hq', hf, hy⟩ x hx').keep hk
    · exact .list (by rw [List.getElem?_set_ne (fun h => hb h.symm)]; exact h3) fun x hx => (h4 x hx).keep hk
  | obj hr => obtain ⟨ys', h1⟩ := hk _ _ _ hr; exact .obj h1
  | codec hr => obtain ⟨ys', h1⟩ := hk _ _ _ hr; exact .codec h1

/-- `this.F.add(y)`. -/
theorem typed_hadd {h : Heap} (ht : TypedHeap h) {r : Nat} {c : Cls} {ys : List HVal} (hr : h[r]? = some (.msg c ys)) {f : Nat} {e : ElTy}
    (hf : (javaTypes c)[f]? = some (.list e)) {y : HVal} (hy : ElOf h e y) :
    TypedHeap (hadd h r f y).1 ∧ Keeps h (hadd h r f y).1 ∧ ((hadd h r f y).2 = none ∨ (hadd h r f y).2 = some .nullPointer) := by
  obtain ⟨x, h1, h2, h3⟩ := ht.field hr hf
  unfold hadd
  rw [h1]
  cases h3 with
  | null hp => exact ⟨ht, .refl h, .inr rfl⟩
  | @list a _ xs ha hx =>
    simp only [ha]
    refine ⟨typed_arr ht ha fun e' he' z hz => ?_, keeps_arr ha _, .inl trivial⟩
    rw [ht.lists a e' e he' ⟨r, c, ys, f, hr, hf, h2⟩]
    rcases List.mem_append.mp hz with hz | hz
    · exact hx z hz
    · rw [List.mem_singleton.mp hz]; exact hy

/-! ### New objects -/

theorem keeps_append (h k : Heap) : Keeps h (h ++ k) := by
  intro r c ys hr
  exact ⟨ys, by rw [List.getElem?_append_left (List.getElem?_eq_some_iff.mp hr).1]; exact hr⟩

theorem append_arr_keep (h k : Heap) (a : Nat) (xs : List HVal) (ha : h[a]? = some (.arr xs)) : (h ++ k)[a]? = some (.arr xs) := by
  rw [List.getElem?_append_left (List.getElem?_eq_some_iff.mp ha).1]; exact ha

/-- Lists that are held exist. -/
theorem Holds.lt {h : Heap} (ht : TypedHeap h) {a : Nat} {e : ElTy} (hh : Holds h a e) : a < h.length := by
  obtain ⟨r, c, ys, f, h1, h2, h3⟩ := hh
  have := (ht.fields r c ys h1).2 f _ _ h2 h3
  cases this with
  | list ha _ => exact (List.getElem?_eq_some_iff.mp ha).1

theorem holds_append_arr {h : Heap} {xs : List HVal} {a : Nat} {e : ElTy} (hh : Holds (h ++ [.arr xs]) a e) : Holds h a e := by
  obtain ⟨r, c, ys, f, h1, h2, h3⟩ := hh
  refine ⟨r, c, ys, f, ?_, h2, h3⟩
  by_cases hr : r < h.length
  · rwa [List.getElem?_append_left hr] at h1
  · rw [List.getElem?_append_right (by omega)] at h1
    rcases hk : r - h.length with _ | k <;> rw [hk] at h1 <;> simp at h1

theorem typed_append_arr {h : Heap} (ht : TypedHeap h) (xs : List HVal) : TypedHeap (h ++ [.arr xs]) := by
  refine ⟨fun r c ys hr => ?_, fun a e e' h1 h2 => ht.lists a e e' (holds_append_arr h1) (holds_append_arr h2)⟩
  by_cases hlt : r < h.length
  · rw [List.getElem?_append_left hlt] at hr
    obtain ⟨h1, h2⟩ := ht.fields r c ys hr
    exact ⟨h1, fun f t y hf hy => (h2 f t y hf hy).keep (keeps_append _ _) (append_arr_keep _ _)⟩
  · rw [List.getElem?_append_right (by omega)] at hr
    rcases hk : r - h.length with _ | k <;> rw [hk] at hr <;> simp at hr

theorem holds_append_msg {h : Heap} {c : Cls} {ys : List HVal} {a : Nat} {e : ElTy} (hh : Holds (h ++ [.msg c ys]) a e) :
    Holds h a e ∨ ∃ f : Nat, (javaTypes c)[f]? = some (.list e) ∧ ys[f]? = some (.ref a) := by
  obtain ⟨r, c', zs, f, h1, h2, h3⟩ := hh
  by_cases hr : r < h.length
  · rw [List.getElem?_append_left hr] at h1
    exact .inl ⟨r, c', zs, f, h1, h2, h3⟩
  · rw [List.getElem?_append_right (by omega)] at h1
    rcases hk : r - h.length with _ | k <;> rw [hk] at h1
    · simp only [List.getElem?_cons_zero, Option.some.injEq, HObj.msg.injEq] at h1
      rw [← h1.1] at h2
      rw [← h1.2] at h3
      exact .inr ⟨f, h2, h3⟩
    · simp at h1

theorem typed_append_msg {h : Heap} (ht : TypedHeap h) {c : Cls} {ys : List HVal} (hlen : ys.length = (javaTypes c).length)
    (hv : ∀ (f : Nat) t y, (javaTypes c)[f]? = some t → ys[f]? = some y → ValOf h t y)
    (hnew : ∀ (f : Nat) e a, (javaTypes c)[f]? = some (.list e) → ys[f]? = some (.ref a) → ∀ e', ¬ Holds h a e')
    (hdis : ∀ (f g : Nat) a, ys[f]? = some (.ref a) → ys[g]? = some (.ref a) → f = g) : TypedHeap (h ++ [.msg c ys]) := by
  refine ⟨fun r c' zs hr => ?_, fun a e e' h1 h2 => ?_⟩
  · by_cases hlt : r < h.length
    · rw [List.getElem?_append_left hlt] at hr
      obtain ⟨h1, h2⟩ := ht.fields r c' zs hr
      exact ⟨h1, fun f t y hf hy => (h2 f t y hf hy).keep (keeps_append _ _) (append_arr_keep _ _)⟩
    · rw [List.getElem?_append_right (by omega)] at hr
      rcases hk : r - h.length with _ | k <;> rw [hk] at hr
      · simp only [List.getElem?_cons_zero, Option.some.injEq, HObj.msg.injEq] at hr
        obtain ⟨rfl, rfl⟩ := hr
        exact ⟨hlen, fun f t y hf hy => (hv f t y hf hy).keep (keeps_append _ _) (append_arr_keep _ _)⟩
      · simp at hr
  · rcases holds_append_msg h1 with h1 | ⟨f, h1, h3⟩ <;> rcases holds_append_msg h2 with h2 | ⟨g, h2, h4⟩
    · exact ht.lists a e e' h1 h2
    · exact absurd h1 (hnew g e' a h2 h4 e)
    · exact absurd h2 (hnew f e a h1 h3 e')
    · have := hdis f g a h3 h4
      subst this
      rw [h1] at h2
      simpa using h2

theorem newMsg_get (c : Cls) (f : Nat) (y : HVal) (hy : ((decl c).fields.map fun f => f.2.hdefault)[f]? = some y) :
    ∃ t, (javaTypes c)[f]? = some t ∧ y = t.hdefault := by
  rw [List.getElem?_map] at hy
  rcases hg : (decl c).fields[f]? with _ | g <;> rw [hg] at hy
  · simp at hy
  · simp only [Option.map_some, Option.some.injEq] at hy
    exact ⟨g.2, by rw [javaTypes, List.getElem?_map, hg]; rfl, hy.symm⟩

theorem hdefault_ref (t : FTy) (a : Nat) : t.hdefault ≠ .ref a := by cases t <;> simp [FTy.hdefault]

theorem hdefault_of (h : Heap) (t : FTy) : ValOf h t t.hdefault := by
  cases t with
  | prim p => exact .num rfl
  | _ => exact .null (by simp)

theorem typed_new {h : Heap} (ht : TypedHeap h) (c : Cls) : TypedHeap (h ++ [newMsg c]) := by
  refine typed_append_msg ht (by simp [javaTypes]) (fun f t y hf hy => ?_) (fun f e a hf hy => ?_) (fun f g a hf _ => ?_)
  · obtain ⟨t', h1, h2⟩ := newMsg_get c f y hy
    rw [hf] at h1
    simp only [Option.some.injEq] at h1
    rw [h2, ← h1]; exact hdefault_of h t
  · obtain ⟨t', h1, h2⟩ := newMsg_get c f _ hy
    exact absurd h2.symm (hdefault_ref t' a)
  · obtain ⟨t', h1, h2⟩ := newMsg_get c f _ hf
    exact absurd h2.symm (hdefault_ref t' a)

theorem append_last (h : Heap) (o : HObj) : (h ++ [o])[h.length]? = some o := by simp

/-- `this.F = new ArrayList<>()`. -/
theorem typed_newList {h : Heap} (ht : TypedHeap h) {r : Nat} {c : Cls} {ys : List HVal} (hr : h[r]? = some (.msg c ys)) {f : Nat} {e : ElTy}
    (hf : (javaTypes c)[f]? = some (.list e)) : TypedHeap (Heap.setField (h ++ [.arr []]) r f (.ref h.length)) := by
  have h1 := typed_append_arr ht []
  refine typed_setField h1 (c := c) (ys := ys) ?_ hf (.list (append_last h _) (by simp)) ?_
  · rw [List.getElem?_append_left (List.getElem?_eq_some_iff.mp hr).1]; exact hr
  · intro e' a _ ha e'' hh
    have := (holds_append_arr hh).lt ht
    simp only [HVal.ref.injEq] at ha
    omega

/-- `this.F = new C()`. -/
theorem typed_newObj {h : Heap} (ht : TypedHeap h) {r : Nat} {c : Cls} {ys : List HVal} (hr : h[r]? = some (.msg c ys)) {f : Nat} {d : Cls}
    (hf : (javaTypes c)[f]? = some (.obj d)) : TypedHeap (Heap.setField (h ++ [newMsg d]) r f (.ref h.length)) := by
  refine typed_assign (typed_new ht d) (c := c) (ys := ys) ?_ hf (.obj (append_last h _)) (by simp)
  rw [List.getElem?_append_left (List.getElem?_eq_some_iff.mp hr).1]; exact hr

/-! ### Suppliers that build objects -/

/-- Building `v` puts new objects at the end; the value refers only to them. -/
structure Builds (h h' : Heap) (xs : List HVal) : Prop where
  old : ∃ k, h' = h ++ k
  typed : TypedHeap h'
  holds : ∀ a e, a < h.length → Holds h' a e → Holds h a e
  refs : ∀ a, .ref a ∈ xs → h.length ≤ a ∧ a < h'.length
  free : ∀ a e, .ref a ∈ xs → ¬ Holds h' a e
  dis : ∀ (f g : Nat) a, xs[f]? = some (.ref a) → xs[g]? = some (.ref a) → f = g

theorem Builds.none {h : Heap} (ht : TypedHeap h) (x : HVal) (hx : ∀ a, x ≠ .ref a) : Builds h h [x] :=
  ⟨⟨[], by simp⟩, ht, fun _ _ _ hh => hh, fun a ha => absurd (List.mem_singleton.mp ha).symm (hx a), fun a _ ha => absurd (List.mem_singleton.mp ha).symm (hx a),
    fun f g a hf _ => by
      rcases f with _ | f
      · simp only [List.getElem?_cons_zero, Option.some.injEq] at hf; exact absurd hf (hx a)
      · simp at hf⟩

theorem Builds.cons {h h1 h2 : Heap} {x : HVal} {xs : List HVal} (b1 : Builds h h1 [x]) (b2 : Builds h1 h2 xs) : Builds h h2 (x :: xs) := by
  obtain ⟨k1, e1⟩ := b1.old
  obtain ⟨k2, e2⟩ := b2.old
  have l1 : h.length ≤ h1.length := by rw [e1]; simp
  have l2 : h1.length ≤ h2.length := by rw [e2]; simp
  refine ⟨⟨k1 ++ k2, by rw [e2, e1, List.append_assoc]⟩, b2.typed, fun a e ha hh => b1.holds a e ha (b2.holds a e (by omega) hh), fun a ha => ?_, fun a e ha => ?_,
    fun f g a hf hg => ?_⟩
  · rcases List.mem_cons.mp ha with ha | ha
    · have := b1.refs a (List.mem_singleton.mpr ha)
      omega
    · have := b2.refs a ha
      omega
  · rcases List.mem_cons.mp ha with ha | ha
    · have hm := List.mem_singleton.mpr ha
      exact fun hh => b1.free a e hm (b2.holds a e (b1.refs a hm).2 hh)
    · exact b2.free a e ha
  · rcases f with _ | f <;> rcases g with _ | g
    · rfl
    · simp only [List.getElem?_cons_zero, List.getElem?_cons_succ, Option.some.injEq] at hf hg
      have := (b1.refs a (List.mem_singleton.mpr hf.symm)).2
      have := (b2.refs a (List.mem_of_getElem? hg)).1
      omega
    · simp only [List.getElem?_cons_zero, List.getElem?_cons_succ, Option.some.injEq] at hf hg
      have := (b1.refs a (List.mem_singleton.mpr hg.symm)).2
      have := (b2.refs a (List.mem_of_getElem? hf)).1
      omega
    · simp only [List.getElem?_cons_succ] at hf hg
      rw [b2.dis f g a hf hg]

theorem Builds.keep {h h' : Heap} {xs : List HVal} (b : Builds h h' xs) {t : FTy} {x : HVal} (hx : ValOf h t x) : ValOf h' t x := by
  obtain ⟨k, rfl⟩ := b.old
  exact hx.keep (keeps_append _ _) (append_arr_keep _ _)

theorem Builds.keepEl {h h' : Heap} {xs : List HVal} (b : Builds h h' xs) {e : ElTy} {x : HVal} (hx : ElOf h e x) : ElOf h' e x := by
  obtain ⟨k, rfl⟩ := b.old
  exact hx.keep (keeps_append _ _)

/-- After the parts: the list. -/
theorem Builds.arr {h h' : Heap} {xs : List HVal} (b : Builds h h' xs) : Builds h (h' ++ [.arr xs]) [.ref h'.length] := by
  obtain ⟨k, e⟩ := b.old
  have hl : h.length ≤ h'.length := by rw [e]; simp
  refine ⟨⟨k ++ [.arr xs], by rw [e, List.append_assoc]⟩, typed_append_arr b.typed xs, fun a e ha hh => b.holds a e ha (holds_append_arr hh), fun a ha => ?_,
    fun a e ha hh => ?_, fun f g a hf hg => ?_⟩
  · have := List.mem_singleton.mp ha
    simp only [HVal.ref.injEq] at this
    simp only [List.length_append, List.length_singleton]
    omega
  · have := List.mem_singleton.mp ha
    simp only [HVal.ref.injEq] at this
    have := (holds_append_arr hh).lt b.typed
    omega
  · have := (List.getElem?_eq_some_iff.mp hf).1
    have := (List.getElem?_eq_some_iff.mp hg).1
    simp only [List.length_singleton] at *
    omega

/-- After the parts: the message. -/
theorem Builds.msg {h h' : Heap} {ys : List HVal} (b : Builds h h' ys) {c : Cls} (hlen : ys.length = (javaTypes c).length)
    (hv : ∀ (f : Nat) t y, (javaTypes c)[f]? = some t → ys[f]? = some y → ValOf h' t y) : Builds h (h' ++ [.msg c ys]) [.ref h'.length] := by
  obtain ⟨k, e⟩ := b.old
  have hl : h.length ≤ h'.length := by rw [e]; simp
  have ht := typed_append_msg b.typed hlen hv (fun f e a _ hy e' => b.free a e' (List.mem_of_getElem? hy)) b.dis
  refine ⟨⟨k ++ [.msg c ys], by rw [e, List.append_assoc]⟩, ht, fun a e ha hh => ?_, fun a ha => ?_, fun a e ha hh => ?_, fun f g a hf hg => ?_⟩
  · rcases holds_append_msg hh with hh | ⟨f, -, hf⟩
    · exact b.holds a e ha hh
    · have := (b.refs a (List.mem_of_getElem? hf)).1
      omega
  · have := List.mem_singleton.mp ha
    simp only [HVal.ref.injEq] at this
    simp only [List.length_append, List.length_singleton]
    omega
  · have := List.mem_singleton.mp ha
    simp only [HVal.ref.injEq] at this
    rcases holds_append_msg hh with hh | ⟨f, -, hf⟩
    · have := hh.lt b.typed
      omega
    · have := (b.refs a (List.mem_of_getElem? hf)).2
      omega
  · have := (List.getElem?_eq_some_iff.mp hf).1
    have := (List.getElem?_eq_some_iff.mp hg).1
    simp only [List.length_singleton] at *
    omega

theorem alloc_builds (v : Val) : ∀ h : Heap, TypedHeap h →
    (∀ t, hasType t v = true → Builds h (alloc v h).1 [(alloc v h).2] ∧ ValOf (alloc v h).1 t (alloc v h).2)
    ∧ (∀ e, elemHasType e v = true → Builds h (alloc v h).1 [(alloc v h).2] ∧ ElOf (alloc v h).1 e (alloc v h).2) := by
  induction v using Val.rec
    (motive_2 := fun vs => ∀ h : Heap, TypedHeap h →
      (∀ ts, fieldsHaveType ts vs = true → Builds h (allocAll vs h).1 (allocAll vs h).2 ∧ (allocAll vs h).2.length = ts.length
        ∧ ∀ (f : Nat) t y, ts[f]? = some t → (allocAll vs h).2[f]? = some y → ValOf (allocAll vs h).1 t y)
      ∧ (∀ e, elemsHaveType e vs = true → Builds h (allocAll vs h).1 (allocAll vs h).2 ∧ ∀ x ∈ (allocAll vs h).2, ElOf (allocAll vs h).1 e x)) with
  | null =>
    intro h ht
    refine ⟨fun t hv => ⟨.none ht _ (by simp [alloc]), .null ?_⟩, fun e _ => ⟨.none ht _ (by simp [alloc]), .null e⟩⟩
    intro p hp
    rw [hp] at hv
    simp [hasType] at hv
  | num k =>
    intro h ht
    refine ⟨fun t hv => ?_, fun e hv => ?_⟩
    · cases t <;> simp [hasType] at hv
      exact ⟨.none ht _ (by simp [alloc]), .num hv⟩
    · cases e <;> simp [elemHasType] at hv
      exact ⟨.none ht _ (by simp [alloc]), .num hv⟩
  | str s =>
    intro h ht
    refine ⟨fun t hv => ?_, fun e hv => ?_⟩
    · cases t <;> simp [hasType] at hv
      exact ⟨.none ht _ (by simp [alloc]), .str s⟩
    · cases e <;> simp [elemHasType] at hv
      exact ⟨.none ht _ (by simp [alloc]), .str s⟩
  | list xs ih =>
    intro h ht
    refine ⟨fun t hv => ?_, fun e hv => by simp [elemHasType] at hv⟩
    cases t <;> simp [hasType] at hv
    obtain ⟨h1, h2⟩ := (ih h ht).2 _ hv
    exact ⟨h1.arr, .list (append_last _ _) fun x hx => (h2 x hx).keep (keeps_append _ _)⟩
  | obj c fs ih =>
    intro h ht
    have key : fieldsHaveType (javaTypes c) fs = true → Builds h (alloc (.obj c fs) h).1 [(alloc (.obj c fs) h).2] := by
      intro hv
      obtain ⟨h1, h2, h3⟩ := (ih h ht).1 _ hv
      exact h1.msg h2 h3
    refine ⟨fun t hv => ?_, fun e hv => ?_⟩
    · simp only [hasType, Bool.and_eq_true] at hv
      refine ⟨key hv.2, ?_⟩
      cases t with
      | obj d =>
        have := of_decide_eq_true hv.1
        subst this
        exact .obj (append_last _ _)
      | codec => exact .codec (append_last _ _)
      | _ => simp at hv
    · simp only [elemHasType, Bool.and_eq_true] at hv
      refine ⟨key hv.2, ?_⟩
      cases e with
      | obj d =>
        have := of_decide_eq_true hv.1
        subst this
        exact .obj (append_last _ _)
      | _ => simp at hv
  | nil =>
    rename_i h ht
    have hb : Builds h h [] := ⟨⟨[], by simp⟩, ht, fun _ _ _ hh => hh, by simp, by simp, by simp⟩
    refine ⟨fun ts hv => ⟨hb, ?_, by simp [allocAll]⟩, fun e _ => ⟨hb, by simp [allocAll]⟩⟩
    cases ts <;> simp [fieldsHaveType] at hv
    rfl
  | cons v vs ihv ihs =>
    rename_i h ht
    refine ⟨fun ts hv => ?_, fun e hv => ?_⟩
    · cases ts with
      | nil => simp [fieldsHaveType] at hv
      | cons t ts =>
        simp only [fieldsHaveType, Bool.and_eq_true] at hv
        obtain ⟨h1, h2⟩ := (ihv h ht).1 t hv.1
        obtain ⟨h3, h4, h5⟩ := (ihs _ h1.typed).1 ts hv.2
        refine ⟨h1.cons h3, by simp [allocAll, h4], fun f t' y hf hy => ?_⟩
        rcases f with _ | f
        · simp only [List.getElem?_cons_zero, Option.some.injEq, allocAll] at hf hy
          rw [← hf, ← hy]
          exact h3.keep h2
        · simp only [List.getElem?_cons_succ, allocAll] at hf hy
          exact h5 f t' y hf hy
    · simp only [elemsHaveType, Bool.and_eq_true] at hv
      obtain ⟨h1, h2⟩ := (ihv h ht).2 e hv.1
      obtain ⟨h3, h4⟩ := (ihs _ h1.typed).2 e hv.2
      refine ⟨h1.cons h3, fun x hx => ?_⟩
      rcases List.mem_cons.mp hx with hx | hx
      · rw [hx]; exact h3.keepEl h2
      · exact h4 x hx

/-- `this.F = Factory.getInstance().create(key)`. -/
theorem typed_create {h : Heap} (ht : TypedHeap h) {r : Nat} {c : Cls} {ys : List HVal} (hr : h[r]? = some (.msg c ys)) {f : Nat}
    (hf : (javaTypes c)[f]? = some .codec) {s : Supplier} (hs : SupplierOf h s) : TypedHeap (hcreate h r f s) ∧ Keeps h (hcreate h r f s) := by
  cases s with
  | give x => exact ⟨typed_assign ht hr hf hs (by simp), keeps_setField _ _ _ _⟩
  | make v =>
    have hv : hasType .codec v = true := by
      rcases hs with rfl | hw
      · rfl
      · cases v <;> simp [wellTyped] at hw
        exact hw
    obtain ⟨h1, h2⟩ := (alloc_builds v h ht).1 .codec hv
    obtain ⟨k, hk⟩ := h1.old
    have hr' : (alloc v h).1[r]? = some (.msg c ys) := by
      rw [hk, List.getElem?_append_left (List.getElem?_eq_some_iff.mp hr).1]; exact hr
    refine ⟨typed_assign h1.typed hr' hf h2 (by simp), Keeps.trans ?_ (keeps_setField _ _ _ _)⟩
    rw [hk]; exact keeps_append _ _

end FinProto
