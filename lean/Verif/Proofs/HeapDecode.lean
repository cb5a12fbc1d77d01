import Verif.Proofs.HeapBasic
/-
Helper lemmas: `decode` on the heap does to an object without internal sharing what `decode` does to the value it shows.
-/
namespace FinProto

theorem parts_obj (h : Heap) (c : Cls) (fs : List Val) (r : Nat) (c' : Cls) (ys : List HVal) (hr : h[r]? = some (.msg c' ys)) :
    parts h (.obj c fs) (.ref r) = r :: partsAll h fs ys := by
  simp only [parts, hr]

theorem partsAll_append (h : Heap) : ∀ (vs vs' : List Val) (ys ys' : List HVal), vs.length = ys.length →
    partsAll h (vs ++ vs') (ys ++ ys') = partsAll h vs ys ++ partsAll h vs' ys'
  | [], vs', ys, ys', hl => by
    cases ys with
    | nil => simp [partsAll]
    | cons y ys => simp at hl
  | v :: vs, vs', ys, ys', hl => by
    cases ys with
    | nil => simp at hl
    | cons y ys =>
      have ih := partsAll_append h vs vs' ys ys' (by simpa using hl)
      simp only [List.cons_append, partsAll, ih, List.append_assoc]

theorem parts_sub_aux (h : Heap) (v : Val) : ∀ x, Shows h v x → ∀ q ∈ parts h v x, q ∈ refs h v x := by
  apply Val.rec
    (motive_1 := fun v => ∀ x, Shows h v x → ∀ q ∈ parts h v x, q ∈ refs h v x)
    (motive_2 := fun vs => ∀ ys, ShowsAll h vs ys → ∀ q ∈ partsAll h vs ys, q ∈ refsAll h vs ys)
  · intro x hx q hq; simp [parts] at hq
  · intro n x hx q hq; simp [parts] at hq
  · intro s x hx q hq; simp [parts] at hq
  · intro xs ih x hx q hq; simp [parts] at hq
  · intro c fs ih x hx q hq
    rw [Shows] at hx
    obtain ⟨a, ys, rfl, ha, hall⟩ := hx
    rw [parts_obj h c fs a c ys ha, List.mem_cons] at hq
    rw [refs_obj h c fs a c ys ha, List.mem_cons]
    exact hq.imp id (ih ys hall q)
  · intro ys hy q hq; simp [partsAll] at hq
  · intro v vs ih1 ih2 ys hy q hq
    rw [ShowsAll] at hy
    obtain ⟨z, zs, rfl, hz, hzs⟩ := hy
    rw [partsAll, List.mem_append] at hq
    rw [refsAll, List.mem_append]
    exact hq.imp (ih1 z hz q) (ih2 zs hzs q)

theorem parts_sub (h : Heap) (v : Val) (x : HVal) (hs : Shows h v x) : ∀ q ∈ parts h v x, q ∈ refs h v x := parts_sub_aux h v x hs

theorem parts_frame_aux (h h' : Heap) (v : Val) : ∀ x, Shows h v x → (∀ q ∈ refs h v x, h'[q]? = h[q]?) → parts h' v x = parts h v x := by
  apply Val.rec
    (motive_1 := fun v => ∀ x, Shows h v x → (∀ q ∈ refs h v x, h'[q]? = h[q]?) → parts h' v x = parts h v x)
    (motive_2 := fun vs => ∀ ys, ShowsAll h vs ys → (∀ q ∈ refsAll h vs ys, h'[q]? = h[q]?) → partsAll h' vs ys = partsAll h vs ys)
  · intro x hx hq; simp [parts]
  · intro n x hx hq; simp [parts]
  · intro s x hx hq; simp [parts]
  · intro xs ih x hx hq; simp [parts]
  · intro c fs ih x hx hq
    rw [Shows] at hx
    obtain ⟨a, ys, rfl, ha, hall⟩ := hx
    rw [refs_obj h c fs a c ys ha] at hq
    have ha' : h'[a]? = some (.msg c ys) := by rw [hq a (List.mem_cons_self ..), ha]
    rw [parts_obj h c fs a c ys ha, parts_obj h' c fs a c ys ha', ih ys hall (fun q hm => hq q (List.mem_cons_of_mem _ hm))]
  · intro ys hy hq; simp [partsAll]
  · intro v vs ih1 ih2 ys hy hq
    rw [ShowsAll] at hy
    obtain ⟨z, zs, rfl, hz, hzs⟩ := hy
    rw [refsAll] at hq
    rw [partsAll, partsAll, ih1 z hz (fun q hm => hq q (List.mem_append_left _ hm)),
      ih2 zs hzs (fun q hm => hq q (List.mem_append_right _ hm))]

theorem partsAll_frame (h h' : Heap) : ∀ (vs : List Val) (ys : List HVal), ShowsAll h vs ys →
    (∀ q ∈ refsAll h vs ys, h'[q]? = h[q]?) → partsAll h' vs ys = partsAll h vs ys
  | [], ys, hy, _ => by simp [partsAll]
  | v :: vs, ys, hy, hq => by
    rw [ShowsAll] at hy
    obtain ⟨z, zs, rfl, hz, hzs⟩ := hy
    rw [refsAll] at hq
    rw [partsAll, partsAll, parts_frame_aux h h' v z hz (fun q hm => hq q (List.mem_append_left _ hm)),
      partsAll_frame h h' vs zs hzs (fun q hm => hq q (List.mem_append_right _ hm))]

/-- From showing `v` at `x` to showing `v'` at `x'`, with new objects only. -/
structure Grow (h : Heap) (v : Val) (x : HVal) (h' : Heap) (v' : Val) (x' : HVal) : Prop where
  own : Unshared h' v' x'
  len : h.length ≤ h'.length
  sub : ∀ q ∈ refs h' v' x', q ∈ refs h v x ∨ h.length ≤ q
  psub : ∀ q ∈ parts h' v' x', q ∈ parts h v x ∨ h.length ≤ q

/-- The objects of `h` outside `S` are unchanged in `h'`. -/
def Keep (h : Heap) (S : List Nat) (h' : Heap) : Prop := ∀ q < h.length, q ∉ S → h'[q]? = h[q]?

theorem Grow.refl {h : Heap} {v : Val} {x : HVal} (ho : Unshared h v x) : Grow h v x h v x :=
  ⟨ho, Nat.le_refl _, fun _ hq => .inl hq, fun _ hq => .inl hq⟩

theorem Grow.trans {h1 h2 h3 : Heap} {v1 v2 v3 : Val} {x1 x2 x3 : HVal} (a : Grow h1 v1 x1 h2 v2 x2) (b : Grow h2 v2 x2 h3 v3 x3) :
    Grow h1 v1 x1 h3 v3 x3 := by
  refine ⟨b.own, Nat.le_trans a.len b.len, fun q hq => ?_, fun q hq => ?_⟩
  · rcases b.sub q hq with h | h
    · exact a.sub q h
    · exact .inr (Nat.le_trans a.len h)
  · rcases b.psub q hq with h | h
    · exact a.psub q h
    · exact .inr (Nat.le_trans a.len h)

theorem Keep.refl (h : Heap) (S : List Nat) : Keep h S h := fun _ _ _ => rfl

theorem Keep.trans {h1 h2 h3 : Heap} {S T : List Nat} (a : Keep h1 S h2) (b : Keep h2 T h3) (hlen : h1.length ≤ h2.length)
    (hT : ∀ q ∈ T, q ∈ S ∨ h1.length ≤ q) : Keep h1 S h3 := by
  intro q hq hS
  rw [b q (by omega) (fun hT' => ?_), a q hq hS]
  rcases hT q hT' with h | h
  · exact hS h
  · omega

theorem unshared_obj (h : Heap) (c : Cls) (fs : List Val) (r : Nat) (ho : Unshared h (.obj c fs) (.ref r)) :
    ∃ ys, h[r]? = some (.msg c ys) ∧ ShowsAll h fs ys ∧ (r :: refsAll h fs ys).Nodup := by
  obtain ⟨hs, hn⟩ := ho
  rw [Shows] at hs
  obtain ⟨r', ys, hx, hr, hall⟩ := hs
  cases hx
  rw [refs_obj h c fs r c ys hr] at hn
  exact ⟨ys, hr, hall, hn⟩

theorem unshared_obj_mk (h : Heap) (c : Cls) (fs : List Val) (r : Nat) (ys : List HVal) (hr : h[r]? = some (.msg c ys))
    (hs : ShowsAll h fs ys) (hn : (r :: refsAll h fs ys).Nodup) : Unshared h (.obj c fs) (.ref r) := by
  refine ⟨?_, ?_⟩
  · rw [Shows]; exact ⟨r, ys, rfl, hr, hs⟩
  · rw [refs_obj h c fs r c ys hr]; exact hn

/-- One field of an object without sharing is an object without sharing. -/
theorem unshared_field (h : Heap) (c : Cls) (fs : List Val) (r f : Nat) (v : Val) (ho : Unshared h (.obj c fs) (.ref r))
    (hv : fs[f]? = some v) : ∃ y, h.field r f = some y ∧ Unshared h v y ∧ r ∉ refs h v y
      ∧ (∀ q ∈ refs h v y, q ∈ refs h (.obj c fs) (.ref r)) ∧ (∀ q ∈ parts h v y, q ∈ parts h (.obj c fs) (.ref r)) := by
  obtain ⟨ys, hr, hs, hn⟩ := unshared_obj h c fs r ho
  obtain ⟨v1, v2, y1, y, y2, rfl, rfl, hf1, hf2, hl⟩ := split_at fs ys f (ShowsAll_length h fs ys hs) v hv
  have h12 : v1.length = y1.length := by omega
  rw [Heap.field_msg h r f c _ hr, refs_obj h c _ r c _ hr, parts_obj h c _ r c _ hr]
  rw [refsAll_append h _ _ _ _ h12, refsAll] at hn ⊢
  rw [partsAll_append h _ _ _ _ h12, partsAll]
  rw [ShowsAll_append h _ _ _ _ h12, ShowsAll_cons] at hs
  refine ⟨y, ?_, ⟨hs.2.1, ?_⟩, ?_, ?_, ?_⟩
  · rw [← hf2]; simp
  · exact ((List.nodup_append.1 (List.nodup_append.1 (List.nodup_cons.1 hn).2).2.1).1)
  · intro hm
    exact (List.nodup_cons.1 hn).1 (List.mem_append_right _ (List.mem_append_left _ hm))
  · intro q hq
    exact List.mem_cons_of_mem _ (List.mem_append_right _ (List.mem_append_left _ hq))
  · intro q hq
    exact List.mem_cons_of_mem _ (List.mem_append_right _ (List.mem_append_left _ hq))

theorem field_none (h : Heap) (c : Cls) (fs : List Val) (r f : Nat) (ho : Unshared h (.obj c fs) (.ref r)) (hv : fs[f]? = none) :
    h.field r f = none := by
  obtain ⟨ys, hr, hs, hn⟩ := unshared_obj h c fs r ho
  rw [Heap.field_msg h r f c _ hr]
  have := ShowsAll_length h fs ys hs
  rw [List.getElem?_eq_none_iff] at hv ⊢
  omega

/-- Replacing the value of one field by a value without sharing. -/
theorem grow_field (h h' : Heap) (c : Cls) (fs : List Val) (r f : Nat) (v v' : Val) (ys : List HVal) (y y' : HVal)
    (ho : Unshared h (.obj c fs) (.ref r)) (hr : h[r]? = some (.msg c ys)) (hv : fs[f]? = some v) (hy : ys[f]? = some y)
    (hr' : h'[r]? = some (.msg c (ys.set f y')))
    (hkeep : ∀ q < h.length, q ≠ r → q ∉ refs h v y → h'[q]? = h[q]?)
    (hg : Grow h v y h' v' y') :
    Grow h (.obj c fs) (.ref r) h' (.obj c (fs.set f v')) (.ref r) := by
  obtain ⟨ys0, hr0, hs, hn⟩ := unshared_obj h c fs r ho
  rw [hr] at hr0
  obtain rfl : ys = ys0 := by injection hr0 with h1; injection h1
  obtain ⟨v1, v2, y1, y0, y2, rfl, rfl, hf1, hf2, hl⟩ := split_at fs ys f (ShowsAll_length h fs ys hs) v hv
  have h12 : v1.length = y1.length := by omega
  obtain rfl : y0 = y := by
    rw [← hf2] at hy; simpa using hy
  have hset1 : (v1 ++ v :: v2).set f v' = v1 ++ v' :: v2 := by rw [← hf1]; simp
  have hset2 : (y1 ++ y0 :: y2).set f y' = y1 ++ y' :: y2 := by rw [← hf2]; simp
  rw [hset2] at hr'
  rw [hset1]
  rw [refsAll_append h _ _ _ _ h12, refsAll] at hn
  rw [ShowsAll_append h _ _ _ _ h12, ShowsAll_cons] at hs
  obtain ⟨hs1, hs0, hs2⟩ := hs
  have hrlt : r < h.length := (List.getElem?_eq_some_iff.1 hr).1
  obtain ⟨hn0, hn1⟩ := List.nodup_cons.1 hn
  obtain ⟨hna, hnb, hnc⟩ := List.nodup_append.1 hn1
  obtain ⟨hnd, hne, hnf⟩ := List.nodup_append.1 hnb
  have hk1 : ∀ q ∈ refsAll h v1 y1, h'[q]? = h[q]? := by
    intro q hq
    refine hkeep q (refsAll_lt h v1 y1 hs1 q hq) ?_ ?_
    · rintro rfl; exact hn0 (List.mem_append_left _ hq)
    · intro hm; exact hnc q hq q (List.mem_append_left _ hm) rfl
  have hk2 : ∀ q ∈ refsAll h v2 y2, h'[q]? = h[q]? := by
    intro q hq
    refine hkeep q (refsAll_lt h v2 y2 hs2 q hq) ?_ ?_
    · rintro rfl; exact hn0 (List.mem_append_right _ (List.mem_append_right _ hq))
    · intro hm; exact hnf q hm q hq rfl
  obtain ⟨hs1', hr1'⟩ := showsAll_frame h h' v1 y1 hs1 hk1
  obtain ⟨hs2', hr2'⟩ := showsAll_frame h h' v2 y2 hs2 hk2
  have hp1' := partsAll_frame h h' v1 y1 hs1 hk1
  have hp2' := partsAll_frame h h' v2 y2 hs2 hk2
  obtain ⟨hgo, hgl, hgs, hgp⟩ := hg
  refine ⟨unshared_obj_mk h' c _ r _ hr' ?_ ?_, hgl, ?_, ?_⟩
  · rw [ShowsAll_append h' _ _ _ _ h12, ShowsAll_cons]
    exact ⟨hs1', hgo.1, hs2'⟩
  · rw [refsAll_append h' _ _ _ _ h12, refsAll, hr1', hr2']
    rw [List.nodup_cons, List.nodup_append, List.nodup_append]
    refine ⟨?_, hna, ⟨hgo.2, hne, ?_⟩, ?_⟩
    · intro hm
      rw [List.mem_append, List.mem_append] at hm
      rcases hm with hm | hm | hm
      · exact hn0 (List.mem_append_left _ hm)
      · rcases hgs r hm with hm | hm
        · exact hn0 (List.mem_append_right _ (List.mem_append_left _ hm))
        · omega
      · exact hn0 (List.mem_append_right _ (List.mem_append_right _ hm))
    · rintro a ha b hb rfl
      rcases hgs a ha with hm | hm
      · exact hnf a hm a hb rfl
      · have := refsAll_lt h v2 y2 hs2 a hb; omega
    · rintro a ha b hb rfl
      rw [List.mem_append] at hb
      rcases hb with hb | hb
      · rcases hgs a hb with hm | hm
        · exact hnc a ha a (List.mem_append_left _ hm) rfl
        · have := refsAll_lt h v1 y1 hs1 a ha; omega
      · exact hnc a ha a (List.mem_append_right _ hb) rfl
  · rw [refs_obj h' c _ r c _ hr', refs_obj h c _ r c _ hr, refsAll_append h' _ _ _ _ h12, refsAll_append h _ _ _ _ h12, refsAll, refsAll,
      hr1', hr2']
    intro q hq
    simp only [List.mem_cons, List.mem_append] at hq ⊢
    rcases hq with hq | hq | hq | hq
    · exact .inl (.inl hq)
    · exact .inl (.inr (.inl hq))
    · exact (hgs q hq).imp (fun h => .inr (.inr (.inl h))) id
    · exact .inl (.inr (.inr (.inr hq)))
  · rw [parts_obj h' c _ r c _ hr', parts_obj h c _ r c _ hr, partsAll_append h' _ _ _ _ h12, partsAll_append h _ _ _ _ h12, partsAll,
      partsAll, hp1', hp2']
    intro q hq
    simp only [List.mem_cons, List.mem_append] at hq ⊢
    rcases hq with hq | hq | hq | hq
    · exact .inl (.inl hq)
    · exact .inl (.inr (.inl hq))
    · exact (hgp q hq).imp (fun h => .inr (.inr (.inl h))) id
    · exact .inl (.inr (.inr (.inr hq)))

/-- What a part of `decode` of the message at `r` does to the heap. -/
def Step (c : Cls) (r : Nat) (h : Heap) (fs : List Val) (h' : Heap) (fs' : List Val) : Prop :=
  Grow h (.obj c fs) (.ref r) h' (.obj c fs') (.ref r) ∧ Keep h (parts h (.obj c fs) (.ref r)) h'

theorem Step.refl {c : Cls} {r : Nat} {h : Heap} {fs : List Val} (ho : Unshared h (.obj c fs) (.ref r)) : Step c r h fs h fs :=
  ⟨Grow.refl ho, Keep.refl _ _⟩

theorem Step.trans {c : Cls} {r : Nat} {h1 h2 h3 : Heap} {f1 f2 f3 : List Val} (a : Step c r h1 f1 h2 f2) (b : Step c r h2 f2 h3 f3) :
    Step c r h1 f1 h3 f3 :=
  ⟨a.1.trans b.1, a.2.trans b.2 a.1.len a.1.psub⟩

theorem unshared_frame {h h' : Heap} {v : Val} {x : HVal} (ho : Unshared h v x) (hq : ∀ q ∈ refs h v x, h'[q]? = h[q]?) :
    Unshared h' v x := by
  obtain ⟨h1, h2⟩ := shows_frame h h' v x ho.1 hq
  exact ⟨h1, by rw [h2]; exact ho.2⟩

/-- Only new objects. -/
theorem step_old {c : Cls} {r : Nat} {h h' : Heap} {fs : List Val} (ho : Unshared h (.obj c fs) (.ref r)) (hlen : h.length ≤ h'.length)
    (hk : ∀ q < h.length, h'[q]? = h[q]?) : Step c r h fs h' fs := by
  have hq : ∀ q ∈ refs h (.obj c fs) (.ref r), h'[q]? = h[q]? := fun q hq => hk q (refs_lt h _ _ ho.1 q hq)
  obtain ⟨h1, h2⟩ := shows_frame h h' _ _ ho.1 hq
  have h3 := parts_frame_aux h h' _ _ ho.1 hq
  refine ⟨⟨unshared_frame ho hq, hlen, ?_, ?_⟩, fun q hlt _ => hk q hlt⟩
  · rw [h2]; exact fun q hq => .inl hq
  · rw [h3]; exact fun q hq => .inl hq

/-- Assigning a value made of new objects to a field. -/
theorem step_set {c : Cls} {r : Nat} {h h1 : Heap} {fs : List Val} (ho : Unshared h (.obj c fs) (.ref r)) (hlen : h.length ≤ h1.length)
    (hk : ∀ q < h.length, h1[q]? = h[q]?) (f : Nat) (v' : Val) (y' : HVal) (hv' : Unshared h1 v' y')
    (hnew : ∀ q ∈ refs h1 v' y', h.length ≤ q) :
    Step c r h fs (h1.setField r f y') (fs.set f v') := by
  obtain ⟨ys, hr, hs, hn⟩ := unshared_obj h c fs r ho
  have hrlt : r < h.length := (List.getElem?_eq_some_iff.1 hr).1
  have hr1 : h1[r]? = some (.msg c ys) := by rw [hk r hrlt, hr]
  have hkeep : ∀ q < h.length, q ≠ r → (h1.setField r f y')[q]? = h[q]? := by
    intro q hq hqr
    rw [Heap.setField_ne h1 r f q y' hqr, hk q hq]
  have hq' : ∀ q ∈ refs h1 v' y', (h1.setField r f y')[q]? = h1[q]? := by
    intro q hq
    exact Heap.setField_ne h1 r f q y' (by rintro rfl; have := hnew q hq; omega)
  obtain ⟨hsh, hrf⟩ := shows_frame h1 (h1.setField r f y') v' y' hv'.1 hq'
  cases hv : fs[f]? with
  | none =>
    have hf : fs.length ≤ f := List.getElem?_eq_none_iff.1 hv
    have hl := ShowsAll_length h fs ys hs
    rw [List.set_eq_of_length_le hf]
    refine step_old ho (by rw [Heap.setField_length]; exact hlen) (fun q hq => ?_)
    by_cases hqr : q = r
    · subst hqr
      rw [Heap.setField_self h1 q f c ys y' hr1, List.set_eq_of_length_le (by omega), hr]
    · exact hkeep q hq hqr
  | some v =>
    obtain ⟨y, hy, hyo, hry, hsub, hpsub⟩ := unshared_field h c fs r f v ho hv
    rw [Heap.field_msg h r f c ys hr] at hy
    refine ⟨grow_field h _ c fs r f v v' ys y y' ho hr hv hy (Heap.setField_self h1 r f c ys y' hr1) (fun q hq hqr _ => hkeep q hq hqr) ?_, ?_⟩
    · refine ⟨unshared_frame hv' hq', by rw [Heap.setField_length]; exact hlen, ?_, ?_⟩
      · rw [hrf]; exact fun q hq => .inr (hnew q hq)
      · rw [parts_frame_aux h1 _ v' y' hv'.1 hq']
        exact fun q hq => .inr (hnew q (parts_sub h1 v' y' hv'.1 q hq))
    · intro q hq hqp
      refine hkeep q hq ?_
      rintro rfl
      rw [parts_obj h c fs q c ys hr] at hqp
      exact hqp (List.mem_cons_self ..)

/-- Assigning a number or a text. -/
theorem step_num {c : Cls} {r : Nat} {h : Heap} {fs : List Val} (ho : Unshared h (.obj c fs) (.ref r)) (f : Nat) (n : Num) :
    Step c r h fs (h.setField r f (.num n)) (fs.set f (.num n)) :=
  step_set ho (Nat.le_refl _) (fun _ _ => rfl) f (.num n) (.num n) ⟨by simp [Shows], by simp [refs]⟩ (by simp [refs])

theorem step_str {c : Cls} {r : Nat} {h : Heap} {fs : List Val} (ho : Unshared h (.obj c fs) (.ref r)) (f : Nat) (s : JStr) :
    Step c r h fs (h.setField r f (.str s)) (fs.set f (.str s)) :=
  step_set ho (Nat.le_refl _) (fun _ _ => rfl) f (.str s) (.str s) ⟨by simp [Shows], by simp [refs]⟩ (by simp [refs])

theorem getElem?_append_lt {α : Type} (l m : List α) (q : Nat) (hq : q < l.length) : (l ++ m)[q]? = l[q]? :=
  List.getElem?_append_left hq

/-! ### New objects -/

theorem alloc_spec (v : Val) : ∀ h, ∃ m, (alloc v h).1 = h ++ m ∧ Unshared (alloc v h).1 v (alloc v h).2
    ∧ ∀ q ∈ refs (alloc v h).1 v (alloc v h).2, h.length ≤ q := by
  apply Val.rec
    (motive_1 := fun v => ∀ h, ∃ m, (alloc v h).1 = h ++ m ∧ Unshared (alloc v h).1 v (alloc v h).2
      ∧ ∀ q ∈ refs (alloc v h).1 v (alloc v h).2, h.length ≤ q)
    (motive_2 := fun vs => ∀ h, ∃ m, (allocAll vs h).1 = h ++ m ∧ ShowsAll (allocAll vs h).1 vs (allocAll vs h).2
      ∧ (refsAll (allocAll vs h).1 vs (allocAll vs h).2).Nodup ∧ ∀ q ∈ refsAll (allocAll vs h).1 vs (allocAll vs h).2, h.length ≤ q)
  · intro h; exact ⟨[], by simp [alloc], ⟨by simp [alloc, Shows], by simp [refs]⟩, by simp [refs]⟩
  · intro n h; exact ⟨[], by simp [alloc], ⟨by simp [alloc, Shows], by simp [refs]⟩, by simp [refs]⟩
  · intro s h; exact ⟨[], by simp [alloc], ⟨by simp [alloc, Shows], by simp [refs]⟩, by simp [refs]⟩
  · intro xs ih h
    obtain ⟨m, hm, hs, hn, hge⟩ := ih h
    have hk : ∀ q ∈ refsAll (allocAll xs h).1 xs (allocAll xs h).2,
        ((allocAll xs h).1 ++ [HObj.arr (allocAll xs h).2])[q]? = (allocAll xs h).1[q]? :=
      fun q hq => getElem?_append_lt _ _ _ (refsAll_lt _ _ _ hs q hq)
    have hself : ((allocAll xs h).1 ++ [HObj.arr (allocAll xs h).2])[(allocAll xs h).1.length]? = some (.arr (allocAll xs h).2) := by simp
    obtain ⟨hs', hr'⟩ := showsAll_frame _ _ _ _ hs hk
    rw [alloc]
    refine ⟨m ++ [HObj.arr (allocAll xs h).2], by rw [← List.append_assoc, ← hm], ⟨?_, ?_⟩, ?_⟩
    · rw [Shows]; exact ⟨_, _, rfl, hself, hs'⟩
    · rw [refs_list _ _ _ _ hself, hr', List.nodup_cons]
      exact ⟨fun hmem => Nat.lt_irrefl _ (refsAll_lt _ _ _ hs _ hmem), hn⟩
    · rw [refs_list _ _ _ _ hself, hr']
      intro q hq
      rcases List.mem_cons.1 hq with rfl | hq
      · rw [hm, List.length_append]; omega
      · exact hge q hq
  · intro c xs ih h
    obtain ⟨m, hm, hs, hn, hge⟩ := ih h
    have hk : ∀ q ∈ refsAll (allocAll xs h).1 xs (allocAll xs h).2,
        ((allocAll xs h).1 ++ [HObj.msg c (allocAll xs h).2])[q]? = (allocAll xs h).1[q]? :=
      fun q hq => getElem?_append_lt _ _ _ (refsAll_lt _ _ _ hs q hq)
    have hself : ((allocAll xs h).1 ++ [HObj.msg c (allocAll xs h).2])[(allocAll xs h).1.length]? = some (.msg c (allocAll xs h).2) := by simp
    obtain ⟨hs', hr'⟩ := showsAll_frame _ _ _ _ hs hk
    rw [alloc]
    refine ⟨m ++ [HObj.msg c (allocAll xs h).2], by rw [← List.append_assoc, ← hm], ⟨?_, ?_⟩, ?_⟩
    · rw [Shows]; exact ⟨_, _, rfl, hself, hs'⟩
    · rw [refs_obj _ _ _ _ _ _ hself, hr', List.nodup_cons]
      exact ⟨fun hmem => Nat.lt_irrefl _ (refsAll_lt _ _ _ hs _ hmem), hn⟩
    · rw [refs_obj _ _ _ _ _ _ hself, hr']
      intro q hq
      rcases List.mem_cons.1 hq with rfl | hq
      · rw [hm, List.length_append]; omega
      · exact hge q hq
  · intro h; exact ⟨[], by simp [allocAll], by simp [allocAll, ShowsAll], by simp [refsAll], by simp [refsAll]⟩
  · intro v vs ih1 ih2 h
    obtain ⟨m, hm, ho, hge⟩ := ih1 h
    obtain ⟨m', hm', hs, hn, hge'⟩ := ih2 (alloc v h).1
    rw [allocAll]
    obtain ⟨g, hg⟩ : ∃ g, g = (alloc v h).1 := ⟨_, rfl⟩
    rw [← hg] at hm ho hge hm' hs hn hge' ⊢
    obtain ⟨k, hkk⟩ : ∃ k, k = (allocAll vs g).1 := ⟨_, rfl⟩
    simp only [← hkk] at hm' hs hn hge' ⊢
    have hk : ∀ q ∈ refs g v (alloc v h).2, k[q]? = g[q]? := by
      intro q hq; rw [hm']; exact getElem?_append_lt _ _ _ (refs_lt _ _ _ ho.1 q hq)
    obtain ⟨hs', hr'⟩ := shows_frame _ _ _ _ ho.1 hk
    refine ⟨m ++ m', by rw [← List.append_assoc, ← hm, hm'], ?_, ?_, ?_⟩
    · rw [ShowsAll_cons]; exact ⟨hs', hs⟩
    · rw [refsAll, hr', List.nodup_append]
      refine ⟨ho.2, hn, ?_⟩
      rintro a ha b hb rfl
      have h1 := refs_lt _ _ _ ho.1 a ha
      have h2 := hge' a hb
      omega
    · rw [refsAll, hr']
      intro q hq
      rcases List.mem_append.1 hq with hq | hq
      · exact hge q hq
      · have h1 := hge' q hq
        rw [hm, List.length_append] at h1
        omega

theorem hdefault_shows (h : Heap) (t : FTy) : Shows h t.default t.hdefault ∧ refs h t.default t.hdefault = [] := by
  cases t <;> simp [FTy.default, FTy.hdefault, Shows, refs]

theorem hdefaults_show (h : Heap) : ∀ (fs : List (String × FTy)), ShowsAll h (fs.map fun f => f.2.default) (fs.map fun f => f.2.hdefault)
    ∧ refsAll h (fs.map fun f => f.2.default) (fs.map fun f => f.2.hdefault) = []
  | [] => by simp [ShowsAll, refsAll]
  | f :: fs => by
    obtain ⟨h1, h2⟩ := hdefaults_show h fs
    obtain ⟨h3, h4⟩ := hdefault_shows h f.2
    rw [List.map_cons, List.map_cons, ShowsAll_cons, refsAll, h2, h4]
    exact ⟨⟨h3, h1⟩, rfl⟩

/-- `new C()`. -/
theorem newMsg_spec (c : Cls) (h : Heap) : Unshared (h ++ [newMsg c]) (fresh c) (.ref h.length)
    ∧ refs (h ++ [newMsg c]) (fresh c) (.ref h.length) = [h.length] := by
  have hself : (h ++ [newMsg c])[h.length]? = some (.msg c ((decl c).fields.map fun f => f.2.hdefault)) := by simp [newMsg]
  obtain ⟨h1, h2⟩ := hdefaults_show (h ++ [newMsg c]) (decl c).fields
  have h3 : refs (h ++ [newMsg c]) (fresh c) (.ref h.length) = [h.length] := by
    rw [fresh, refs_obj _ _ _ _ _ _ hself, freshFields, h2]
  refine ⟨⟨?_, ?_⟩, h3⟩
  · rw [fresh, Shows]; exact ⟨_, _, rfl, hself, h1⟩
  · rw [h3]; simp

/-! ### Nested calls -/

/-- `decode` on the heap agrees with `decode` on values. -/
def CallOK (ct : DecCall) (ch : HDecCall) : Prop := ∀ c fs r h b, Unshared h (.obj c fs) (.ref r) →
  (ch r h b).2 = (ct c fs b).2 ∧ Step c r h fs (ch r h b).1 (ct c fs b).1

/-- A call on the message in field `f`. -/
theorem step_call {ct : DecCall} {ch : HDecCall} (hc : CallOK ct ch) {c : Cls} {r : Nat} {h : Heap} {fs : List Val}
    (ho : Unshared h (.obj c fs) (.ref r)) (f : Nat) (c' : Cls) (fs' : List Val) (hv : fs[f]? = some (.obj c' fs')) (b : RBuf) :
    (hcallField ch r f ⟨h, b⟩).2 = (ct c' fs' b).2.2 ∧ (hcallField ch r f ⟨h, b⟩).1.buf = (ct c' fs' b).2.1
      ∧ Step c r h fs (hcallField ch r f ⟨h, b⟩).1.h (fs.set f (.obj c' (ct c' fs' b).1)) := by
  obtain ⟨y, hy, hyo, hry, hsub, hpsub⟩ := unshared_field h c fs r f _ ho hv
  obtain ⟨ys, hr, hs, hn⟩ := unshared_obj h c fs r ho
  have hsy := hyo.1
  rw [Shows] at hsy
  obtain ⟨a, zs, rfl, ha, hzs⟩ := hsy
  obtain ⟨hres, hgrow, hkeep⟩ := hc c' fs' a h b hyo
  have hcf : hcallField ch r f ⟨h, b⟩ = (⟨(ch a h b).1, (ch a h b).2.1⟩, (ch a h b).2.2) := by
    simp only [hcallField, hy, ha]
  rw [hcf]
  refine ⟨by rw [hres], by rw [hres], ?_⟩
  have hrlt : r < h.length := (List.getElem?_eq_some_iff.1 hr).1
  have hrp : r ∉ parts h (.obj c' fs') (.ref a) := fun hm => hry (parts_sub h _ _ hyo.1 r hm)
  rw [Heap.field_msg h r f c ys hr] at hy
  have hset : ys.set f (.ref a) = ys := by
    obtain ⟨hlt, he⟩ := List.getElem?_eq_some_iff.1 hy
    rw [← he, List.set_getElem_self]
  refine ⟨grow_field h _ c fs r f _ _ ys _ _ ho hr hv hy (by rw [hset, hkeep r hrlt hrp, hr]) ?_ hgrow, ?_⟩
  · intro q hq _ hqr
    exact hkeep q hq (fun hm => hqr (parts_sub h _ _ hyo.1 q hm))
  · intro q hq hqp
    exact hkeep q hq (fun hm => hqp (hpsub q hm))

/-! ### Lists -/

/-- Adding an element made of new objects (with respect to the heap `h0`) to the list in field `f`. -/
theorem hadd_ok {c : Cls} {r : Nat} {h0 h : Heap} {fs : List Val} (ho : Unshared h0 (.obj c fs) (.ref r)) (hlen : h0.length ≤ h.length)
    (hk : ∀ q < h0.length, h[q]? = h0[q]?) (f a : Nat) (acc : List Val) (hv : fs[f]? = some (.list acc))
    (hfa : h0.field r f = some (.ref a)) (v : Val) (y : HVal) (hvy : Unshared h v y) (hnew : ∀ q ∈ refs h v y, h0.length ≤ q) :
    (hadd h r f y).2 = none
      ∧ Grow h0 (.obj c fs) (.ref r) (hadd h r f y).1 (.obj c (fs.set f (.list (acc ++ [v])))) (.ref r)
      ∧ ∀ q < h0.length, q ≠ a → (hadd h r f y).1[q]? = h0[q]? := by
  obtain ⟨ys, hr, hs, hn⟩ := unshared_obj h0 c fs r ho
  have hrlt : r < h0.length := (List.getElem?_eq_some_iff.1 hr).1
  obtain ⟨y0, hy0, hyo, hry, hsub, hpsub⟩ := unshared_field h0 c fs r f _ ho hv
  rw [hfa] at hy0
  obtain rfl := Option.some.inj hy0
  have hsy := hyo.1
  rw [Shows] at hsy
  obtain ⟨a', xs, hx, ha, hxs⟩ := hsy
  cases hx
  have halt : a < h0.length := (List.getElem?_eq_some_iff.1 ha).1
  have hno := hyo.2
  rw [refs_list h0 acc a xs ha] at hno hry
  obtain ⟨hna, hnx⟩ := List.nodup_cons.1 hno
  have hra : r ≠ a := fun e => hry (e ▸ List.mem_cons_self ..)
  have ha1 : h[a]? = some (.arr xs) := by rw [hk a halt, ha]
  have hr1 : h[r]? = some (.msg c ys) := by rw [hk r hrlt, hr]
  have hfield : h.field r f = some (.ref a) := by
    rw [Heap.field_msg h r f c ys hr1, ← Heap.field_msg h0 r f c ys hr, hfa]
  have hres : hadd h r f y = (h.set a (.arr (xs ++ [y])), none) := by
    simp only [hadd, hfield, ha1]
  rw [hres]
  have hkeep : ∀ q < h0.length, q ≠ a → (h.set a (.arr (xs ++ [y])))[q]? = h0[q]? := by
    intro q hq hqa
    rw [List.getElem?_set_ne (Ne.symm hqa), hk q hq]
  have hself : (h.set a (.arr (xs ++ [y])))[a]? = some (.arr (xs ++ [y])) := by
    rw [List.getElem?_set_self (by omega)]
  refine ⟨rfl, ?_, hkeep⟩
  have hy : ys[f]? = some (.ref a) := by rw [← Heap.field_msg h0 r f c ys hr, hfa]
  have hset : ys.set f (.ref a) = ys := by
    obtain ⟨hlt, he⟩ := List.getElem?_eq_some_iff.1 hy
    rw [← he, List.set_getElem_self]
  have hkx : ∀ q ∈ refsAll h0 acc xs, (h.set a (.arr (xs ++ [y])))[q]? = h0[q]? := by
    intro q hq
    refine hkeep q (refsAll_lt h0 acc xs hxs q hq) ?_
    rintro rfl; exact hna hq
  obtain ⟨hsx, hrx⟩ := showsAll_frame h0 _ acc xs hxs hkx
  have hkv : ∀ q ∈ refs h v y, (h.set a (.arr (xs ++ [y])))[q]? = h[q]? := by
    intro q hq
    rw [List.getElem?_set_ne]
    rintro rfl; have := hnew a hq; omega
  obtain ⟨hsv, hrv⟩ := shows_frame h _ v y hvy.1 hkv
  have hlx := ShowsAll_length h0 acc xs hxs
  have hrefs : refs (h.set a (.arr (xs ++ [y]))) (.list (acc ++ [v])) (.ref a) = a :: (refsAll h0 acc xs ++ refs h v y) := by
    rw [refs_list _ _ _ _ hself, refsAll_append _ _ _ _ _ hlx, hrx, refsAll, hrv]
    simp [refsAll]
  refine grow_field h0 _ c fs r f _ _ ys _ _ ho hr hv hy (by rw [hset, hkeep r hrlt hra, hr]) ?_ ?_
  · intro q hq _ hqr
    refine hkeep q hq ?_
    rintro rfl
    rw [refs_list h0 acc q xs ha] at hqr
    exact hqr (List.mem_cons_self ..)
  · refine ⟨⟨?_, ?_⟩, ?_, ?_, ?_⟩
    · rw [Shows]
      refine ⟨a, _, rfl, hself, ?_⟩
      rw [ShowsAll_append _ _ _ _ _ hlx, ShowsAll_single]
      exact ⟨hsx, hsv⟩
    · rw [hrefs, List.nodup_cons, List.nodup_append]
      refine ⟨?_, hnx, hvy.2, ?_⟩
      · intro hm
        rcases List.mem_append.1 hm with hm | hm
        · exact hna hm
        · have := hnew a hm; omega
      · rintro p hp q hq rfl
        have h1 := refsAll_lt h0 acc xs hxs p hp
        have h2 := hnew p hq
        omega
    · rw [List.length_set]; exact hlen
    · rw [hrefs, refs_list h0 acc a xs ha]
      intro q hq
      simp only [List.mem_cons, List.mem_append] at hq ⊢
      rcases hq with hq | hq | hq
      · exact .inl (.inl hq)
      · exact .inl (.inr hq)
      · exact .inr (hnew q hq)
    · intro q hq; simp [parts] at hq

/-- What a part of the loop that reads the list at `a` in field `f` does. -/
def LoopStep (c : Cls) (r a : Nat) (h : Heap) (fs : List Val) (h' : Heap) (fs' : List Val) : Prop :=
  Grow h (.obj c fs) (.ref r) h' (.obj c fs') (.ref r) ∧ ∀ q < h.length, q ≠ a → h'[q]? = h[q]?

theorem LoopStep.trans {c : Cls} {r a : Nat} {h1 h2 h3 : Heap} {f1 f2 f3 : List Val} (x : LoopStep c r a h1 f1 h2 f2)
    (y : LoopStep c r a h2 f2 h3 f3) : LoopStep c r a h1 f1 h3 f3 :=
  ⟨x.1.trans y.1, fun q hq hqa => by rw [y.2 q (Nat.lt_of_lt_of_le hq x.1.len) hqa, x.2 q hq hqa]⟩

theorem hdecElem_ok {ct : DecCall} {ch : HDecCall} (hc : CallOK ct ch) {c : Cls} {r : Nat} {h : Heap} {fs : List Val}
    (ho : Unshared h (.obj c fs) (.ref r)) (f a : Nat) (acc : List Val) (hv : fs[f]? = some (.list acc))
    (hfa : h.field r f = some (.ref a)) (el : DecElem) (b : RBuf) :
    match decElem ct el b with
    | (b', .error e) => (hdecElem ch r f el h b).2 = (b', some e) ∧ LoopStep c r a h fs (hdecElem ch r f el h b).1 (fs.set f (.list acc))
    | (b', .ok none) => (hdecElem ch r f el h b).2 = (b', none) ∧ LoopStep c r a h fs (hdecElem ch r f el h b).1 (fs.set f (.list acc))
    | (b', .ok (some v)) => (hdecElem ch r f el h b).2 = (b', none)
        ∧ LoopStep c r a h fs (hdecElem ch r f el h b).1 (fs.set f (.list (acc ++ [v]))) := by
  have hset : fs.set f (.list acc) = fs := by
    obtain ⟨hlt, he⟩ := List.getElem?_eq_some_iff.1 hv
    rw [← he, List.set_getElem_self]
  have hrefl : LoopStep c r a h fs h (fs.set f (.list acc)) := by
    rw [hset]; exact ⟨Grow.refl ho, fun _ _ _ => rfl⟩
  cases el with
  | num t e =>
    simp only [decElem, hdecElem]
    rcases b.readNum e t with ⟨b', e' | n⟩
    · exact ⟨rfl, hrefl⟩
    · obtain ⟨h1, h2, h3⟩ := hadd_ok ho (Nat.le_refl _) (fun _ _ => rfl) f a acc hv hfa (.num n) (.num n)
        ⟨by simp [Shows], by simp [refs]⟩ (by simp [refs])
      exact ⟨by rw [← h1], h2, h3⟩
  | fixed n pad left =>
    simp only [decElem, hdecElem]
    rcases readFixedString b n pad left with ⟨b', e' | s⟩
    · exact ⟨rfl, hrefl⟩
    · obtain ⟨h1, h2, h3⟩ := hadd_ok ho (Nat.le_refl _) (fun _ _ => rfl) f a acc hv hfa (.str s) (.str s)
        ⟨by simp [Shows], by simp [refs]⟩ (by simp [refs])
      exact ⟨by rw [← h1], h2, h3⟩
  | dyn t e =>
    simp only [decElem, hdecElem]
    rcases readDyn b t e with ⟨b', e' | _ | s⟩
    · exact ⟨rfl, hrefl⟩
    · exact ⟨rfl, hrefl⟩
    · obtain ⟨h1, h2, h3⟩ := hadd_ok ho (Nat.le_refl _) (fun _ _ => rfl) f a acc hv hfa (.str s) (.str s)
        ⟨by simp [Shows], by simp [refs]⟩ (by simp [refs])
      exact ⟨by rw [← h1], h2, h3⟩
  | obj c' =>
    simp only [decElem, hdecElem]
    obtain ⟨hf1, hf2⟩ := newMsg_spec c' h
    obtain ⟨hres, hgrow, hkeep⟩ := hc c' (freshFields c') h.length (h ++ [newMsg c']) b hf1
    have hfr : Val.obj c' (freshFields c') = fresh c' := rfl
    have hpar : ∀ q ∈ parts (h ++ [newMsg c']) (.obj c' (freshFields c')) (.ref h.length), q = h.length := by
      intro q hq
      have := parts_sub _ _ _ hf1.1 q hq
      rw [hf2] at this
      simpa using this
    have hlen1 : (h ++ [newMsg c']).length = h.length + 1 := by simp
    have hk : ∀ q < h.length, (ch h.length (h ++ [newMsg c']) b).1[q]? = h[q]? := by
      intro q hq
      rw [hkeep q (by omega) (fun hm => by have := hpar q hm; omega), getElem?_append_lt _ _ _ hq]
    have hlen : h.length ≤ (ch h.length (h ++ [newMsg c']) b).1.length := by have := hgrow.len; omega
    revert hres hgrow hk hlen
    rcases ch h.length (h ++ [newMsg c']) b with ⟨h', b', r'⟩
    rcases ct c' (freshFields c') b with ⟨fs', b'', r''⟩
    intro hres hgrow hk hlen
    injection hres with he1 he2
    subst he1; subst he2
    cases r' with
    | none =>
      have hnew : ∀ q ∈ refs h' (.obj c' fs') (.ref h.length), h.length ≤ q := by
        intro q hq
        rcases hgrow.sub q hq with hm | hm
        · rw [hfr, hf2] at hm
          have : q = h.length := by simpa using hm
          omega
        · omega
      obtain ⟨h1, h2, h3⟩ := hadd_ok ho hlen hk f a acc hv hfa (.obj c' fs') (.ref h.length) hgrow.own hnew
      exact ⟨Prod.ext rfl h1, h2, h3⟩
    | some e =>
      refine ⟨rfl, ?_⟩
      rw [hset]
      exact ⟨(step_old ho hlen hk).1, fun q hq _ => hk q hq⟩

theorem hdecElems_ok {ct : DecCall} {ch : HDecCall} (hc : CallOK ct ch) {c : Cls} {r : Nat} (f a : Nat) (el : DecElem) :
    ∀ (n : Nat) (h : Heap) (fs : List Val) (acc : List Val) (b : RBuf), Unshared h (.obj c fs) (.ref r) → fs[f]? = some (.list acc) →
      h.field r f = some (.ref a) →
      (hdecElems ch r f el n h b).2 = (decElems ct el n acc b).2
        ∧ LoopStep c r a h fs (hdecElems ch r f el n h b).1 (fs.set f (.list (decElems ct el n acc b).1)) := by
  intro n
  induction n with
  | zero =>
    intro h fs acc b ho hv hfa
    have hset : fs.set f (.list acc) = fs := by
      obtain ⟨hlt, he⟩ := List.getElem?_eq_some_iff.1 hv
      rw [← he, List.set_getElem_self]
    refine ⟨rfl, ?_⟩
    rw [decElems, hset]
    exact ⟨Grow.refl ho, fun _ _ _ => rfl⟩
  | succ n ih =>
    intro h fs acc b ho hv hfa
    have hel := hdecElem_ok hc ho f a acc hv hfa el b
    have hra : r ≠ a := by
      rintro rfl
      obtain ⟨y0, hy0, hyo, hry, _⟩ := unshared_field h c fs r f _ ho hv
      rw [hfa] at hy0
      obtain rfl := Option.some.inj hy0
      have hsy := hyo.1
      rw [Shows] at hsy
      obtain ⟨a', xs, hx, ha, hxs⟩ := hsy
      cases hx
      rw [refs_list h acc r xs ha] at hry
      exact hry (List.mem_cons_self ..)
    have hflt : f < fs.length := (List.getElem?_eq_some_iff.1 hv).1
    obtain ⟨ys, hr, hs, hn⟩ := unshared_obj h c fs r ho
    have hrlt : r < h.length := (List.getElem?_eq_some_iff.1 hr).1
    simp only [hdecElems, decElems]
    revert hel
    rcases hdecElem ch r f el h b with ⟨h', b', e'⟩
    rcases decElem ct el b with ⟨b'', e | _ | v⟩
    · dsimp only
      rintro ⟨h1, h2⟩
      injection h1 with h3 h4
      subst h3; subst h4
      exact ⟨rfl, h2⟩
    · dsimp only
      rintro ⟨h1, h2⟩
      injection h1 with h3 h4
      subst h3; subst h4
      have hfa' : Heap.field h' r f = some (.ref a) := by
        rw [← hfa, Heap.field, Heap.field, h2.2 r hrlt hra]
      obtain ⟨g1, g2⟩ := ih h' _ acc b' h2.1.own (by rw [List.getElem?_set_self hflt]) hfa'
      rw [List.set_set] at g2
      exact ⟨g1, h2.trans g2⟩
    · dsimp only
      rintro ⟨h1, h2⟩
      injection h1 with h3 h4
      subst h3; subst h4
      have hfa' : Heap.field h' r f = some (.ref a) := by
        rw [← hfa, Heap.field, Heap.field, h2.2 r hrlt hra]
      obtain ⟨g1, g2⟩ := ih h' _ (acc ++ [v]) b' h2.1.own (by rw [List.getElem?_set_self hflt]) hfa'
      rw [List.set_set] at g2
      exact ⟨g1, h2.trans g2⟩

/-- A field that does not exist. -/
theorem hdecElems_out {ct : DecCall} {ch : HDecCall} (hc : CallOK ct ch) {c : Cls} {r : Nat} {fs : List Val} (f : Nat) (el : DecElem)
    (hv : fs[f]? = none) :
    ∀ (n : Nat) (h : Heap) (acc : List Val) (b : RBuf), Unshared h (.obj c fs) (.ref r) →
      (hdecElems ch r f el n h b).2 = (decElems ct el n acc b).2 ∧ h.length ≤ (hdecElems ch r f el n h b).1.length
        ∧ ∀ q < h.length, (hdecElems ch r f el n h b).1[q]? = h[q]? := by
  intro n
  induction n with
  | zero => intro h acc b _; exact ⟨rfl, Nat.le_refl _, fun _ _ => rfl⟩
  | succ n ih =>
    intro h acc b ho
    have hadd' : ∀ y, hadd h r f y = (h, none) := by
      intro y; simp only [hadd, field_none h c fs r f ho hv]
    cases el with
    | num t e =>
      simp only [hdecElems, hdecElem, decElems, decElem, hadd']
      rcases b.readNum e t with ⟨b', e' | x⟩
      · exact ⟨rfl, Nat.le_refl _, fun _ _ => rfl⟩
      · exact ih h _ b' ho
    | fixed m pad left =>
      simp only [hdecElems, hdecElem, decElems, decElem, hadd']
      rcases readFixedString b m pad left with ⟨b', e' | x⟩
      · exact ⟨rfl, Nat.le_refl _, fun _ _ => rfl⟩
      · exact ih h _ b' ho
    | dyn t e =>
      simp only [hdecElems, hdecElem, decElems, decElem, hadd']
      rcases readDyn b t e with ⟨b', e' | _ | x⟩
      · exact ⟨rfl, Nat.le_refl _, fun _ _ => rfl⟩
      · exact ih h _ b' ho
      · exact ih h _ b' ho
    | obj c' =>
      simp only [hdecElems, hdecElem, decElems, decElem]
      obtain ⟨hf1, hf2⟩ := newMsg_spec c' h
      obtain ⟨hres, hgrow, hkeep⟩ := hc c' (freshFields c') h.length (h ++ [newMsg c']) b hf1
      have hpar : ∀ q ∈ parts (h ++ [newMsg c']) (.obj c' (freshFields c')) (.ref h.length), q = h.length := by
        intro q hq
        have := parts_sub _ _ _ hf1.1 q hq
        rw [hf2] at this
        simpa using this
      have hlen1 : (h ++ [newMsg c']).length = h.length + 1 := by simp
      have hk : ∀ q < h.length, (ch h.length (h ++ [newMsg c']) b).1[q]? = h[q]? := by
        intro q hq
        rw [hkeep q (by omega) (fun hm => by have := hpar q hm; omega), getElem?_append_lt _ _ _ hq]
      have hlen : h.length ≤ (ch h.length (h ++ [newMsg c']) b).1.length := by have := hgrow.len; omega
      revert hres hk hlen
      clear hgrow hkeep
      rcases ch h.length (h ++ [newMsg c']) b with ⟨h', b', r'⟩
      rcases ct c' (freshFields c') b with ⟨fs', b'', r''⟩
      intro hres hk hlen
      injection hres with he1 he2
      subst he1; subst he2
      have ho' : Unshared h' (.obj c fs) (.ref r) := (step_old ho hlen hk).1.own
      cases r' with
      | some e => exact ⟨rfl, hlen, hk⟩
      | none =>
        have ha : hadd h' r f (.ref h.length) = (h', none) := by simp only [hadd, field_none h' c fs r f ho' hv]
        simp only [ha]
        obtain ⟨g1, g2, g3⟩ := ih h' (acc ++ [.obj c' fs']) b' ho'
        exact ⟨g1, Nat.le_trans hlen g2, fun q hq => by rw [g3 q (Nat.lt_of_lt_of_le hq hlen), hk q hq]⟩

/-! ### Statements -/

theorem leaf_key (h : Heap) (v : Val) (y : HVal) (hs : Shows h v y) : keyOf y.leaf = keyOf v := by
  cases v <;> rw [Shows] at hs
  · subst hs; rfl
  · subst hs; rfl
  · subst hs; rfl
  · obtain ⟨a, ys, rfl, _, _⟩ := hs; rfl
  · obtain ⟨a, ys, rfl, _, _⟩ := hs; rfl

theorem assignNum_num (ty : FTy) (n : Num) (v : Val) (hv : assignNum ty n = some v) : ∃ m, v = .num m := by
  cases ty <;> simp only [assignNum] at hv
  case prim t =>
    split at hv
    · cases hn : n.convert t with
      | none => rw [hn] at hv; simp at hv
      | some m => rw [hn] at hv; simp at hv; exact ⟨m, hv.symm⟩
    · simp at hv
  all_goals simp at hv

theorem hdecStmt_ok (w : World) {ct : DecCall} {ch : HDecCall} (hc : CallOK ct ch) {c : Cls} {r : Nat} {h : Heap} {fs : List Val}
    (ho : Unshared h (.obj c fs) (.ref r)) (tys : List FTy) (s : DecStmt) (b : RBuf) :
    (hdecStmt w.suppliers ch r tys s ⟨h, b⟩).2 = (decStmt w ct tys s ⟨fs, b⟩).2
      ∧ (hdecStmt w.suppliers ch r tys s ⟨h, b⟩).1.buf = (decStmt w ct tys s ⟨fs, b⟩).1.buf
      ∧ Step c r h fs (hdecStmt w.suppliers ch r tys s ⟨h, b⟩).1.h (decStmt w ct tys s ⟨fs, b⟩).1.fs := by
  have hrefl := Step.refl ho
  cases s with
  | num f t e =>
    simp only [hdecStmt, decStmt]
    rcases b.readNum e t with ⟨b', e' | n⟩
    · exact ⟨by trivial, by trivial, hrefl⟩
    · dsimp only
      cases ha : tys[f]?.bind (assignNum · n) with
      | none => exact ⟨by trivial, by trivial, hrefl⟩
      | some v =>
        obtain ⟨ty, _, hty⟩ := Option.bind_eq_some_iff.1 ha
        obtain ⟨m, rfl⟩ := assignNum_num ty n v hty
        exact ⟨rfl, rfl, step_num ho f m⟩
  | fixed f n pad left =>
    simp only [hdecStmt, decStmt]
    rcases readFixedString b n pad left with ⟨b', e' | s⟩
    · exact ⟨by trivial, by trivial, hrefl⟩
    · exact ⟨rfl, rfl, step_str ho f s⟩
  | dyn f t e =>
    simp only [hdecStmt, decStmt]
    rcases readDyn b t e with ⟨b', e' | _ | s⟩
    · exact ⟨by trivial, by trivial, hrefl⟩
    · exact ⟨by trivial, by trivial, hrefl⟩
    · exact ⟨rfl, rfl, step_str ho f s⟩
  | list f t e el =>
    simp only [hdecStmt, decStmt]
    rcases b.readNum e t with ⟨b', e' | n⟩
    · exact ⟨by trivial, by trivial, hrefl⟩
    · dsimp only
      by_cases hpos : 0 < n.bits.toInt
      · rw [if_pos hpos, if_pos hpos]
        have hself : (h ++ [HObj.arr []])[h.length]? = some (.arr []) := by simp
        have hstep : Step c r h fs (Heap.setField (h ++ [.arr []]) r f (.ref h.length)) (fs.set f (.list [])) := by
          refine step_set ho (by simp) (fun q hq => getElem?_append_lt _ _ _ hq) f (.list []) (.ref h.length) ⟨?_, ?_⟩ ?_
          · rw [Shows]; exact ⟨_, _, rfl, hself, by rw [ShowsAll]⟩
          · rw [refs_list _ _ _ _ hself]; simp [refsAll]
          · rw [refs_list _ _ _ _ hself]; simp [refsAll]
        obtain ⟨h1, hh1⟩ : ∃ h1, h1 = Heap.setField (h ++ [.arr []]) r f (.ref h.length) := ⟨_, rfl⟩
        rw [← hh1] at hstep ⊢
        obtain ⟨ys, hr, hs, hn⟩ := unshared_obj h c fs r ho
        have hrlt : r < h.length := (List.getElem?_eq_some_iff.1 hr).1
        cases hv : fs[f]? with
        | none =>
          rw [List.set_eq_of_length_le (List.getElem?_eq_none_iff.1 hv)] at hstep ⊢
          obtain ⟨g1, g2, g3⟩ := hdecElems_out hc f el hv n.bits.toNat h1 [] b' hstep.1.own
          refine ⟨by rw [g1], by rw [g1], hstep.trans (step_old hstep.1.own g2 g3)⟩
        | some v =>
          have hflt : f < fs.length := (List.getElem?_eq_some_iff.1 hv).1
          have hl := ShowsAll_length h fs ys hs
          have hf1 : Heap.field h1 r f = some (.ref h.length) := by
            rw [hh1, Heap.field_msg _ r f c _ (Heap.setField_self _ r f c ys _ (by rw [getElem?_append_lt _ _ _ hrlt, hr])),
              List.getElem?_set_self (by omega)]
          obtain ⟨g1, g2⟩ := hdecElems_ok hc f h.length el n.bits.toNat h1 (fs.set f (.list [])) [] b' hstep.1.own
            (List.getElem?_set_self hflt) hf1
          rw [List.set_set] at g2
          refine ⟨by rw [g1], by rw [g1], hstep.1.trans g2.1, ?_⟩
          intro q hq hqp
          rw [g2.2 q (Nat.lt_of_lt_of_le hq hstep.1.len) (by omega), hstep.2 q hq hqp]
      · rw [if_neg hpos, if_neg hpos]
        exact ⟨by trivial, by trivial, hrefl⟩
  | obj f c' =>
    simp only [hdecStmt, decStmt]
    cases hv : fs[f]? with
    | none =>
      simp only [field_none h c fs r f ho hv, hcallField]
      exact ⟨by trivial, by trivial, hrefl⟩
    | some v =>
      obtain ⟨y, hy, hyo, hry, hsub, hpsub⟩ := unshared_field h c fs r f v ho hv
      have hys := hyo.1
      rw [hy]
      cases v with
      | null =>
        rw [Shows] at hys
        subst hys
        dsimp only
        obtain ⟨hf1, hf2⟩ := newMsg_spec c' h
        have hstep : Step c r h fs (Heap.setField (h ++ [newMsg c']) r f (.ref h.length)) (fs.set f (fresh c')) :=
          step_set ho (by simp) (fun q hq => getElem?_append_lt _ _ _ hq) f (fresh c') (.ref h.length) hf1 (by rw [hf2]; simp)
        have hflt : f < fs.length := (List.getElem?_eq_some_iff.1 hv).1
        obtain ⟨g1, g2, g3⟩ := step_call hc hstep.1.own f c' (freshFields c') (by rw [List.getElem?_set_self hflt]; rfl) b
        rw [List.set_set] at g3
        exact ⟨g1, g2, hstep.trans g3⟩
      | num n => rw [Shows] at hys; subst hys; simp only [hcallField, hy]; exact ⟨by trivial, by trivial, hrefl⟩
      | str n => rw [Shows] at hys; subst hys; simp only [hcallField, hy]; exact ⟨by trivial, by trivial, hrefl⟩
      | list xs =>
        rw [Shows] at hys
        obtain ⟨a, zs, rfl, ha, _⟩ := hys
        simp only [hcallField, hy, ha]
        exact ⟨by trivial, by trivial, hrefl⟩
      | obj c'' fs'' =>
        obtain ⟨g1, g2, g3⟩ := step_call hc ho f c'' fs'' hv b
        rw [Shows] at hys
        obtain ⟨a, zs, rfl, ha, _⟩ := hys
        exact ⟨g1, g2, g3⟩
  | create f fac key =>
    simp only [hdecStmt, decStmt]
    cases hv : fs[key]? with
    | none =>
      simp only [field_none h c fs r key ho hv]
      exact ⟨by trivial, by trivial, hrefl⟩
    | some v =>
      obtain ⟨y, hy, hyo, hry, hsub, hpsub⟩ := unshared_field h c fs r key v ho hv
      simp only [hy, leaf_key h v y hyo.1, World.suppliers]
      cases hf : w.fac fac (keyOf v) with
      | none => exact ⟨by trivial, by trivial, hrefl⟩
      | some u =>
        simp only [Option.map_some, hcreate]
        obtain ⟨m, hm, hu, hnew⟩ := alloc_spec u h
        refine ⟨trivial, trivial, step_set ho ?_ ?_ f u _ hu hnew⟩
        · rw [hm, List.length_append]; omega
        · intro q hq; rw [hm, getElem?_append_lt _ _ _ hq]
  | call f =>
    simp only [hdecStmt, decStmt]
    cases hv : fs[f]? with
    | none =>
      simp only [field_none h c fs r f ho hv, hcallField]
      exact ⟨by trivial, by trivial, hrefl⟩
    | some v =>
      obtain ⟨y, hy, hyo, hry, hsub, hpsub⟩ := unshared_field h c fs r f v ho hv
      have hys := hyo.1
      cases v with
      | null => rw [Shows] at hys; subst hys; simp only [hcallField, hy]; exact ⟨by trivial, by trivial, hrefl⟩
      | num n => rw [Shows] at hys; subst hys; simp only [hcallField, hy]; exact ⟨by trivial, by trivial, hrefl⟩
      | str n => rw [Shows] at hys; subst hys; simp only [hcallField, hy]; exact ⟨by trivial, by trivial, hrefl⟩
      | list xs =>
        rw [Shows] at hys
        obtain ⟨a, zs, rfl, ha, _⟩ := hys
        simp only [hcallField, hy, ha]
        exact ⟨by trivial, by trivial, hrefl⟩
      | obj c'' fs'' =>
        exact step_call hc ho f c'' fs'' hv b

theorem hdecStmts_ok (w : World) {ct : DecCall} {ch : HDecCall} (hc : CallOK ct ch) {c : Cls} {r : Nat} (tys : List FTy) :
    ∀ (ss : List DecStmt) (h : Heap) (fs : List Val) (b : RBuf), Unshared h (.obj c fs) (.ref r) →
      (hdecStmts w.suppliers ch r tys ss ⟨h, b⟩).2 = (decStmts w ct tys ss ⟨fs, b⟩).2
      ∧ (hdecStmts w.suppliers ch r tys ss ⟨h, b⟩).1.buf = (decStmts w ct tys ss ⟨fs, b⟩).1.buf
      ∧ Step c r h fs (hdecStmts w.suppliers ch r tys ss ⟨h, b⟩).1.h (decStmts w ct tys ss ⟨fs, b⟩).1.fs
  | [], h, fs, b, ho => ⟨rfl, rfl, Step.refl ho⟩
  | s :: ss, h, fs, b, ho => by
    obtain ⟨h1, h2, h3⟩ := hdecStmt_ok w hc ho tys s b
    simp only [hdecStmts, decStmts]
    revert h1 h2 h3
    rcases hdecStmt w.suppliers ch r tys s ⟨h, b⟩ with ⟨⟨h', b'⟩, e⟩
    rcases decStmt w ct tys s ⟨fs, b⟩ with ⟨⟨fs', b''⟩, e'⟩
    dsimp only
    rintro rfl rfl h3
    cases e with
    | some e => exact ⟨rfl, rfl, h3⟩
    | none =>
      obtain ⟨g1, g2, g3⟩ := hdecStmts_ok w hc tys ss h' fs' b' h3.1.own
      exact ⟨g1, g2, h3.trans g3⟩

theorem hdecode_ok (w : World) : ∀ n, CallOK (decode w n) (hdecode w.suppliers n)
  | 0 => fun c fs r h b ho => ⟨rfl, Step.refl ho⟩
  | n + 1 => fun c fs r h b ho => by
    obtain ⟨ys, hr, hs, hn⟩ := unshared_obj h c fs r ho
    obtain ⟨g1, g2, g3⟩ := hdecStmts_ok w (hdecode_ok w n) ((decl c).fields.map (·.2)) (decl c).dec h fs b ho
    simp only [hdecode, hr, decode]
    exact ⟨by rw [g1, g2], g3⟩

end FinProto
