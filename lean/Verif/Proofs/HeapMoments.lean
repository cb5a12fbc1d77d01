import Verif.Proofs.Moments
import Verif.Proofs.HeapDecode
import Verif.Proofs.ConcurrentDecode
/-
Helper lemmas: a thread that decodes, stopped at any moment, leaves the message as `moment` says.
-/
namespace FinProto

/-- As `DGets`; `P` holds of the heap all along. -/
def Along (sup : Suppliers) (n : Nat) (P : Heap → Prop) (p : Heap × DThread) (h' : Heap) (b' : RBuf) (e' : Option JErr) (as : List DActivation) : Prop :=
  ∃ k, (∀ l ≤ k, P (DThread.go sup n l p).1) ∧ (DThread.go sup n k p).1 = h' ∧ (DThread.go sup n k p).2.buf = b' ∧ (DThread.go sup n k p).2.err = e' ∧
    (e' = none → (DThread.go sup n k p).2.stack = as)

section
variable {sup : Suppliers} {n : Nat} {P : Heap → Prop}

theorem Along.now (h : Heap) (t : DThread) {b : RBuf} {e : Option JErr} {as : List DActivation} (hp : P h) (hb : t.buf = b)
    (he : t.err = e) (hs : e = none → t.stack = as) : Along sup n P (h, t) h b e as :=
  ⟨0, fun l hl => by obtain rfl : l = 0 := by omega
                     exact hp, rfl, hb, he, hs⟩

theorem Along.step {p : Heap × DThread} {h' : Heap} {b' : RBuf} {e' : Option JErr} {as : List DActivation} (hp : P p.1)
    (h : Along sup n P (p.2.step sup n p.1) h' b' e' as) : Along sup n P p h' b' e' as := by
  obtain ⟨k, h1, hk⟩ := h
  refine ⟨k + 1, fun l hl => ?_, hk⟩
  cases l with
  | zero => exact hp
  | succ l => exact h1 l (by omega)

theorem Along.then {p : Heap × DThread} {h1 h2 : Heap} {b1 b2 : RBuf} {e2 : Option JErr} {as1 as2 : List DActivation}
    (h : Along sup n P p h1 b1 none as1) (h' : Along sup n P (h1, ⟨as1, b1, none⟩) h2 b2 e2 as2) : Along sup n P p h2 b2 e2 as2 := by
  obtain ⟨k, k0, k1, k2, k3, k4⟩ := h
  obtain ⟨l, l0, hl⟩ := h'
  have : DThread.go sup n k p = (h1, ⟨as1, b1, none⟩) := by
    rw [← k1, ← k2, ← k3, ← k4 rfl]
  refine ⟨k + l, fun j hj => ?_, ?_⟩
  · rcases Nat.le_total j k with h | h
    · exact k0 j h
    · obtain ⟨i, rfl⟩ := Nat.le.dest h
      rw [DThread.go_add, this]
      exact l0 i (by omega)
  · rw [DThread.go_add, this]
    exact hl

theorem Along.fail {p : Heap × DThread} {h1 : Heap} {b1 : RBuf} {e : JErr} {as1 as2 : List DActivation}
    (h : Along sup n P p h1 b1 (some e) as1) : Along sup n P p h1 b1 (some e) as2 := by
  obtain ⟨k, k0, k1, k2, k3, -⟩ := h
  exact ⟨k, k0, k1, k2, k3, fun h => by cases h⟩

theorem Along.mono {Q : Heap → Prop} (hPQ : ∀ h, P h → Q h) {p : Heap × DThread} {h' : Heap} {b' : RBuf} {e' : Option JErr} {as : List DActivation}
    (h : Along sup n P p h' b' e' as) : Along sup n Q p h' b' e' as := by
  obtain ⟨k, k0, hk⟩ := h
  exact ⟨k, fun l hl => hPQ _ (k0 l hl), hk⟩

/-- A call keeps the message in a state `mom` allows, all along. -/
def DCallMom (sup : Suppliers) (n m : Nat) (mom : Mom) (ch : HDecCall) : Prop := ∀ c fs r h as b, Unshared h (.obj c fs) (.ref r) → as.length + m = n →
  Along sup n (fun h' => ∃ p, mom c fs b p ∧ Step c r h fs h' p) (h, DThread.enter n r h ⟨as, b, none⟩) (ch r h b).1 (ch r h b).2.1 (ch r h b).2.2 as

/-- A call on the message in field `f` is running: the message that has the field. -/
theorem step_inside {c : Cls} {r : Nat} {h h' : Heap} {fs : List Val} (ho : Unshared h (.obj c fs) (.ref r)) (f a : Nat) (c' : Cls) (fs' q : List Val)
    (hv : fs[f]? = some (.obj c' fs')) (hfa : h.field r f = some (.ref a)) (hs : Step c' a h fs' h' q) :
    Step c r h fs h' (fs.set f (.obj c' q)) := by
  obtain ⟨y, hy, hyo, hry, hsub, hpsub⟩ := unshared_field h c fs r f _ ho hv
  rw [hfa] at hy
  obtain rfl := Option.some.inj hy
  obtain ⟨ys, hr, -, -⟩ := unshared_obj h c fs r ho
  obtain ⟨hgrow, hkeep⟩ := hs
  have hrlt : r < h.length := (List.getElem?_eq_some_iff.1 hr).1
  have hrp : r ∉ parts h (.obj c' fs') (.ref a) := fun hm => hry (parts_sub h _ _ hyo.1 r hm)
  rw [Heap.field_msg h r f c ys hr] at hfa
  have hset : ys.set f (.ref a) = ys := by
    obtain ⟨hlt, he⟩ := List.getElem?_eq_some_iff.1 hfa
    rw [← he, List.set_getElem_self]
  refine ⟨grow_field h _ c fs r f _ _ ys _ _ ho hr hv hfa (by rw [hset, hkeep r hrlt hrp, hr]) ?_ hgrow, ?_⟩
  · intro q hq _ hqr
    exact hkeep q hq (fun hm => hqr (parts_sub h _ _ hyo.1 q hm))
  · intro q hq hqp
    exact hkeep q hq (fun hm => hqp (hpsub q hm))

/-- What is there while a new element is being decoded. -/
theorem new_keep {d : Cls} {h h' : Heap} {q : List Val} (hs : Step d h.length (h ++ [newMsg d]) (freshFields d) h' q) :
    h.length ≤ h'.length ∧ ∀ x < h.length, h'[x]? = h[x]? := by
  obtain ⟨hf1, hf2⟩ := newMsg_spec d h
  have hlen1 : (h ++ [newMsg d]).length = h.length + 1 := by simp
  refine ⟨by have := hs.1.len; omega, fun x hx => ?_⟩
  rw [hs.2 x (by omega) (fun hm => ?_), getElem?_append_lt _ _ _ hx]
  have := parts_sub _ _ _ hf1.1 x hm
  rw [hf2] at this
  have : x = h.length := by simpa using this
  omega

variable {m : Nat} {mom : Mom} {ct : DecCall} {ch : HDecCall} (hc : DCallMom sup n m mom ch) (hok : CallOK ct ch)
include hc

theorem along_field (r : Nat) (c : Cls) (f : Nat) (ss : List DecStmt) (as : List DActivation) (hn : as.length + 1 + m = n) (h : Heap) (b : RBuf) (fs : List Val)
    (ho : Unshared h (.obj c fs) (.ref r)) :
    Along sup n (fun h' => ∃ p, (p = fs ∨ callMoment mom f fs b p) ∧ Step c r h fs h' p) (h, DThread.enterField n r f h ⟨⟨r, c, ss, none⟩ :: as, b, none⟩)
      (hcallField ch r f ⟨h, b⟩).1.h (hcallField ch r f ⟨h, b⟩).1.buf (hcallField ch r f ⟨h, b⟩).2 (⟨r, c, ss, none⟩ :: as) := by
  have hrefl : ∃ p, (p = fs ∨ callMoment mom f fs b p) ∧ Step c r h fs h p := ⟨fs, .inl rfl, Step.refl ho⟩
  simp only [DThread.enterField, hcallField]
  cases hv : fs[f]? with
  | none =>
    rw [field_none h c fs r f ho hv]
    exact Along.now _ _ hrefl rfl rfl (fun h => by cases h)
  | some v =>
    obtain ⟨y, hy, hyo, -, -, -⟩ := unshared_field h c fs r f v ho hv
    have hys := hyo.1
    rw [hy]
    cases v with
    | null => rw [Shows] at hys; subst hys; exact Along.now _ _ hrefl rfl rfl (fun h => by cases h)
    | num x => rw [Shows] at hys; subst hys; exact Along.now _ _ hrefl rfl rfl (fun h => by cases h)
    | str x => rw [Shows] at hys; subst hys; exact Along.now _ _ hrefl rfl rfl (fun h => by cases h)
    | list xs =>
      rw [Shows] at hys
      obtain ⟨a, zs, rfl, ha, -⟩ := hys
      simp only [ha]
      exact Along.now _ _ hrefl rfl rfl (fun h => by cases h)
    | obj c' fs' =>
      rw [Shows] at hys
      obtain ⟨a, zs, rfl, ha, -⟩ := hys
      simp only [ha]
      refine (hc c' fs' a h (⟨r, c, ss, none⟩ :: as) b hyo (by simpa using hn)).mono ?_
      rintro h' ⟨q, h1, h2⟩
      exact ⟨_, .inr ⟨c', fs', q, hv, h1, rfl⟩, step_inside ho f a c' fs' q hv hy h2⟩

include hok

theorem along_elem (r : Nat) (c : Cls) (f a : Nat) (el : DecElem) (ss : List DecStmt) (as : List DActivation) (hn : as.length + 1 + m = n) (k : Nat)
    (h : Heap) (b : RBuf) (fs acc : List Val) (ho : Unshared h (.obj c fs) (.ref r)) (hv : fs[f]? = some (.list acc)) (hfa : h.field r f = some (.ref a)) :
    Along sup n (fun h' => LoopStep c r a h fs h' fs ∨ ∃ xs b', decElems ct el 1 acc b = (xs, b', none) ∧ LoopStep c r a h fs h' (fs.set f (.list xs)))
      (h, ⟨⟨r, c, ss, some (f, el, k + 1, none)⟩ :: as, b, none⟩) (hdecElem ch r f el h b).1 (hdecElem ch r f el h b).2.1
      (hdecElem ch r f el h b).2.2 (⟨r, c, ss, some (f, el, k, none)⟩ :: as) := by
  have hset : fs.set f (.list acc) = fs := by
    obtain ⟨hlt, he⟩ := List.getElem?_eq_some_iff.1 hv
    rw [← he, List.set_getElem_self]
  have hrefl : LoopStep c r a h fs h fs := ⟨Grow.refl ho, fun _ _ _ => rfl⟩
  -- what is there in the end
  have hfin : LoopStep c r a h fs (hdecElem ch r f el h b).1 fs ∨
      ∃ xs b', decElems ct el 1 acc b = (xs, b', none) ∧ LoopStep c r a h fs (hdecElem ch r f el h b).1 (fs.set f (.list xs)) := by
    have := hdecElem_ok hok ho f a acc hv hfa el b
    simp only [decElems]
    revert this
    rcases decElem ct el b with ⟨b', e | _ | v⟩
    · dsimp only; rw [hset]; exact fun h => .inl h.2
    · dsimp only; rw [hset]; exact fun h => .inl h.2
    · exact fun h => .inr ⟨_, _, rfl, h.2⟩
  refine Along.step (.inl hrefl) ?_
  simp only [DThread.step, DThread.iterate]
  cases el with
  | obj d =>
    have one := (hc d (freshFields d) h.length (h ++ [newMsg d]) (⟨r, c, ss, some (f, .obj d, k, some h.length)⟩ :: as) b (newMsg_spec d h).1
      (by simpa using hn)).mono (Q := fun h' => LoopStep c r a h fs h' fs ∨ ∃ xs b', decElems ct (.obj d) 1 acc b = (xs, b', none)
        ∧ LoopStep c r a h fs h' (fs.set f (.list xs))) (by
        rintro h' ⟨q, -, h2⟩
        obtain ⟨hlen, hk⟩ := new_keep h2
        exact .inl ⟨(step_old ho hlen hk).1, fun x hx _ => hk x hx⟩)
    simp only [hdecElem] at hfin ⊢
    revert one hfin
    rcases ch h.length (h ++ [newMsg d]) b with ⟨h', b', _ | e⟩ <;> intro hfin one
    · refine one.then (Along.step ?_ (Along.now _ _ hfin rfl rfl (fun _ => rfl)))
      obtain ⟨K, k0, k1, -⟩ := one
      dsimp only at k1 ⊢
      rw [← k1]; exact k0 K (Nat.le_refl _)
    · exact one.fail
  | _ => exact Along.now _ _ hfin rfl rfl (fun _ => rfl)

omit hc hok in
/-- The list field does not change place during the loop. -/
theorem loop_field {c : Cls} {r a f : Nat} {h h' : Heap} {fs fs' acc : List Val} (ho : Unshared h (.obj c fs) (.ref r)) (hv : fs[f]? = some (.list acc))
    (hfa : h.field r f = some (.ref a)) (hs : LoopStep c r a h fs h' fs') : Heap.field h' r f = some (.ref a) := by
  have hra : r ≠ a := by
    rintro rfl
    obtain ⟨y0, hy0, hyo, hry, _⟩ := unshared_field h c fs r f _ ho hv
    rw [hfa] at hy0
    obtain rfl := Option.some.inj hy0
    have hsy := hyo.1
    rw [Shows] at hsy
    obtain ⟨a', xs, hx, ha, hxs⟩ := hsy
    cases hx
    rw [refs_list h acc r xs ha] at hry
    exact hry (List.mem_cons_self ..)
  obtain ⟨ys, hr, -, -⟩ := unshared_obj h c fs r ho
  rw [← hfa, Heap.field, Heap.field, hs.2 r (List.getElem?_eq_some_iff.1 hr).1 hra]

theorem along_elems (r : Nat) (c : Cls) (f a : Nat) (el : DecElem) (ss : List DecStmt) (as : List DActivation) (hn : as.length + 1 + m = n) (k : Nat) :
    ∀ (h : Heap) (b : RBuf) (fs acc : List Val), Unshared h (.obj c fs) (.ref r) → fs[f]? = some (.list acc) → h.field r f = some (.ref a) →
    Along sup n (fun h' => ∃ j xs b', (j ≤ k ∧ decElems ct el j acc b = (xs, b', none)) ∧ LoopStep c r a h fs h' (fs.set f (.list xs)))
      (h, ⟨⟨r, c, ss, some (f, el, k, none)⟩ :: as, b, none⟩) (hdecElems ch r f el k h b).1 (hdecElems ch r f el k h b).2.1
      (hdecElems ch r f el k h b).2.2 (⟨r, c, ss, none⟩ :: as) := by
  induction k with
  | zero =>
    intro h b fs acc ho hv hfa
    have hset : fs.set f (.list acc) = fs := by
      obtain ⟨hlt, he⟩ := List.getElem?_eq_some_iff.1 hv
      rw [← he, List.set_getElem_self]
    have hrefl : ∃ j xs b', (j ≤ 0 ∧ decElems ct el j acc b = (xs, b', none)) ∧ LoopStep c r a h fs h (fs.set f (.list xs)) :=
      ⟨0, acc, b, ⟨Nat.le_refl _, rfl⟩, by rw [hset]; exact ⟨Grow.refl ho, fun _ _ _ => rfl⟩⟩
    exact Along.step hrefl (Along.now _ _ hrefl rfl rfl (fun _ => rfl))
  | succ k ih =>
    intro h b fs acc ho hv hfa
    have hset : fs.set f (.list acc) = fs := by
      obtain ⟨hlt, he⟩ := List.getElem?_eq_some_iff.1 hv
      rw [← he, List.set_getElem_self]
    have hflt : f < fs.length := (List.getElem?_eq_some_iff.1 hv).1
    have one := (along_elem hc hok r c f a el ss as hn k h b fs acc ho hv hfa).mono
      (Q := fun h' => ∃ j xs b', (j ≤ k + 1 ∧ decElems ct el j acc b = (xs, b', none)) ∧ LoopStep c r a h fs h' (fs.set f (.list xs))) (by
        rintro h' (h1 | ⟨xs, b', h1, h2⟩)
        · exact ⟨0, acc, b, ⟨by omega, rfl⟩, by rw [hset]; exact h1⟩
        · exact ⟨1, xs, b', ⟨by omega, h1⟩, h2⟩)
    have hel := hdecElem_ok hok ho f a acc hv hfa el b
    simp only [hdecElems]
    revert hel one
    rcases hdecElem ch r f el h b with ⟨h', b', _ | e⟩
    · rcases hd : decElem ct el b with ⟨b'', e | _ | v⟩
      · rintro - ⟨h1, -⟩
        simp at h1
      · rintro one ⟨h1, h2⟩
        simp only [Prod.mk.injEq, and_true] at h1
        subst h1
        refine one.then ((ih h' b' _ acc h2.1.own (by rw [List.getElem?_set_self hflt]) (loop_field ho hv hfa h2)).mono ?_)
        rintro h'' ⟨j, xs, b2, ⟨gj, g1⟩, g2⟩
        rw [List.set_set] at g2
        exact ⟨j + 1, xs, b2, ⟨by omega, by simp only [decElems, hd]; exact g1⟩, h2.trans g2⟩
      · rintro one ⟨h1, h2⟩
        simp only [Prod.mk.injEq, and_true] at h1
        subst h1
        refine one.then ((ih h' b' _ (acc ++ [v]) h2.1.own (by rw [List.getElem?_set_self hflt]) (loop_field ho hv hfa h2)).mono ?_)
        rintro h'' ⟨j, xs, b2, ⟨gj, g1⟩, g2⟩
        rw [List.set_set] at g2
        exact ⟨j + 1, xs, b2, ⟨by omega, by simp only [decElems, hd]; exact g1⟩, h2.trans g2⟩
    · intro one _
      exact one.fail

/-- A list in a field the class does not have. -/
theorem along_out (r : Nat) (c : Cls) (f : Nat) (el : DecElem) (ss : List DecStmt) (as : List DActivation) (hn : as.length + 1 + m = n) (fs : List Val)
    (hv : fs[f]? = none) (k : Nat) : ∀ (h : Heap) (b : RBuf), Unshared h (.obj c fs) (.ref r) →
    Along sup n (fun h' => h.length ≤ h'.length ∧ ∀ x < h.length, h'[x]? = h[x]?)
      (h, ⟨⟨r, c, ss, some (f, el, k, none)⟩ :: as, b, none⟩) (hdecElems ch r f el k h b).1 (hdecElems ch r f el k h b).2.1
      (hdecElems ch r f el k h b).2.2 (⟨r, c, ss, none⟩ :: as) := by
  induction k with
  | zero =>
    intro h b ho
    exact Along.step ⟨Nat.le_refl _, fun _ _ => rfl⟩ (Along.now _ _ ⟨Nat.le_refl _, fun _ _ => rfl⟩ rfl rfl (fun _ => rfl))
  | succ k ih =>
    intro h b ho
    have hfin := hdecElems_out hok f el hv 1 h [] b ho
    have hrefl : h.length ≤ h.length ∧ ∀ x < h.length, h[x]? = h[x]? := ⟨Nat.le_refl _, fun _ _ => rfl⟩
    have e1 : (hdecElems ch r f el 1 h b) = hdecElem ch r f el h b := by
      simp only [hdecElems]
      rcases hdecElem ch r f el h b with ⟨h', b', _ | e⟩ <;> rfl
    rw [e1] at hfin
    have one : Along sup n (fun h' => h.length ≤ h'.length ∧ ∀ x < h.length, h'[x]? = h[x]?)
        (h, ⟨⟨r, c, ss, some (f, el, k + 1, none)⟩ :: as, b, none⟩) (hdecElem ch r f el h b).1 (hdecElem ch r f el h b).2.1
        (hdecElem ch r f el h b).2.2 (⟨r, c, ss, some (f, el, k, none)⟩ :: as) := by
      refine Along.step hrefl ?_
      simp only [DThread.step, DThread.iterate]
      cases el with
      | obj d =>
        have one := (hc d (freshFields d) h.length (h ++ [newMsg d]) (⟨r, c, ss, some (f, .obj d, k, some h.length)⟩ :: as) b (newMsg_spec d h).1
          (by simpa using hn)).mono (Q := fun h' => h.length ≤ h'.length ∧ ∀ x < h.length, h'[x]? = h[x]?) (by
            rintro h' ⟨q, -, h2⟩
            exact new_keep h2)
        simp only [hdecElem] at hfin ⊢
        revert one hfin
        rcases ch h.length (h ++ [newMsg d]) b with ⟨h', b', _ | e⟩ <;> intro hfin one
        · refine one.then (Along.step ?_ (Along.now _ _ hfin.2 rfl rfl (fun _ => rfl)))
          obtain ⟨K, k0, k1, -⟩ := one
          dsimp only at k1 ⊢
          rw [← k1]; exact k0 K (Nat.le_refl _)
        · exact one.fail
      | _ => exact Along.now _ _ hfin.2 rfl rfl (fun _ => rfl)
    simp only [hdecElems]
    revert one
    obtain ⟨-, g2, g3⟩ := hfin
    revert g2 g3
    rcases hdecElem ch r f el h b with ⟨h', b', _ | e⟩ <;> intro g2 g3 one
    · refine one.then ((ih h' b' (step_old ho g2 g3).1.own).mono ?_)
      rintro h'' ⟨q1, q2⟩
      exact ⟨Nat.le_trans g2 q1, fun x hx => by rw [q2 x (Nat.lt_of_lt_of_le hx g2), g3 x hx]⟩
    · exact one.fail

end

theorem along_stmt (w : World) {n m : Nat} {mom : Mom} {ct : DecCall} {ch : HDecCall} (hc : DCallMom w.suppliers n m mom ch) (hok : CallOK ct ch)
    (hr0 : ∀ c fs b, mom c fs b fs) (r : Nat) (c : Cls) (s : DecStmt) (ss : List DecStmt) (as : List DActivation) (hn : as.length + 1 + m = n)
    (h : Heap) (b : RBuf) (fs : List Val) (ho : Unshared h (.obj c fs) (.ref r)) :
    Along w.suppliers n (fun h' => ∃ p, (p = fs ∨ stmtMoment ct mom s ⟨fs, b⟩ p
        ∨ ∃ st', decStmt w ct ((decl c).fields.map (·.2)) s ⟨fs, b⟩ = (st', none) ∧ p = st'.fs) ∧ Step c r h fs h' p)
      (h, ⟨⟨r, c, s :: ss, none⟩ :: as, b, none⟩) (hdecStmt w.suppliers ch r ((decl c).fields.map (·.2)) s ⟨h, b⟩).1.h
      (hdecStmt w.suppliers ch r ((decl c).fields.map (·.2)) s ⟨h, b⟩).1.buf (hdecStmt w.suppliers ch r ((decl c).fields.map (·.2)) s ⟨h, b⟩).2
      (⟨r, c, ss, none⟩ :: as) := by
  have hrefl : ∃ p, (p = fs ∨ stmtMoment ct mom s ⟨fs, b⟩ p
        ∨ ∃ st', decStmt w ct ((decl c).fields.map (·.2)) s ⟨fs, b⟩ = (st', none) ∧ p = st'.fs) ∧ Step c r h fs h p := ⟨fs, .inl rfl, Step.refl ho⟩
  obtain ⟨hr2, -, hr3⟩ := hdecStmt_ok w hok ho ((decl c).fields.map (·.2)) s b
  -- a statement that is one step
  have single : (∀ st' e, decStmt w ct ((decl c).fields.map (·.2)) s ⟨fs, b⟩ = (st', some e) → st'.fs = fs) →
      ∃ p, (p = fs ∨ stmtMoment ct mom s ⟨fs, b⟩ p
        ∨ ∃ st', decStmt w ct ((decl c).fields.map (·.2)) s ⟨fs, b⟩ = (st', none) ∧ p = st'.fs)
        ∧ Step c r h fs (hdecStmt w.suppliers ch r ((decl c).fields.map (·.2)) s ⟨h, b⟩).1.h p := by
    intro hs
    clear hr2
    revert hr3 hs
    generalize decStmt w ct ((decl c).fields.map (·.2)) s ⟨fs, b⟩ = o
    obtain ⟨st', _ | e⟩ := o <;> intro hr3 hs
    · exact ⟨_, .inr (.inr ⟨st', rfl, rfl⟩), hr3⟩
    · have := hs _ _ rfl
      dsimp only at hr3
      rw [this] at hr3
      exact ⟨fs, .inl rfl, hr3⟩
  refine Along.step hrefl ?_
  simp only [DThread.step]
  cases s with
  | list f t e el =>
    simp only [DThread.exec, hdecStmt]
    rcases hn' : b.readNum e t with ⟨b', err | k⟩
    · exact Along.now _ _ hrefl rfl rfl (fun h => by cases h)
    · dsimp only
      by_cases hk : 0 < k.bits.toInt
      · rw [if_pos hk, if_pos hk]
        have hself : (h ++ [HObj.arr []])[h.length]? = some (.arr []) := by simp
        have hstep : Step c r h fs (Heap.setField (h ++ [.arr []]) r f (.ref h.length)) (fs.set f (.list [])) := by
          refine step_set ho (by simp) (fun q hq => getElem?_append_lt _ _ _ hq) f (.list []) (.ref h.length) ⟨?_, ?_⟩ ?_
          · rw [Shows]; exact ⟨_, _, rfl, hself, by rw [ShowsAll]⟩
          · rw [refs_list _ _ _ _ hself]; simp [refsAll]
          · rw [refs_list _ _ _ _ hself]; simp [refsAll]
        obtain ⟨h1, hh1⟩ : ∃ h1, h1 = Heap.setField (h ++ [.arr []]) r f (.ref h.length) := ⟨_, rfl⟩
        rw [← hh1] at hstep ⊢
        obtain ⟨ys, hr, hs, -⟩ := unshared_obj h c fs r ho
        have hrlt : r < h.length := (List.getElem?_eq_some_iff.1 hr).1
        cases hv : fs[f]? with
        | none =>
          rw [List.set_eq_of_length_le (List.getElem?_eq_none_iff.1 hv)] at hstep
          refine (along_out hc hok r c f el ss as hn fs hv k.bits.toNat h1 b' hstep.1.own).mono ?_
          rintro h' ⟨g1, g2⟩
          exact ⟨fs, .inl rfl, hstep.trans (step_old hstep.1.own g1 g2)⟩
        | some v =>
          have hflt : f < fs.length := (List.getElem?_eq_some_iff.1 hv).1
          have hl := ShowsAll_length h fs ys hs
          have hf1 : Heap.field h1 r f = some (.ref h.length) := by
            rw [hh1, Heap.field_msg _ r f c _ (Heap.setField_self _ r f c ys _ (by rw [getElem?_append_lt _ _ _ hrlt, hr])),
              List.getElem?_set_self (by omega)]
          refine (along_elems hc hok r c f h.length el ss as hn k.bits.toNat h1 b' (fs.set f (.list [])) [] hstep.1.own
            (List.getElem?_set_self hflt) hf1).mono ?_
          rintro h' ⟨j, xs, b2, g1, g2⟩
          rw [List.set_set] at g2
          refine ⟨_, .inr (.inl ⟨b', k, j, b2, xs, hn', hk, g1, rfl⟩), hstep.1.trans g2.1, ?_⟩
          intro q hq hqp
          rw [g2.2 q (Nat.lt_of_lt_of_le hq hstep.1.len) (by omega), hstep.2 q hq hqp]
      · rw [if_neg hk, if_neg hk]
        exact Along.now _ _ hrefl rfl rfl (fun _ => rfl)
  | obj f d =>
    have use : ∀ h', (∃ p, (p = fs ∨ callMoment mom f fs b p) ∧ Step c r h fs h' p) → ∃ p, (p = fs ∨ stmtMoment ct mom (.obj f d) ⟨fs, b⟩ p
        ∨ ∃ st', decStmt w ct ((decl c).fields.map (·.2)) (.obj f d) ⟨fs, b⟩ = (st', none) ∧ p = st'.fs) ∧ Step c r h fs h' p := by
      rintro h' ⟨p, h1 | h1, h2⟩
      · exact ⟨p, .inl h1, h2⟩
      · exact ⟨p, .inr (.inl (.inr h1)), h2⟩
    simp only [DThread.exec, hdecStmt]
    cases hv : fs[f]? with
    | none =>
      simp only [field_none h c fs r f ho hv]
      exact Along.step hrefl ((along_field hc r c f ss as hn h b fs ho).mono use)
    | some v =>
      obtain ⟨y, hy, hyo, -, -, -⟩ := unshared_field h c fs r f v ho hv
      have hys := hyo.1
      rw [hy]
      cases v with
      | null =>
        rw [Shows] at hys
        subst hys
        dsimp only
        obtain ⟨hf1, hf2⟩ := newMsg_spec d h
        have hstep : Step c r h fs (Heap.setField (h ++ [newMsg d]) r f (.ref h.length)) (fs.set f (fresh d)) :=
          step_set ho (by simp) (fun q hq => getElem?_append_lt _ _ _ hq) f (fresh d) (.ref h.length) hf1 (by rw [hf2]; simp)
        have hflt : f < fs.length := (List.getElem?_eq_some_iff.1 hv).1
        have hnew : ∃ p, (p = fs ∨ stmtMoment ct mom (.obj f d) ⟨fs, b⟩ p
            ∨ ∃ st', decStmt w ct ((decl c).fields.map (·.2)) (.obj f d) ⟨fs, b⟩ = (st', none) ∧ p = st'.fs)
            ∧ Step c r h fs (Heap.setField (h ++ [newMsg d]) r f (.ref h.length)) p :=
          ⟨_, .inr (.inl (.inl ⟨hv, freshFields d, hr0 _ _ _, rfl⟩)), hstep⟩
        refine Along.step hnew ((along_field hc r c f ss as hn _ b _ hstep.1.own).mono ?_)
        rintro h' ⟨p, rfl | ⟨c', fs', q, h1, h2, rfl⟩, h3⟩
        · exact ⟨_, .inr (.inl (.inl ⟨hv, freshFields d, hr0 _ _ _, rfl⟩)), hstep.trans h3⟩
        · rw [List.getElem?_set_self hflt] at h1
          simp only [fresh, Option.some.injEq, Val.obj.injEq] at h1
          obtain ⟨rfl, rfl⟩ := h1
          rw [List.set_set] at h3
          exact ⟨_, .inr (.inl (.inl ⟨hv, q, h2, rfl⟩)), hstep.trans h3⟩
      | num x => rw [Shows] at hys; subst hys; exact Along.step hrefl ((along_field hc r c f ss as hn h b fs ho).mono use)
      | str x => rw [Shows] at hys; subst hys; exact Along.step hrefl ((along_field hc r c f ss as hn h b fs ho).mono use)
      | list xs =>
        rw [Shows] at hys
        obtain ⟨a, zs, rfl, ha, -⟩ := hys
        exact Along.step hrefl ((along_field hc r c f ss as hn h b fs ho).mono use)
      | obj c' fs' =>
        rw [Shows] at hys
        obtain ⟨a, zs, rfl, ha, -⟩ := hys
        exact Along.step hrefl ((along_field hc r c f ss as hn h b fs ho).mono use)
  | call f =>
    simp only [DThread.exec, hdecStmt]
    refine (along_field hc r c f ss as hn h b fs ho).mono ?_
    rintro h' ⟨p, h1 | h1, h2⟩
    · exact ⟨p, .inl h1, h2⟩
    · exact ⟨p, .inr (.inl h1), h2⟩
  | num f t e =>
    refine Along.now _ _ (single ?_) rfl rfl (fun _ => rfl)
    intro st' err hd
    simp only [decStmt] at hd
    revert hd
    rcases b.readNum e t with ⟨b', e' | k⟩
    · intro hd; simp only [Prod.mk.injEq] at hd; rw [← hd.1]
    · dsimp only
      generalize ((decl c).fields.map (·.2))[f]?.bind (assignNum · k) = o
      rcases o with _ | v
      · intro hd; simp only [Prod.mk.injEq] at hd; rw [← hd.1]
      · intro hd; simp at hd
  | fixed f k pad left =>
    refine Along.now _ _ (single ?_) rfl rfl (fun _ => rfl)
    intro st' err hd
    simp only [decStmt] at hd
    revert hd
    rcases readFixedString b k pad left with ⟨b', e' | x⟩
    · intro hd; simp only [Prod.mk.injEq] at hd; rw [← hd.1]
    · intro hd; simp at hd
  | dyn f t e =>
    refine Along.now _ _ (single ?_) rfl rfl (fun _ => rfl)
    intro st' err hd
    simp only [decStmt] at hd
    revert hd
    rcases readDyn b t e with ⟨b', e' | _ | x⟩
    · intro hd; simp only [Prod.mk.injEq] at hd; rw [← hd.1]
    · intro hd; simp at hd
    · intro hd; simp at hd
  | create f fac key =>
    refine Along.now _ _ (single ?_) rfl rfl (fun _ => rfl)
    intro st' err hd
    simp only [decStmt] at hd
    revert hd
    rcases fs[key]? with _ | kv
    · intro hd; simp only [Prod.mk.injEq] at hd; rw [← hd.1]
    · dsimp only
      rcases w.fac fac (keyOf kv) with _ | u
      · intro hd; simp only [Prod.mk.injEq] at hd; rw [← hd.1]
      · intro hd; simp at hd

theorem along_stmts (w : World) {n m : Nat} {mom : Mom} {ct : DecCall} {ch : HDecCall} (hc : DCallMom w.suppliers n m mom ch) (hok : CallOK ct ch)
    (hr0 : ∀ c fs b, mom c fs b fs) (r : Nat) (c : Cls) (as : List DActivation) (hn : as.length + 1 + m = n) (ss : List DecStmt) :
    ∀ (h : Heap) (b : RBuf) (fs : List Val), Unshared h (.obj c fs) (.ref r) →
    Along w.suppliers n (fun h' => ∃ p, stmtsMoment w ct mom ((decl c).fields.map (·.2)) ss ⟨fs, b⟩ p ∧ Step c r h fs h' p)
      (h, ⟨⟨r, c, ss, none⟩ :: as, b, none⟩) (hdecStmts w.suppliers ch r ((decl c).fields.map (·.2)) ss ⟨h, b⟩).1.h
      (hdecStmts w.suppliers ch r ((decl c).fields.map (·.2)) ss ⟨h, b⟩).1.buf (hdecStmts w.suppliers ch r ((decl c).fields.map (·.2)) ss ⟨h, b⟩).2 as := by
  induction ss with
  | nil =>
    intro h b fs ho
    have hrefl : ∃ p, stmtsMoment w ct mom ((decl c).fields.map (·.2)) [] ⟨fs, b⟩ p ∧ Step c r h fs h p := ⟨fs, rfl, Step.refl ho⟩
    exact Along.step hrefl (Along.now _ _ hrefl rfl rfl (fun _ => rfl))
  | cons s ss ih =>
    intro h b fs ho
    have one := (along_stmt w hc hok hr0 r c s ss as hn h b fs ho).mono
      (Q := fun h' => ∃ p, stmtsMoment w ct mom ((decl c).fields.map (·.2)) (s :: ss) ⟨fs, b⟩ p ∧ Step c r h fs h' p) (by
        rintro h' ⟨p, h1 | h1 | ⟨st', h1, h2⟩, h3⟩
        · exact ⟨p, .inl h1, h3⟩
        · exact ⟨p, .inr (.inl h1), h3⟩
        · exact ⟨p, .inr (.inr ⟨st', h1, by rw [h2]; exact stmtsMoment_refl w ct mom _ ss st'⟩), h3⟩)
    obtain ⟨g1, g2, g3⟩ := hdecStmt_ok w hok ho ((decl c).fields.map (·.2)) s b
    simp only [hdecStmts]
    generalize hdecStmt w.suppliers ch r _ s ⟨h, b⟩ = o at one g1 g2 g3 ⊢
    obtain ⟨⟨h', b'⟩, e⟩ := o
    rcases hd : decStmt w ct ((decl c).fields.map (·.2)) s ⟨fs, b⟩ with ⟨⟨fs', b''⟩, e'⟩
    rw [hd] at g1 g2 g3
    dsimp only at g1 g2 g3 ⊢
    subst g1; subst g2
    cases e with
    | some e => exact one.fail
    | none =>
      refine one.then ((ih h' b' fs' g3.1.own).mono ?_)
      rintro h'' ⟨p, q1, q2⟩
      exact ⟨p, .inr (.inr ⟨⟨fs', b'⟩, hd, q1⟩), g3.trans q2⟩

theorem along_hdecode (w : World) (n : Nat) : ∀ m, DCallMom w.suppliers n m (moment w m) (hdecode w.suppliers m) := by
  intro m
  induction m with
  | zero =>
    intro c fs r h as b ho hn
    have hlt : ¬ as.length < n := by omega
    simp only [DThread.enter, hlt, if_false, hdecode]
    exact Along.now _ _ ⟨fs, rfl, Step.refl ho⟩ rfl rfl (fun h => by cases h)
  | succ m ih =>
    intro c fs r h as b ho hn
    have hlt : as.length < n := by omega
    obtain ⟨ys, hr, -, -⟩ := unshared_obj h c fs r ho
    simp only [DThread.enter, hlt, if_true, hdecode, hr]
    exact along_stmts w ih (hdecode_ok w m) (fun c fs b => moment_refl w m c fs b) r c as (by omega) (decl c).dec h b fs ho

/-- A thread alone, stopped at any moment. -/
theorem go_moment (w : World) (n : Nat) (c : Cls) (fs : List Val) (r : Nat) (h : Heap) (b : RBuf) (ho : Unshared h (.obj c fs) (.ref r)) (k : Nat) :
    ∃ p, moment w n c fs b p ∧ Step c r h fs (DThread.go w.suppliers n k (h, DThread.enter n r h ⟨[], b, none⟩)).1 p := by
  obtain ⟨K, k0, k1, k2, k3, k4⟩ := along_hdecode w n n c fs r h [] b ho (by simp)
  rcases Nat.le_total k K with hk | hk
  · exact k0 k hk
  · obtain ⟨l, rfl⟩ := Nat.le.dest hk
    rw [DThread.go_add, DThread.go_done]
    · exact k0 K (Nat.le_refl _)
    · rw [k3]
      rcases he : (hdecode w.suppliers n r h b).2.2 with _ | e
      · exact .inr (k4 he)
      · exact .inl (by simp)

end FinProto
