import Verif.Proofs.HeapMoments
import Verif.Proofs.Renaming
import Verif.Proofs.Reuse
import Verif.Spec.HalfDecoded
/-
Helper lemmas for C95.
-/
namespace FinProto

/-! ### Renaming keeps messages free of sharing -/

theorem refs_rel {ρ : Nat → Nat → Prop} {h h' : Heap} (hr : Ren ρ h h') (v : Val) : ∀ x y, RelV ρ x y → Shows h v x → Pw ρ (refs h v x) (refs h' v y) := by
  have app : ∀ {xs ys xs' ys' : List Nat}, Pw ρ xs ys → Pw ρ xs' ys' → Pw ρ (xs ++ xs') (ys ++ ys') := by
    intro xs ys xs' ys' h1 h2
    induction h1 with
    | nil => exact h2
    | cons h _ ih => exact .cons h ih
  apply Val.rec
    (motive_1 := fun v => ∀ x y, RelV ρ x y → Shows h v x → Pw ρ (refs h v x) (refs h' v y))
    (motive_2 := fun vs => ∀ xs ys, Pw (RelV ρ) xs ys → ShowsAll h vs xs → Pw ρ (refsAll h vs xs) (refsAll h' vs ys))
  · intro x y hxy hs; simp only [refs]; exact .nil
  · intro n x y hxy hs; simp only [refs]; exact .nil
  · intro s x y hxy hs; simp only [refs]; exact .nil
  · intro vs ih x y hxy hs
    rw [Shows] at hs
    obtain ⟨a, xs, rfl, ha, hs⟩ := hs
    cases hxy with
    | ref hab =>
      obtain ⟨o, o', h1, h2, h3⟩ := hr.obj _ _ hab
      rw [ha] at h1
      cases h1
      cases h3 with
      | arr h3 =>
        rw [refs_list h vs a xs ha, refs_list h' vs _ _ h2]
        exact .cons hab (ih _ _ h3 hs)
  · intro c vs ih x y hxy hs
    rw [Shows] at hs
    obtain ⟨a, xs, rfl, ha, hs⟩ := hs
    cases hxy with
    | ref hab =>
      obtain ⟨o, o', h1, h2, h3⟩ := hr.obj _ _ hab
      rw [ha] at h1
      cases h1
      cases h3 with
      | msg _ h3 =>
        rw [refs_obj h c vs a c xs ha, refs_obj h' c vs _ c _ h2]
        exact .cons hab (ih _ _ h3 hs)
  · intro xs ys hp hs; simp only [refsAll]; exact .nil
  · intro v vs ih1 ih2 xs ys hp hs
    rw [ShowsAll] at hs
    obtain ⟨z, zs, rfl, h1, h2⟩ := hs
    cases hp with
    | cons h3 h4 =>
      rw [refsAll, refsAll]
      exact app (ih1 _ _ h3 h1) (ih2 _ _ h4 h2)

theorem unshared_rel {ρ : Nat → Nat → Prop} {h h' : Heap} (hr : Ren ρ h h') {v : Val} {x y : HVal} (hxy : RelV ρ x y) (ho : Unshared h v x) :
    Unshared h' v y := by
  refine ⟨shows_rel hr v x y hxy ho.1, ?_⟩
  have key : ∀ {xs ys : List Nat}, Pw ρ xs ys → xs.Nodup → ys.Nodup := by
    intro xs ys hp
    induction hp with
    | nil => intro _; exact List.nodup_nil
    | cons hab hp ih =>
      rename_i a b as bs
      intro hn
      rw [List.nodup_cons] at hn ⊢
      refine ⟨fun hm => ?_, ih hn.2⟩
      obtain ⟨i, hi, he⟩ := List.mem_iff_getElem.1 hm
      rcases hp.get i with ⟨-, h2⟩ | ⟨a', b', h1, h2, h3⟩
      · rw [List.getElem?_eq_none_iff] at h2; omega
      · rw [List.getElem?_eq_getElem hi, he] at h2
        cases h2
        have := hr.inj _ _ _ hab h3
        subst this
        exact hn.1 (List.mem_of_getElem? h1)
  exact key (refs_rel hr v x y hxy ho.1) ho.2

/-! ### One event -/

/-- The message a stopped thread was decoding into. -/
theorem halt_moment (w : World) (e : Halt) (h : Heap) (hap : Apart h e.jobs) (i r : Nat) (b : RBuf) (hj : e.jobs i = .dec r b) (c : Cls) (fs : List Val)
    (ho : Unshared h (.obj c fs) (.ref r)) :
    ∃ p, moment w e.depth c fs b p ∧ Unshared (e.final w h).h (.obj c p) (.ref r) := by
  obtain ⟨ρ, hi⟩ : ∃ ρ, WInv w w.suppliers e.depth h (fun i => (e.jobs i).start e.depth h) (fun i => Reach h (e.jobs i).root)
      (e.final w h) (fun j => e.sched.count j) ρ := by
    have := WInv.run (makes_suppliers w) e.sched _ _ _ (WInv.start w w.suppliers e.depth h e.jobs hap.2 hap.1)
    simpa only [Nat.zero_add, Halt.final] using this
  have hren := hi.ren i
  rw [hj, Job.start, go_dec] at hren
  obtain ⟨p, h1, h2⟩ := go_moment w e.depth c fs r h b ho (e.sched.count i)
  have hroot := root_rel hi i
  rw [hj] at hroot
  exact ⟨p, h1, unshared_rel hren hroot h2.1.own⟩

/-- A message no thread was working on. -/
theorem halt_rest (w : World) (e : Halt) (h : Heap) (hap : Apart h e.jobs) (v : Val) (x : HVal) (hno : ∀ i q, Reach h (e.jobs i).root q → ¬ Reach h x q)
    (ho : Unshared h v x) : Unshared (e.final w h).h v x := by
  obtain ⟨ρ, hi⟩ : ∃ ρ, WInv w w.suppliers e.depth h (fun i => (e.jobs i).start e.depth h) (fun i => Reach h (e.jobs i).root)
      (e.final w h) (fun j => e.sched.count j) ρ := by
    have := WInv.run (makes_suppliers w) e.sched _ _ _ (WInv.start w w.suppliers e.depth h e.jobs hap.2 hap.1)
    simpa only [Nat.zero_add, Halt.final] using this
  refine unshared_frame ho (fun q hq => hi.rest q (refs_lt h v x ho.1 q hq) (fun i hr => hno i q hr ?_))
  exact (refs_iff_reach h v x ho.1 q).1 hq

/-- Decoding again, possibly with another stack. -/
theorem moment_again (w : World) (hw : TypedSuppliers w) (n m : Nat) (c : Cls) (olds : List Val) (bt bf : RBuf) (p : List Val)
    (ht : fieldsHaveType (javaTypes c) olds = true) (hb : Beh bt bf) (hp : moment w m c olds bt p) (hok : (decode w n c olds bf).2.2 = none) :
    decode w n c p bf = decode w n c olds bf := by
  have hp' := moment_mono w m (max n m) (Nat.le_max_right _ _) c olds bt p hp
  have h1 := decode_agree_le w n (max n m) (Nat.le_max_left _ _) c olds bf (by rw [hok]; simp)
  have h2 := moment_resume w (max n m) c olds bt bf p ht hb hp' (by rw [h1]; exact hok)
  have ht' := moment_typed w hw m c olds bt p ht hp
  have h3 := (decode_over w n c p bf ht').1
  have h4 := (decode_over w n c olds bf ht).1
  have h5 := decode_agree_le w n (max n m) (Nat.le_max_left _ _) c p bf (by rw [h3, ← h4, hok]; simp)
  rw [← h5, h2, h1]

/-! ### What the fields hold -/

theorem decElems_acc (call : DecCall) (el : DecElem) (k : Nat) : ∀ acc b, acc <+: (decElems call el k acc b).1 := by
  induction k with
  | zero => intro acc b; exact List.prefix_refl _
  | succ k ih =>
    intro acc b
    simp only [decElems]
    split
    · exact List.prefix_refl _
    · exact ih _ _
    · exact (List.prefix_append _ _).trans (ih _ _)

theorem decElems_prefix (call : DecCall) (el : DecElem) (k : Nat) : ∀ j acc b xs b', j ≤ k → decElems call el j acc b = (xs, b', none) →
    xs <+: (decElems call el k acc b).1 := by
  induction k with
  | zero =>
    intro j acc b xs b' hj h
    obtain rfl : j = 0 := by omega
    cases h
    exact List.prefix_refl _
  | succ k ih =>
    intro j acc b xs b' hj h
    cases j with
    | zero => cases h; exact decElems_acc call el (k + 1) _ _
    | succ j =>
      simp only [decElems] at h ⊢
      revert h
      rcases decElem call el b with ⟨b1, e | _ | v⟩
      · intro h; simp at h
      · exact fun h => ih j _ _ _ _ (by omega) h
      · exact fun h => ih j _ _ _ _ (by omega) h

/-- Moments lie between the start and the end. -/
def MomPartly (w : World) (call : DecCall) (mom : Mom) : Prop := ∀ c fs b p, fieldsHaveType (javaTypes c) fs = true → mom c fs b p →
  PartlyFilled w fs p (call c fs b).1

theorem fieldMoment_partly (w : World) (hw : TypedSuppliers w) (call : DecCall) (mom : Mom) (hm : MomPartly w call mom) (k : Conv) (done : List Val)
    (t : WTy) (old : Val) (b : RBuf) (v : Val) (ho : hasType t.java old = true) (h : fieldMoment w call mom k done t old b v) :
    Partly w old v (readField w call k done t old b).1 := by
  rcases h with rfl | rfl | h
  · exact .old
  · exact .new
  · cases t with
    | list e =>
      obtain ⟨b', n, j, xs, b'', h1, h2, ⟨hj, h3⟩, rfl⟩ := h
      simp only [readField, h1, if_pos h2]
      exact .list (decElems_prefix _ _ _ j _ _ _ _ hj h3)
    | sub c =>
      rcases h with ⟨rfl, q, h2, rfl⟩ | ⟨c', fs', q, rfl, h2, rfl⟩
      · exact .made (.inl rfl) (hm c _ b q (typed_fresh c) h2)
      · simp only [hasType, WTy.java, Bool.and_eq_true] at ho
        exact .inside (hm c' _ b q ho.2 h2)
    | ext fac key =>
      obtain ⟨kv, u, h1, h2, h3⟩ := h
      simp only [readField, h1, h2]
      rcases h3 with rfl | ⟨c', fs', q, rfl, h3, rfl⟩
      · cases v with
        | obj c' fs' => exact .made (.inr ⟨fac, _, h2⟩) .untouched
        | _ => exact .new
      · have := hw fac _ _ h2
        simp only [wellTyped, hasType, Bool.true_and] at this
        exact .made (.inr ⟨fac, _, h2⟩) (hm c' fs' b q this h3)
    | _ => exact h.elim

theorem readFields_done (w : World) (call : DecCall) (k : Conv) (ts : List WTy) : ∀ (done olds : List Val) (b : RBuf),
    ∃ ns, (readFields w call k done ts olds b).1 = done ++ ns := by
  induction ts with
  | nil => intro done olds b; exact ⟨olds, by simp [readFields]⟩
  | cons t ts ih =>
    intro done olds b
    cases olds with
    | nil => exact ⟨[], by simp [readFields]⟩
    | cons o os =>
      simp only [readFields]
      split
      · rename_i v b' _
        obtain ⟨ns, h⟩ := ih (done ++ [v]) os b'
        exact ⟨v :: ns, by rw [h]; simp⟩
      · exact ⟨_, rfl⟩

theorem fieldsMoment_partly (w : World) (hw : TypedSuppliers w) (call : DecCall) (mom : Mom) (hm : MomPartly w call mom) (k : Conv) (ts : List WTy) :
    ∀ (done olds : List Val) (b : RBuf) (p : List Val), fieldsHaveType (ts.map (·.java)) olds = true → fieldsMoment w call mom k done ts olds b p →
    ∃ qs ns, p = done ++ qs ∧ (readFields w call k done ts olds b).1 = done ++ ns ∧ PartlyFilled w olds qs ns := by
  induction ts with
  | nil => intro done olds b p _ h; exact ⟨olds, olds, by cases olds <;> exact h, by simp [readFields], .untouched⟩
  | cons t ts ih =>
    intro done olds b p ht h
    cases olds with
    | nil => exact ⟨[], [], h, by simp [readFields], .untouched⟩
    | cons o os =>
      simp only [List.map_cons, fieldsHaveType, Bool.and_eq_true] at ht
      simp only [readFields]
      rcases h with ⟨v, h1, h2⟩ | ⟨v, b', h1, h2⟩
      · have := fieldMoment_partly w hw call mom hm k done t o b v ht.1 h1
        revert this
        rcases readField w call k done t o b with ⟨v', b', _ | e⟩
        · intro this
          obtain ⟨ns, hn⟩ := readFields_done w call k ts (done ++ [v']) os b'
          exact ⟨v :: os, v' :: ns, h2, by rw [hn]; simp, .here this⟩
        · intro this
          exact ⟨v :: os, v' :: os, h2, rfl, .here this⟩
      · rw [h1]
        obtain ⟨qs, ns, g1, g2, g3⟩ := ih (done ++ [v]) os b' p ht.2 h2
        exact ⟨v :: qs, v :: ns, by rw [g1]; simp, by simp only [g2]; simp, .later g3⟩

theorem moment_partly (w : World) (hw : TypedSuppliers w) (n : Nat) : MomPartly w (decode w n) (moment w n) := by
  induction n with
  | zero => intro c fs b p _ h; cases h; exact .untouched
  | succ n ih =>
    intro c fs b p ht h
    have hl := fields_length c fs ht
    have h1 := moment_eq w n c fs b p hl h
    obtain ⟨qs, ns, g1, g2, g3⟩ := fieldsMoment_partly w hw _ _ ih (conv c.mod) (wire c) [] fs b p (by rw [← type_table]; exact ht) h1
    rw [decode_eq w n c fs b hl, g2, g1]
    exact g3

/-! ### Buffers -/

/-- Reading: the bytes are as they were, the reader index has gone forward at most. -/
def ReadOn (b b' : RBuf) : Prop := b'.data = b.data ∧ b'.spare = b.spare ∧ b.rd ≤ b'.rd

theorem ReadOn.refl (b : RBuf) : ReadOn b b := ⟨rfl, rfl, Nat.le_refl _⟩

theorem ReadOn.trans {a b c : RBuf} (h : ReadOn a b) (h' : ReadOn b c) : ReadOn a c :=
  ⟨h'.1.trans h.1, h'.2.1.trans h.2.1, Nat.le_trans h.2.2 h'.2.2⟩

theorem readOn_law {α : Type} {f : RBuf → RBuf × Except JErr α} (h : Law (toReader f)) (b : RBuf) : ReadOn b (f b).1 := by
  have h1 := h.data b
  have h2 := h.spare b
  have h3 := h.forward b
  simp only [toReader] at h1 h2 h3
  revert h1 h2 h3
  rcases f b with ⟨b', e | a⟩ <;> exact fun h1 h2 h3 => ⟨h1, h2, h3⟩

theorem readOn_elem (r f : Nat) (el : DecElem) (h : Heap) (b : RBuf) : ReadOn b (hdecElem (fun _ h b => (h, b, none)) r f el h b).2.1 := by
  cases el with
  | num t e =>
    simp only [hdecElem]
    have := readOn_law (law_readNum e t) b
    revert this
    rcases b.readNum e t with ⟨b', e' | x⟩ <;> exact id
  | fixed n pad left =>
    simp only [hdecElem]
    have := readOn_law (law_readFixedString n pad left) b
    revert this
    rcases readFixedString b n pad left with ⟨b', e' | x⟩ <;> exact id
  | dyn t e =>
    simp only [hdecElem]
    have := readOn_law (law_readDyn t e) b
    revert this
    rcases readDyn b t e with ⟨b', e' | _ | x⟩ <;> exact id
  | obj c => exact ReadOn.refl b

theorem denter_buf (n r : Nat) (h : Heap) (t : DThread) : (t.enter n r h).buf = t.buf := by
  unfold DThread.enter
  split
  · split <;> rfl
  · rfl

theorem readOn_step (sup : Suppliers) (n : Nat) (h : Heap) (t : DThread) : ReadOn t.buf (t.step sup n h).2.buf := by
  unfold DThread.step
  split
  · rename_i a as he hs
    split
    · rename_i f el k q hl
      unfold DThread.iterate
      split
      · exact ReadOn.refl _
      · exact ReadOn.refl _
      · split
        · dsimp only; rw [denter_buf]; exact ReadOn.refl _
        · exact readOn_elem _ _ _ _ _
    · rename_i s ss hl hs
      unfold DThread.exec
      cases s with
      | list f ty e el =>
        dsimp only
        have := readOn_law (law_readNum e ty) t.buf
        revert this
        rcases t.buf.readNum e ty with ⟨b', e' | x⟩
        · exact id
        · intro h; dsimp only; split <;> exact h
      | obj f d => dsimp only; split <;> exact ReadOn.refl _
      | call f =>
        dsimp only
        unfold DThread.enterField
        split
        · exact ReadOn.refl _
        · split
          · rw [denter_buf]; exact ReadOn.refl _
          · exact ReadOn.refl _
        · exact ReadOn.refl _
      | num f ty e =>
        simp only [hdecStmt]
        have := readOn_law (law_readNum e ty) t.buf
        revert this
        rcases t.buf.readNum e ty with ⟨b', e' | x⟩
        · exact id
        · intro h; dsimp only; split <;> exact h
      | fixed f k pad left =>
        simp only [hdecStmt]
        have := readOn_law (law_readFixedString k pad left) t.buf
        revert this
        rcases readFixedString t.buf k pad left with ⟨b', e' | x⟩ <;> exact id
      | dyn f ty e =>
        simp only [hdecStmt]
        have := readOn_law (law_readDyn ty e) t.buf
        revert this
        rcases readDyn t.buf ty e with ⟨b', e' | _ | x⟩ <;> exact id
      | create f fac key =>
        simp only [hdecStmt]
        split
        · split <;> exact ReadOn.refl _
        · exact ReadOn.refl _
    · exact ReadOn.refl _
  · exact ReadOn.refl _

theorem readOn_run (w : World) (sup : Suppliers) (n : Nat) (sched : List Nat) : ∀ (st : WSys) (i : Nat) (t : DThread), st.thr i = .dec t →
    ∃ t', (st.run w sup n sched).thr i = .dec t' ∧ ReadOn t.buf t'.buf := by
  induction sched with
  | nil => intro st i t ht; exact ⟨t, ht, ReadOn.refl _⟩
  | cons j js ih =>
    intro st i t ht
    simp only [WSys.run, List.foldl_cons]
    by_cases hij : i = j
    · subst hij
      obtain ⟨t', h1, h2⟩ := ih (st.step w sup n i) i (t.step sup n st.h).2 (by simp [WSys.step, ht, Worker.step])
      exact ⟨t', h1, (readOn_step sup n st.h t).trans h2⟩
    · exact ih (st.step w sup n j) i t (by simp [WSys.step, hij, ht])

end FinProto
