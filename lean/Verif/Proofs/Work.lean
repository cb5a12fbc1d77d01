import Verif.Proofs.History
import Verif.Spec.Work
/-
Helper lemmas: every step of a call uses up some of a budget that is proportional to the room in the buffer.
-/
namespace FinProto

/-! ### decode -/

/-- The statement reads at least one byte, or throws. -/
def DecStmt.reads : DecStmt → Bool
  | .num _ _ _ => true
  | .fixed _ k _ _ => decide (0 < k)
  | .dyn _ _ _ => true
  | .list _ _ _ _ => true
  | _ => false

def DecElem.reads : DecElem → Bool
  | .fixed k _ _ => decide (0 < k)
  | .obj c => match (decl c).dec with | s :: _ => s.reads | [] => false
  | _ => true

def nest (c : Cls) : Bool := match c with | .sample_NestedPacket => true | _ => false

/-- The budget of a statement in a method of a class. -/
def dweight (c : Cls) : DecStmt → Nat
  | .list _ _ _ _ => 2
  | .obj _ _ => if nest c then 2 else 17
  | .call _ => if nest c then 1 else 16
  | _ => 1

def dweights (c : Cls) (ss : List DecStmt) : Nat := (ss.map (dweight c)).sum

def dloop : Option (Nat × DecElem × Nat × Option Nat) → Nat
  | none => 0
  | some (_, _, _, none) => 1
  | some (_, _, _, some _) => 2

def DActivation.cost (a : DActivation) : Nat := 1 + dweights a.cls a.todo + dloop a.loop

/-- The next thing the innermost call does is to read. -/
def DThread.reading (t : DThread) : Bool :=
  match t.stack with
  | [] => false
  | a :: _ => a.loop.isNone && match a.todo with | s :: _ => s.reads | [] => false

def DThread.budget (t : DThread) : Nat := 99 * t.buf.ahead + (t.stack.map DActivation.cost).sum + if t.reading then 0 else 99

def elemsRead (ss : List DecStmt) : Bool := ss.all fun s => match s with | .list _ _ _ el => el.reads | _ => true

theorem reads_table (c : Cls) : (nest c = true ∨ (decl c).dec = [] ∨ (match (decl c).dec with | s :: _ => s.reads | [] => false) = true)
    ∧ 1 + dweights c (decl c).dec ≤ 96 ∧ elemsRead (decl c).dec = true ∧ (nest c = true → 1 + dweights c (decl c).dec ≤ 15) := by
  cases c <;> decide +kernel

/-! Reads -/

theorem size_pos (t : PTy) : 0 < t.size := by cases t <;> decide

theorem readNum_ahead {b b' : RBuf} {e : Endian} {t : PTy} {n : Num} (h : b.readNum e t = (b', .ok n)) : b'.ahead < b.ahead := by
  unfold RBuf.readNum at h
  have := size_pos t
  split at h
  · simp only [Prod.mk.injEq] at h
    rw [← h.1]
    simp only [RBuf.ahead]
    omega
  · simp at h

theorem readText_ahead {b b' : RBuf} {k : Nat} {s : JStr} (h : b.readText k = (b', .ok s)) : b'.ahead ≤ b.ahead ∧ (0 < k → b'.ahead < b.ahead) := by
  unfold RBuf.readText at h
  split at h
  · simp only [Prod.mk.injEq] at h
    rw [← h.1]
    exact ⟨Nat.le_refl _, by omega⟩
  · split at h
    · simp only [Prod.mk.injEq] at h
      rw [← h.1]
      simp only [RBuf.ahead, List.length_append] at *
      omega
    · simp at h

theorem readFixed_ahead {b b' : RBuf} {k : Nat} {pad : JChar} {left : Bool} {s : JStr} (h : readFixedString b k pad left = (b', .ok s)) :
    b'.ahead ≤ b.ahead ∧ (0 < k → b'.ahead < b.ahead) := by
  unfold readFixedString at h
  rcases hr : b.readText k with ⟨b1, e | v⟩
  · simp [hr] at h
  · have := readText_ahead hr
    rw [hr] at h
    dsimp only at h
    split at h <;> (simp only [Prod.mk.injEq] at h; rw [← h.1]; exact this)

theorem readDyn_ahead {b b' : RBuf} {t : PTy} {e : Endian} {s : Option JStr} (h : readDyn b t e = (b', .ok s)) : b'.ahead < b.ahead := by
  unfold readDyn at h
  rcases hr : b.readNum e t with ⟨b1, er | n⟩
  · simp [hr] at h
  · have h1 := readNum_ahead hr
    rw [hr] at h
    dsimp only at h
    split at h
    · rcases hr2 : b1.readText n.bits.toNat with ⟨b2, er | v⟩
      · simp [hr2] at h
      · have h2 := (readText_ahead hr2).1
        rw [hr2] at h
        simp only [Prod.mk.injEq] at h
        rw [← h.1]
        omega
    · simp only [Prod.mk.injEq] at h
      rw [← h.1]
      exact h1

/-! Steps -/

/-- What the loops do reads at least one byte in each iteration. -/
def ReadsOk (t : DThread) : Prop := ∀ a ∈ t.stack, elemsRead a.todo = true ∧ ∀ f el k q, a.loop = some (f, el, k, q) → el.reads = true

/-- The budget without the allowance for the next statement. -/
def DThread.base (t : DThread) : Nat := 99 * t.buf.ahead + (t.stack.map DActivation.cost).sum

theorem budget_le (t : DThread) : t.budget ≤ t.base + 99 := by
  unfold DThread.budget DThread.base
  split <;> omega

theorem denter_budget {h : Heap} (n r : Nat) {c : Cls} {ys : List HVal} (hr : h[r]? = some (.msg c ys)) {t : DThread} (hk : ReadsOk t) :
    (t.enter n r h).err ≠ none ∨ ReadsOk (t.enter n r h) ∧ (t.enter n r h).budget ≤ t.base + 114
      ∧ (nest c = false → (decl c).dec ≠ [] → (t.enter n r h).budget ≤ t.base + 96) := by
  unfold DThread.enter
  split
  · rw [hr]
    dsimp only
    right
    obtain ⟨t1, t2, t3, t4⟩ := reads_table c
    have hb : (DThread.base { t with stack := ⟨r, c, (decl c).dec, none⟩ :: t.stack }) = t.base + (1 + dweights c (decl c).dec) := by
      simp only [DThread.base, List.map_cons, List.sum_cons, DActivation.cost, dloop]
      omega
    have hro : nest c = false → (decl c).dec ≠ [] → DThread.budget { t with stack := ⟨r, c, (decl c).dec, none⟩ :: t.stack } ≤ t.base + 96 := by
      intro h1 h2
      have h3 : (match (decl c).dec with | s :: _ => s.reads | [] => false) = true := by
        rcases t1 with h | h | h
        · rw [h1] at h; cases h
        · exact absurd h h2
        · exact h
      have h4 : DThread.reading { t with stack := ⟨r, c, (decl c).dec, none⟩ :: t.stack } = true := by
        simp only [DThread.reading, Option.isNone_none, Bool.true_and]
        exact h3
      have : DThread.budget { t with stack := ⟨r, c, (decl c).dec, none⟩ :: t.stack } = DThread.base { t with stack := ⟨r, c, (decl c).dec, none⟩ :: t.stack } := by
        unfold DThread.budget DThread.base
        rw [if_pos h4]
        rfl
      rw [this, hb]
      omega
    refine ⟨fun a ha => ?_, ?_, hro⟩
    · rcases List.mem_cons.mp ha with rfl | ha
      · exact ⟨t3, by simp⟩
      · exact hk a ha
    · rcases hn : nest c with _ | _
      · by_cases he : (decl c).dec = []
        · have := budget_le { t with stack := ⟨r, c, (decl c).dec, none⟩ :: t.stack }
          have hz : dweights c (decl c).dec = 0 := by rw [he]; rfl
          omega
        · have := hro hn he
          omega
      · have := budget_le { t with stack := ⟨r, c, (decl c).dec, none⟩ :: t.stack }
        have := t4 hn
        omega
  · left; simp [DThread.throw]

theorem nest_types : ∀ t ∈ javaTypes .sample_NestedPacket, objTy t = true → t = .obj .sample_SubPacket ∨ t = .obj .sample_NestedPacket_InerPacket := by
  decide +kernel

theorem nest_eq {c : Cls} (h : nest c = true) : c = .sample_NestedPacket := by
  cases c <;> first | rfl | cases h

theorem nest_sub : (nest .sample_SubPacket = false ∧ (decl .sample_SubPacket).dec ≠ [])
    ∧ nest .sample_NestedPacket_InerPacket = false ∧ (decl .sample_NestedPacket_InerPacket).dec ≠ [] := by decide +kernel

theorem elem_reads {c : Cls} (h : (DecElem.obj c).reads = true) : nest c = false ∧ (decl c).dec ≠ [] := by
  revert h
  cases c <;> decide +kernel

theorem not_reading_loop (t : DThread) {a : DActivation} {as : List DActivation} (hst : t.stack = a :: as) (hl : a.loop ≠ none) : t.budget = t.base + 99 := by
  have : t.reading = false := by
    simp only [DThread.reading, hst]
    cases h : a.loop with
    | none => exact absurd h hl
    | some x => rfl
  unfold DThread.budget DThread.base
  rw [this]
  rfl

theorem base_cons (a : DActivation) (as : List DActivation) (b : RBuf) (e : Option JErr) :
    DThread.base ⟨a :: as, b, e⟩ = 99 * b.ahead + a.cost + (as.map DActivation.cost).sum := by
  simp only [DThread.base, List.map_cons, List.sum_cons]
  omega

theorem diterate_budget {h : Heap} (n : Nat) {t : DThread} {a : DActivation} {as : List DActivation}
    (hst : t.stack = a :: as) (hk : ReadsOk t) {f : Nat} {el : DecElem} {k : Nat} {q : Option Nat}
    (hl : a.loop = some (f, el, k, q)) :
    (t.iterate n h a as f el k q).2.err ≠ none ∨ ReadsOk (t.iterate n h a as f el k q).2 ∧ (t.iterate n h a as f el k q).2.budget < t.budget := by
  have hb := not_reading_loop t hst (by rw [hl]; simp)
  have hb0 : t.base = 99 * t.buf.ahead + a.cost + (as.map DActivation.cost).sum := by
    obtain ⟨st, bf, er⟩ := t
    dsimp only at hst
    subst hst
    exact base_cons a as bf er
  have hel : el.reads = true := (hk a (by rw [hst]; simp)).2 f el k q hl
  have top : ∀ (l : Option (Nat × DecElem × Nat × Option Nat)), (∀ f el k q, l = some (f, el, k, q) → el.reads = true) →
      ∀ b er, ReadsOk ⟨{ a with loop := l } :: as, b, er⟩ := by
    intro l hl b er a' ha'
    rcases List.mem_cons.mp ha' with rfl | ha'
    · exact ⟨(hk a (by rw [hst]; simp)).1, hl⟩
    · exact hk a' (by rw [hst]; exact List.mem_cons_of_mem _ ha')
  have same : ∀ (k : Nat) (q : Option Nat) f' el' k' q', some (f, el, k, q) = some (f', el', k', q') → el'.reads = true := by
    intro k q f' el' k' q' hs
    simp only [Option.some.injEq, Prod.mk.injEq] at hs
    rw [← hs.2.1]
    exact hel
  have hca : a.cost = 1 + dweights a.cls a.todo + dloop (some (f, el, k, q)) := by rw [← hl]; rfl
  have less : ∀ (l : Option (Nat × DecElem × Nat × Option Nat)) b er, 99 * b.ahead + dloop l < 99 * t.buf.ahead + dloop (some (f, el, k, q)) →
      DThread.budget ⟨{ a with loop := l } :: as, b, er⟩ < t.budget := by
    intro l b er hlt
    have h1 := budget_le ⟨{ a with loop := l } :: as, b, er⟩
    rw [base_cons] at h1
    simp only [DActivation.cost] at h1
    omega
  rcases q with _ | q
  · rcases k with _ | k
    · exact .inr ⟨top _ (by simp) _ _, less _ _ _ (by simp [dloop])⟩
    · cases el with
      | obj c =>
        obtain ⟨e1, e2⟩ := elem_reads hel
        rcases denter_budget n h.length (append_last h (newMsg c)) (t := { t with stack := { a with loop := some (f, .obj c, k, some h.length) } :: as })
          (top _ (same _ _) _ _) with h1 | ⟨h1, -, h2⟩
        · exact .inl h1
        · refine .inr ⟨h1, Nat.lt_of_le_of_lt (h2 e1 e2) ?_⟩
          rw [base_cons, hb, hb0, hca]
          simp only [DActivation.cost, dloop]
          omega
      | num p en =>
        simp only [DThread.iterate, hdecElem]
        rcases hr : t.buf.readNum en p with ⟨b', er | m⟩
        · exact .inl (by simp)
        · have := readNum_ahead hr
          exact .inr ⟨top _ (same _ _) _ _, less _ _ _ (by simp only [dloop]; omega)⟩
      | fixed m pad left =>
        simp only [DThread.iterate, hdecElem]
        rcases hr : readFixedString t.buf m pad left with ⟨b', er | s⟩
        · exact .inl (by simp)
        · simp only [DecElem.reads, decide_eq_true_eq] at hel
          have := (readFixed_ahead hr).2 hel
          exact .inr ⟨top _ (same _ _) _ _, less _ _ _ (by simp only [dloop]; omega)⟩
      | dyn p en =>
        simp only [DThread.iterate, hdecElem]
        rcases hr : readDyn t.buf p en with ⟨b', er | _ | s⟩
        · exact .inl (by simp)
        all_goals
          have := readDyn_ahead hr
          exact .inr ⟨top _ (same _ _) _ _, less _ _ _ (by simp only [dloop]; omega)⟩
  · exact .inr ⟨top _ (same _ _) _ _, less _ _ _ (by simp [dloop])⟩

theorem dexec_budget {h : Heap} (hh : TypedHeap h) (sup : Suppliers) (n : Nat) {t : DThread} {a : DActivation}
    {as : List DActivation} (hst : t.stack = a :: as) (ht : DOk h t) (hk : ReadsOk t) {s : DecStmt} {ss : List DecStmt} (htd : a.todo = s :: ss)
    (hlo : a.loop = none) :
    (t.exec sup n h s { a with todo := ss } as).2.err ≠ none
      ∨ ReadsOk (t.exec sup n h s { a with todo := ss } as).2 ∧ (t.exec sup n h s { a with todo := ss } as).2.budget < t.budget := by
  obtain ⟨ys, g1, g2, -⟩ := (ht.acts a (by rw [hst]; simp)).ok
  have hk0 := (hk a (by rw [hst]; simp)).1
  obtain ⟨st, bf, er⟩ := t
  dsimp only at hst
  subst hst
  obtain ⟨this, cls, todo, loop⟩ := a
  dsimp only at htd hlo g1 g2 hk0 ⊢
  subst htd hlo
  rw [List.all_cons, Bool.and_eq_true] at g2
  simp only [elemsRead, List.all_cons, Bool.and_eq_true] at hk0
  have top : ∀ (td : List DecStmt), elemsRead td = true → ∀ (l : Option (Nat × DecElem × Nat × Option Nat)),
      (∀ f el k q, l = some (f, el, k, q) → el.reads = true) → ∀ b er, ReadsOk ⟨⟨this, cls, td, l⟩ :: as, b, er⟩ := by
    intro td htd l hl b er a' ha'
    rcases List.mem_cons.mp ha' with rfl | ha'
    · exact ⟨htd, hl⟩
    · exact hk a' (List.mem_cons_of_mem _ ha')
  have hss : elemsRead ss = true := hk0.2
  have hw : dweights cls (s :: ss) = dweight cls s + dweights cls ss := by simp [dweights]
  have hb : DThread.budget ⟨⟨this, cls, s :: ss, none⟩ :: as, bf, er⟩
      = 99 * bf.ahead + (1 + (dweight cls s + dweights cls ss)) + (as.map DActivation.cost).sum + if s.reads then 0 else 99 := by
    simp only [DThread.budget, DThread.reading, List.map_cons, List.sum_cons, DActivation.cost, dloop, hw, Option.isNone_none, Bool.true_and]
    omega
  have less : ∀ (l : Option (Nat × DecElem × Nat × Option Nat)) b er', 99 * b.ahead + dloop l + 99 < 99 * bf.ahead + dweight cls s + (if s.reads then 0 else 99) →
      DThread.budget ⟨⟨this, cls, ss, l⟩ :: as, b, er'⟩ < DThread.budget ⟨⟨this, cls, s :: ss, none⟩ :: as, bf, er⟩ := by
    intro l b er' hlt
    have h1 := budget_le ⟨⟨this, cls, ss, l⟩ :: as, b, er'⟩
    rw [base_cons] at h1
    simp only [DActivation.cost] at h1
    rw [hb]
    omega
  cases s with
  | num f p e =>
    simp only [DThread.exec, hdecStmt]
    rcases hr : bf.readNum e p with ⟨b', er' | m⟩
    · exact .inl (by simp)
    · have := readNum_ahead hr
      dsimp only
      split
      · exact .inr ⟨top _ hss _ (by simp) _ _, less _ _ _ (by simp only [dloop, DecStmt.reads, dweight, if_true]; omega)⟩
      · exact .inl (by simp)
  | fixed f k pad left =>
    simp only [DThread.exec, hdecStmt]
    rcases hr : readFixedString bf k pad left with ⟨b', er' | m⟩
    · exact .inl (by simp)
    · have := readFixed_ahead hr
      refine .inr ⟨top _ hss _ (by simp) _ _, less _ _ _ ?_⟩
      simp only [dloop, DecStmt.reads, dweight, decide_eq_true_eq]
      split <;> omega
  | dyn f p e =>
    simp only [DThread.exec, hdecStmt]
    rcases hr : readDyn bf p e with ⟨b', er' | _ | m⟩
    · exact .inl (by simp)
    all_goals
      have := readDyn_ahead hr
      exact .inr ⟨top _ hss _ (by simp) _ _, less _ _ _ (by simp only [dloop, DecStmt.reads, dweight, if_true]; omega)⟩
  | list f p e el =>
    simp only [DThread.exec]
    rcases hr : bf.readNum e p with ⟨b', er' | m⟩
    · exact .inl (by simp)
    · have := readNum_ahead hr
      dsimp only
      split
      · refine .inr ⟨top _ hss _ ?_ _ _, less _ _ _ (by simp only [dloop, DecStmt.reads, dweight, if_true]; omega)⟩
        intro f' el' k' q' hs
        simp only [Option.some.injEq, Prod.mk.injEq] at hs
        rw [← hs.2.1]
        exact hk0.1
      · exact .inr ⟨top _ hss _ (by simp) _ _, less _ _ _ (by simp only [dloop, DecStmt.reads, dweight, if_true]; omega)⟩
  | obj f c =>
    have h1 : ReadsOk ⟨⟨this, cls, .call f :: ss, none⟩ :: as, bf, er⟩ := top _ (by simp only [elemsRead, List.all_cons, Bool.true_and]; exact hss) _ (by simp) _ _
    have h2 : DThread.budget ⟨⟨this, cls, .call f :: ss, none⟩ :: as, bf, er⟩ < DThread.budget ⟨⟨this, cls, .obj f c :: ss, none⟩ :: as, bf, er⟩ := by
      rw [hb]
      simp only [DThread.budget, DThread.reading, List.map_cons, List.sum_cons, DActivation.cost, dloop, dweights, Option.isNone_none, Bool.true_and,
        DecStmt.reads, dweight]
      cases nest cls <;> simp <;> omega
    simp only [DThread.exec]
    split
    · exact .inr ⟨h1, h2⟩
    · exact .inr ⟨h1, h2⟩
  | create f fac key =>
    simp only [DThread.exec, hdecStmt]
    split
    · split
      · exact .inr ⟨top _ hss _ (by simp) _ _, less _ _ _ (by simp [dloop, DecStmt.reads, dweight])⟩
      · exact .inl (by simp)
    · exact .inl (by simp)
  | call f =>
    simp only [DThread.exec, DThread.enterField]
    split
    · exact .inl (by simp [DThread.throw])
    · rename_i r hf
      split
      · rename_i c zs hr
        have hb' : DThread.base ⟨⟨this, cls, ss, none⟩ :: as, bf, er⟩ = 99 * bf.ahead + (1 + dweights cls ss) + (as.map DActivation.cost).sum := by
          rw [base_cons]; rfl
        rcases denter_budget n r hr (t := ⟨⟨this, cls, ss, none⟩ :: as, bf, er⟩) (top _ hss _ (by simp) _ _) with h1 | ⟨h1, h2, h3⟩
        · exact .inl h1
        · refine .inr ⟨h1, ?_⟩
          rw [hb]
          simp only [DecStmt.reads, dweight]
          rcases hn : nest cls with _ | _
          · simp
            omega
          · have hc := nest_eq hn
            subst hc
            have hty := g2.1
            simp only [decFits] at hty
            split at hty
            · rename_i t ht'
              obtain ⟨y, -, h5, h6⟩ := hh.field g1 ht'
              have hfy : h.field this f = some y := by simp only [Heap.field, g1]; exact h5
              rw [hfy] at hf
              cases hf
              rcases nest_types t (List.mem_of_getElem? ht') hty with hmem | hmem <;> subst hmem <;> cases h6 with
              | obj h7 =>
                rw [hr] at h7
                cases h7
                first
                  | have := h3 nest_sub.1.1 nest_sub.1.2
                    simp
                    omega
                  | have := h3 nest_sub.2.1 nest_sub.2.2
                    simp
                    omega
            · cases hty
      · exact .inl (by simp [DThread.throw])
    · exact .inl (by simp [DThread.throw])

theorem dstep_budget {h : Heap} (hh : TypedHeap h) (sup : Suppliers) (n : Nat) {t : DThread} (ht : DOk h t) (hk : ReadsOk t)
    (he : t.err = none) (hs : t.stack ≠ []) :
    (t.step sup n h).2.err ≠ none ∨ ReadsOk (t.step sup n h).2 ∧ (t.step sup n h).2.budget < t.budget := by
  rcases hst : t.stack with _ | ⟨a, as⟩
  · exact absurd hst hs
  · simp only [DThread.step, he, hst]
    rcases hl : a.loop with _ | ⟨f, el, k, q⟩
    · rcases htd : a.todo with _ | ⟨s, ss⟩
      · dsimp only
        refine .inr ⟨fun a' ha' => hk a' (by rw [hst]; exact List.mem_cons_of_mem _ ha'), ?_⟩
        have h1 := budget_le { t with stack := as, err := none }
        have h2 : t.reading = false := by simp [DThread.reading, hst, hl, htd]
        simp only [DThread.base] at h1
        simp only [DThread.budget, h2, hst, List.map_cons, List.sum_cons, DActivation.cost] at h1 ⊢
        simp
        omega
      · have := dexec_budget hh sup n hst ht hk htd hl
        rw [hl] at this
        exact this
    · exact diterate_budget n hst hk hl

/-! ### encode -/

/-- A write that succeeds takes at least `k` bytes of the space. -/
def Uses (k : Nat) (b : WBuf) (o : WBuf × Option JErr) : Prop := o.2 = none → o.1.space + k ≤ b.space

theorem uses_write (b : WBuf) (bs : List Byte) : Uses bs.length b (b.write bs) := by
  unfold WBuf.write
  split
  · intro _
    simp only [WBuf.space, List.length_append]
    omega
  · intro h; cases h

theorem Uses.mono {k k' : Nat} {b : WBuf} {o : WBuf × Option JErr} (h : Uses k b o) (hk : k' ≤ k) : Uses k' b o := by
  intro ho
  have := h ho
  omega

theorem uses_set (b : WBuf) (i : Nat) (bs : List Byte) : Uses 0 b (b.set i bs) := by
  unfold WBuf.set
  split
  · rename_i hi
    intro _
    simp only [WBuf.space, overwrite, List.length_append, List.length_take, List.length_drop]
    omega
  · intro h; cases h

theorem uses_val (b : WBuf) (t : PTy) (e : Endian) (v : Val) : Uses 1 b (writeVal b t e v) := by
  unfold writeVal
  split
  · split
    · rename_i n _ m hm
      refine (uses_write b (m.bytes e)).mono ?_
      rw [Num.bytes_length]
      exact size_pos _
    · intro h; cases h
  · intro h; cases h
  · intro h; cases h

theorem uses_int (b : WBuf) (t : PTy) (e : Endian) (k : Nat) : Uses 1 b (writeInt b t e k) := uses_val b t e _

theorem uses_pad (c : JChar) : ∀ (n : Nat) (b : WBuf), Uses n b (padChar b n c)
  | 0, b => fun _ => Nat.le_refl _
  | n + 1, b => by
    unfold padChar
    have := uses_write b [c.setWidth 8]
    revert this
    rcases b.write [c.setWidth 8] with ⟨b', _ | e⟩ <;> intro this
    · intro ho
      have h1 := uses_pad c n b' ho
      have h2 := this rfl
      dsimp only at h2 ⊢
      simp only [List.length_cons, List.length_nil] at h2
      omega
    · intro h; cases h

theorem uses_fixed_right (b : WBuf) (s : Option JStr) (n : Nat) (pad : JChar) : Uses n b (writeFixedString b s n pad false) := by
  unfold writeFixedString
  split
  · rename_i c cs
    simp only [Bool.false_and, Bool.false_eq_true, if_false, Bool.not_false, Bool.true_and, decide_eq_true_eq]
    have h1 := uses_write b ((utf8Enc (c :: cs)).take (min (utf8Enc (c :: cs)).length n))
    rw [List.length_take] at h1
    revert h1
    rcases b.write ((utf8Enc (c :: cs)).take (min (utf8Enc (c :: cs)).length n)) with ⟨b2, _ | e⟩ <;> intro h1
    · have h1 := h1 rfl
      dsimp only at h1 ⊢
      split
      · intro ho
        have h2 := uses_pad pad _ b2 ho
        omega
      · intro _
        dsimp only
        omega
    · intro h; cases h
  · simp only [Bool.not_false, Bool.true_and, decide_eq_true_eq, Nat.sub_zero]
    split
    · exact uses_pad _ _ _
    · intro _
      dsimp only
      omega

theorem uses_fixed (b : WBuf) (s : Option JStr) (n : Nat) (pad : JChar) (left : Bool) : Uses 0 b (writeFixedString b s n pad left) := by
  cases left with
  | false => exact (uses_fixed_right b s n pad).mono (Nat.zero_le _)
  | true =>
    unfold writeFixedString
    split
    · rename_i c cs
      simp only [Bool.true_and, decide_eq_true_eq, Bool.not_true, Bool.false_and, Bool.false_eq_true, if_false]
      have h0 : Uses 0 b (if min (utf8Enc (c :: cs)).length n < n then padChar b (n - min (utf8Enc (c :: cs)).length n) pad else (b, none)) := by
        split
        · exact (uses_pad _ _ _).mono (Nat.zero_le _)
        · exact fun _ => Nat.le_refl _
      revert h0
      generalize (if min (utf8Enc (c :: cs)).length n < n then padChar b (n - min (utf8Enc (c :: cs)).length n) pad else (b, none)) = r1
      intro h0
      rcases r1 with ⟨b1, _ | e⟩
      · dsimp only
        have h1 := uses_write b1 ((utf8Enc (c :: cs)).take (min (utf8Enc (c :: cs)).length n))
        revert h1
        rcases b1.write ((utf8Enc (c :: cs)).take (min (utf8Enc (c :: cs)).length n)) with ⟨b2, _ | e⟩ <;> intro h1
        · intro _
          have h2 := h0 rfl
          have h3 := h1 rfl
          dsimp only at *
          omega
        · intro h; cases h
      · intro h; cases h
    · simp only [Bool.not_true, Bool.false_and, Bool.false_eq_true, if_false]
      exact fun _ => Nat.le_refl _

theorem uses_fixedVal (b : WBuf) (v : Val) (n : Nat) (pad : JChar) (left : Bool) :
    Uses 0 b (writeFixedVal b v n pad left) ∧ (left = false → Uses n b (writeFixedVal b v n pad left)) := by
  unfold writeFixedVal
  rcases v.asStr with _ | s
  · exact ⟨(fun h => by cases h), (fun _ h => by cases h)⟩
  · refine ⟨uses_fixed _ _ _ _ _, fun hl => ?_⟩
    subst hl
    exact uses_fixed_right _ _ _ _

theorem uses_dynVal (b : WBuf) (v : Val) (zt t : PTy) (e : Endian) : Uses 1 b (writeDynVal b v zt t e) := by
  unfold writeDynVal
  split
  · unfold writeDyn
    split
    · rename_i c cs _
      have h1 := uses_int b t e (utf8Enc (c :: cs)).length
      revert h1
      rcases writeInt b t e (utf8Enc (c :: cs)).length with ⟨b', _ | er⟩ <;> intro h1
      · intro ho
        have h2 := uses_write b' (utf8Enc (c :: cs)) ho
        have h3 := h1 rfl
        dsimp only at *
        omega
      · intro h; cases h
    · exact uses_int _ _ _ _
  · intro h; cases h

/-- The statement writes at least one byte, or throws. -/
def EncStmt.writes : EncStmt → Bool
  | .num _ _ _ => true
  | .fixed _ k _ left => !left && decide (0 < k)
  | .dyn _ _ _ _ => true
  | .list _ _ _ _ _ => true
  | .zero _ _ => true
  | _ => false

/-- A list of texts padded on the left. -/
def EncElem.left : EncElem → Bool
  | .fixed _ _ left => left
  | _ => false

def EncElem.wide : EncElem → Bool
  | .fixed k _ left => left || decide (0 < k)
  | _ => true

/-- The budget of a statement. -/
def eweight (N : Bool) (L : Nat) : EncStmt → Nat
  | .list _ _ _ _ el => if el.left then L + 2 else 2
  | .obj _ => if N then 1 else 16
  | .objOpt _ => if N then 1 else 16
  | _ => 1

def eweights (N : Bool) (L : Nat) (ss : List EncStmt) : Nat := (ss.map (eweight N L)).sum

def eloop (L : Nat) : Option (Nat × EncElem × Nat) → Nat
  | none => 0
  | some (_, el, i) => if el.left then L - i + 1 else 1

def Activation.cost (N : Nat → Bool) (L : Nat) (a : Activation) : Nat := 1 + eweights (N a.this) L a.todo + eloop L a.loop

/-- The next thing the innermost call does is to write. -/
def HThread.writing (t : HThread) : Bool :=
  match t.stack with
  | [] => false
  | a :: _ => a.loop.isNone && match a.todo with | s :: _ => s.writes | [] => false

def HThread.base (N : Nat → Bool) (L : Nat) (t : HThread) : Nat := (99 + 2 * L) * t.buf.space + (t.stack.map (Activation.cost N L)).sum

def HThread.budget (N : Nat → Bool) (L : Nat) (t : HThread) : Nat := t.base N L + if t.writing then 0 else 99 + 2 * L

def elemsWide (ss : List EncStmt) : Bool := ss.all fun s => match s with | .list _ _ _ _ el => el.wide | _ => true

def EncStmt.left : EncStmt → Bool
  | .list _ _ _ _ el => el.left
  | _ => false

def lefts (ss : List EncStmt) : Nat := ss.countP EncStmt.left

theorem writes_table (c : Cls) : (nest c = true ∨ (decl c).enc = [] ∨ (match (decl c).enc with | s :: _ => s.writes | [] => false) = true)
    ∧ 1 + eweights (nest c) 0 (decl c).enc ≤ 96 ∧ elemsWide (decl c).enc = true ∧ (nest c = true → 1 + eweights (nest c) 0 (decl c).enc ≤ 15)
    ∧ lefts (decl c).enc ≤ 2 ∧ (nest c = true → lefts (decl c).enc = 0) ∧ (padsLeft c = false → lefts (decl c).enc = 0) := by
  cases c <;> decide +kernel

theorem eweights_lefts (N : Bool) (L : Nat) (ss : List EncStmt) : eweights N L ss = eweights N 0 ss + lefts ss * L := by
  induction ss with
  | nil => simp [eweights, lefts]
  | cons s ss ih =>
    simp only [eweights, List.map_cons, List.sum_cons, lefts, List.countP_cons] at ih ⊢
    rw [ih]
    cases s with
    | list f zt t e el =>
      simp only [eweight, EncStmt.left]
      by_cases hl : el.left = true
      · simp only [hl, if_true, Nat.add_mul, Nat.one_mul]
        omega
      · simp only [hl, Bool.false_eq_true, if_false, Nat.add_zero]
        omega
    | _ => simp [eweight, EncStmt.left] <;> omega

/-- Loops over texts padded on the left occur only in the classes `P` says. -/
def WidesOk (P : Nat → Bool) (t : HThread) : Prop := ∀ a ∈ t.stack, elemsWide a.todo = true ∧ (P a.this = false → lefts a.todo = 0)
  ∧ ∀ f el i, a.loop = some (f, el, i) → el.wide = true ∧ (el.left = true → P a.this = true)

def padAt (h : Heap) (r : Nat) : Bool := match h[r]? with | some (.msg c _) => padsLeft c | _ => false

/-- Which places hold a message of the one class that starts with a sub-message. -/
def nestAt (h : Heap) (r : Nat) : Bool := match h[r]? with | some (.msg c _) => nest c | _ => false

theorem hbudget_le (N : Nat → Bool) (L : Nat) (t : HThread) : t.budget N L ≤ t.base N L + (99 + 2 * L) := by
  unfold HThread.budget
  split <;> omega

theorem hbase_cons (N : Nat → Bool) (L : Nat) (a : Activation) (as : List Activation) (b : WBuf) (e : Option JErr) :
    HThread.base N L ⟨a :: as, b, e⟩ = (99 + 2 * L) * b.space + a.cost N L + (as.map (Activation.cost N L)).sum := by
  simp only [HThread.base, List.map_cons, List.sum_cons]
  omega

theorem henter_budget {h : Heap} (n : Nat) (x : HVal) (L : Nat) {t : HThread} (hk : WidesOk (padAt h) t) :
    (t.enter n x h).err ≠ none ∨ ∃ r c ys, x = .ref r ∧ h[r]? = some (.msg c ys) ∧ WidesOk (padAt h) (t.enter n x h)
      ∧ (t.enter n x h).budget (nestAt h) L ≤ t.base (nestAt h) L + 114 + 2 * L
      ∧ (nest c = false → (decl c).enc ≠ [] → (t.enter n x h).budget (nestAt h) L ≤ t.base (nestAt h) L + 96 + 2 * L) := by
  cases x with
  | null => exact .inl (by simp [HThread.enter, HThread.throw])
  | num k => simp only [HThread.enter]; split <;> exact .inl (by simp [HThread.throw])
  | str k => simp only [HThread.enter]; split <;> exact .inl (by simp [HThread.throw])
  | ref r =>
    simp only [HThread.enter]
    split
    · rcases hr : h[r]? with _ | ⟨c, ys⟩ | xs
      · exact .inl (by simp [HThread.throw])
      · dsimp only
        refine .inr ⟨r, c, ys, rfl, hr, ?_⟩
        obtain ⟨t1, t2, t3, t4, t5, t6, t7⟩ := writes_table c
        have hn : nestAt h r = nest c := by simp [nestAt, hr]
        have hw := eweights_lefts (nest c) L (decl c).enc
        have hlL : lefts (decl c).enc * L ≤ 2 * L := Nat.mul_le_mul_right L t5
        have hb : HThread.base (nestAt h) L { t with stack := ⟨r, (decl c).enc, fun _ => none, none⟩ :: t.stack }
            = t.base (nestAt h) L + (1 + eweights (nest c) L (decl c).enc) := by
          simp only [HThread.base, List.map_cons, List.sum_cons, Activation.cost, eloop, hn]
          omega
        have hro : nest c = false → (decl c).enc ≠ [] →
            HThread.budget (nestAt h) L { t with stack := ⟨r, (decl c).enc, fun _ => none, none⟩ :: t.stack } ≤ t.base (nestAt h) L + 96 + 2 * L := by
          intro h1 h2
          have h3 : (match (decl c).enc with | s :: _ => s.writes | [] => false) = true := by
            rcases t1 with h | h | h
            · rw [h1] at h; cases h
            · exact absurd h h2
            · exact h
          have h4 : HThread.writing { t with stack := ⟨r, (decl c).enc, fun _ => none, none⟩ :: t.stack } = true := by
            simp only [HThread.writing, Option.isNone_none, Bool.true_and]
            exact h3
          unfold HThread.budget
          rw [if_pos h4, hb]
          omega
        refine ⟨fun a ha => ?_, ?_, hro⟩
        · rcases List.mem_cons.mp ha with rfl | ha
          · exact ⟨t3, by simpa only [padAt, hr] using t7, by simp⟩
          · exact hk a ha
        · have hle := hbudget_le (nestAt h) L { t with stack := ⟨r, (decl c).enc, fun _ => none, none⟩ :: t.stack }
          rcases hnc : nest c with _ | _
          · by_cases he : (decl c).enc = []
            · have hz : eweights (nest c) L (decl c).enc = 0 := by rw [he]; rfl
              omega
            · have := hro hnc he
              omega
          · have h7 := t4 hnc
            rw [t6 hnc] at hw
            omega
      · exact .inl (by simp [HThread.throw])
    · exact .inl (by simp [HThread.throw])

/-- The lists padded on the left have at most `L` elements. -/
theorem shortList {h : Heap} {L : Nat} (hL : ShortLists L h) {r : Nat} {c : Cls} {ys : List HVal} (hr : h[r]? = some (.msg c ys))
    (hc : padsLeft c = true) {f : Nat} {xs : List HVal} (hx : h.listAt r f = some xs) : xs.length ≤ L := by
  unfold Heap.listAt at hx
  split at hx
  · rename_i a ha
    split at hx
    · rename_i zs hz
      cases hx
      simp only [Heap.field, hr] at ha
      exact hL r c ys a xs hr hc (List.mem_of_getElem? ha) hz
    · cases hx
  · cases hx

theorem padAt_msg {h : Heap} {r : Nat} (hp : padAt h r = true) : ∃ c ys, h[r]? = some (.msg c ys) ∧ padsLeft c = true := by
  unfold padAt at hp
  split at hp
  · rename_i c ys hr; exact ⟨c, ys, hr, hp⟩
  · cases hp

/-- Classes of the elements of lists of messages. -/
def elemCls (c : Cls) : List Cls := (javaTypes c).filterMap fun t => match t with | .list (.obj d) => some d | _ => none

theorem elemCls_table (c : Cls) : (elemCls c).all (fun d => !nest d && !(decl d).enc.isEmpty) = true := by
  cases c <;> decide +kernel

theorem elemCls_of {c d : Cls} {f : Nat} (h : (javaTypes c)[f]? = some (.list (.obj d))) : nest d = false ∧ (decl d).enc ≠ [] := by
  have h1 : d ∈ elemCls c := List.mem_filterMap.mpr ⟨_, List.mem_of_getElem? h, rfl⟩
  have h2 := List.all_eq_true.mp (elemCls_table c) d h1
  simp only [Bool.and_eq_true, Bool.not_eq_true', List.isEmpty_eq_false_iff] at h2
  exact h2

theorem hbudget_loop (N : Nat → Bool) (L : Nat) (t : HThread) {a : Activation} {as : List Activation} (hst : t.stack = a :: as) (hl : a.loop ≠ none) :
    t.budget N L = t.base N L + (99 + 2 * L) := by
  have : t.writing = false := by
    simp only [HThread.writing, hst]
    cases h : a.loop with
    | none => exact absurd h hl
    | some x => rfl
  unfold HThread.budget
  rw [this]
  rfl

theorem uses_mul {k K : Nat} {b : WBuf} {o : WBuf × Option JErr} (h : Uses k b o) (ho : o.2 = none) : K * o.1.space + K * k ≤ K * b.space := by
  rw [← Nat.mul_add]
  exact Nat.mul_le_mul_left K (h ho)

theorem hiterate_budget {h : Heap} (hh : TypedHeap h) {L : Nat} (hL : ShortLists L h) (n : Nat) {t : HThread} {a : Activation} {as : List Activation}
    (hst : t.stack = a :: as) (ht : HOk h t) (hk : WidesOk (padAt h) t) {f : Nat} {el : EncElem} {i : Nat} (hl : a.loop = some (f, el, i)) :
    (t.iterate n h a as f el i).err ≠ none
      ∨ WidesOk (padAt h) (t.iterate n h a as f el i) ∧ (t.iterate n h a as f el i).budget (nestAt h) L < t.budget (nestAt h) L := by
  obtain ⟨c, ys, A, g1, -, -, g4⟩ := (ht.acts a (by rw [hst]; simp)).ok
  obtain ⟨e, g5, g6⟩ := g4 f el i hl
  obtain ⟨y, g7, -, g9⟩ := hh.field g1 g5
  obtain ⟨w1, w2, w3⟩ := hk a (by rw [hst]; simp)
  obtain ⟨w4, w5⟩ := w3 f el i hl
  have hb := hbudget_loop (nestAt h) L t hst (by rw [hl]; simp)
  have hb0 : t.base (nestAt h) L = (99 + 2 * L) * t.buf.space + a.cost (nestAt h) L + (as.map (Activation.cost (nestAt h) L)).sum := by
    obtain ⟨st, bf, er⟩ := t
    dsimp only at hst
    subst hst
    exact hbase_cons _ _ a as bf er
  have hca : a.cost (nestAt h) L = 1 + eweights (nestAt h a.this) L a.todo + eloop L (some (f, el, i)) := by rw [← hl]; rfl
  have top : ∀ (l : Option (Nat × EncElem × Nat)), (∀ f el i, l = some (f, el, i) → el.wide = true ∧ (el.left = true → padAt h a.this = true)) →
      ∀ b er, WidesOk (padAt h) ⟨{ a with loop := l } :: as, b, er⟩ := by
    intro l hl b er a' ha'
    rcases List.mem_cons.mp ha' with rfl | ha'
    · exact ⟨w1, w2, hl⟩
    · exact hk a' (by rw [hst]; exact List.mem_cons_of_mem _ ha')
  have same : ∀ f' el' i', some (f, el, i + 1) = some (f', el', i') → el'.wide = true ∧ (el'.left = true → padAt h a.this = true) := by
    intro f' el' i' hs
    simp only [Option.some.injEq, Prod.mk.injEq] at hs
    rw [← hs.2.1]
    exact ⟨w4, w5⟩
  have less : ∀ (l : Option (Nat × EncElem × Nat)) b er, (99 + 2 * L) * b.space + eloop L l < (99 + 2 * L) * t.buf.space + eloop L (some (f, el, i)) →
      HThread.budget (nestAt h) L ⟨{ a with loop := l } :: as, b, er⟩ < t.budget (nestAt h) L := by
    intro l b er hlt
    have h1 := hbudget_le (nestAt h) L ⟨{ a with loop := l } :: as, b, er⟩
    rw [hbase_cons] at h1
    simp only [Activation.cost] at h1
    omega
  unfold HThread.iterate
  rcases hx : h.listAt a.this f with _ | xs
  · exact .inl (by simp [HThread.throw])
  · dsimp only
    rcases hi : xs[i]? with _ | x
    · refine .inr ⟨top _ (by simp) _ _, less _ _ _ ?_⟩
      simp only [eloop]
      split <;> omega
    · dsimp only
      have wrote : el.left = false → ∀ o : WBuf × Option JErr, Uses 1 t.buf o →
          HThread.err (HThread.wrote { t with stack := { a with loop := some (f, el, i + 1) } :: as } o) ≠ none
            ∨ WidesOk (padAt h) (HThread.wrote { t with stack := { a with loop := some (f, el, i + 1) } :: as } o)
              ∧ HThread.budget (nestAt h) L (HThread.wrote { t with stack := { a with loop := some (f, el, i + 1) } :: as } o) < t.budget (nestAt h) L := by
        intro hle o ho
        rcases he : o.2 with _ | er
        · refine .inr ⟨top _ same _ _, less _ _ _ ?_⟩
          have := uses_mul (K := 99 + 2 * L) ho he
          simp only [eloop, hle, Bool.false_eq_true, if_false]
          omega
        · exact .inl (by simp [HThread.wrote, he])
      cases el with
      | num p en => exact wrote rfl _ (uses_val _ _ _ _)
      | dyn zt p en => exact wrote rfl _ (uses_dynVal _ _ _ _ _)
      | fixed k pad left =>
        obtain ⟨u1, u2⟩ := uses_fixedVal t.buf x.leaf k pad left
        cases left with
        | false =>
          simp only [EncElem.wide, Bool.false_or, decide_eq_true_eq] at w4
          exact wrote rfl _ ((u2 rfl).mono w4)
        | true =>
          rcases he : (writeFixedVal t.buf x.leaf k pad true).2 with _ | er
          · refine .inr ⟨top _ same _ _, less _ _ _ ?_⟩
            have h1 := uses_mul (K := 99 + 2 * L) u1 he
            obtain ⟨c', ys', hr, hc⟩ := padAt_msg (w5 rfl)
            have h2 := shortList hL hr hc hx
            have h3 : i < xs.length := by
              rcases Nat.lt_or_ge i xs.length with h | h
              · exact h
              · rw [List.getElem?_eq_none h] at hi; cases hi
            simp only [eloop, EncElem.left, if_true]
            omega
          · exact .inl (by simp [HThread.wrote, he])
      | obj =>
        rcases henter_budget (h := h) n x L (t := { t with stack := { a with loop := some (f, .obj, i + 1) } :: as }) (top _ same _ _) with
          h1 | ⟨r, d, zs, rfl, hr, h1, -, h2⟩
        · exact .inl h1
        · refine .inr ⟨h1, ?_⟩
          have hd : nest d = false ∧ (decl d).enc ≠ [] := by
            cases e <;> simp [elFits] at g6
            cases g9 with
            | null _ => rw [listAt_null g7] at hx; cases hx
            | list hb hxs =>
              rw [listAt_of g7 hb] at hx
              cases hx
              cases hxs _ (List.mem_of_getElem? hi) with
              | obj hr' =>
                rw [hr] at hr'
                cases hr'
                exact elemCls_of g5
          have h3 := h2 hd.1 hd.2
          rw [hbase_cons] at h3
          have h4 : Activation.cost (nestAt h) L { a with loop := some (f, .obj, i + 1) } = a.cost (nestAt h) L := by rw [hca]; rfl
          dsimp only at h3 h4 ⊢
          rw [h4] at h3
          omega

/-- The class of the message at a place. -/
def clsAt (h : Heap) (r : Nat) : Option Cls := match h[r]? with | some (.msg c _) => some c | _ => none

theorem clsAt_nest {h h' : Heap} (hc : clsAt h' = clsAt h) : nestAt h' = nestAt h := by
  have e : ∀ k : Heap, nestAt k = fun r => match clsAt k r with | some c => nest c | none => false := by
    intro k
    funext r
    unfold nestAt clsAt
    rcases k[r]? with _ | _ | _ <;> rfl
  rw [e, e, hc]

theorem clsAt_pad {h h' : Heap} (hc : clsAt h' = clsAt h) : padAt h' = padAt h := by
  have e : ∀ k : Heap, padAt k = fun r => match clsAt k r with | some c => padsLeft c | none => false := by
    intro k
    funext r
    unfold padAt clsAt
    rcases k[r]? with _ | _ | _ <;> rfl
  rw [e, e, hc]

theorem clsAt_setField (h : Heap) (r f : Nat) (y : HVal) : clsAt (h.setField r f y) = clsAt h := by
  unfold Heap.setField
  rcases hr : h[r]? with _ | ⟨c, ys⟩ | xs
  · rfl
  · funext q
    dsimp only
    unfold clsAt
    by_cases hq : q = r
    · subst hq
      have hlt : q < h.length := by
        rcases Nat.lt_or_ge q h.length with h' | h'
        · exact h'
        · rw [List.getElem?_eq_none h'] at hr; cases hr
      rw [List.getElem?_set_self hlt, hr]
    · rw [List.getElem?_set_ne (Ne.symm hq)]
  · rfl

theorem hstep_cls (w : World) (n : Nat) (h : Heap) (t : HThread) : clsAt (t.step w n h).1 = clsAt h := by
  unfold HThread.step
  split
  · split
    · rfl
    · rename_i a as _ _ s ss _ _
      cases s with
      | setLen f x y => simp only [HThread.exec, hencStmt]; split; exact clsAt_setField _ _ _ _; rfl
      | checksum f alg => simp only [HThread.exec, hencStmt]; split; exact clsAt_setField _ _ _ _; rfl
      | _ =>
        simp only [HThread.exec, hencStmt]
        repeat' split
        all_goals rfl
    · rfl
  · rfl

theorem nest_sub_enc : (nest .sample_SubPacket = false ∧ (decl .sample_SubPacket).enc ≠ [])
    ∧ nest .sample_NestedPacket_InerPacket = false ∧ (decl .sample_NestedPacket_InerPacket).enc ≠ [] := by decide +kernel

theorem hexec_budget {h : Heap} (hh : TypedHeap h) {L : Nat} (w : World) (n : Nat) {t : HThread} {a : Activation} {as : List Activation}
    (hst : t.stack = a :: as) (ht : HOk h t) (hk : WidesOk (padAt h) t) {s : EncStmt} {ss : List EncStmt} (htd : a.todo = s :: ss) (hlo : a.loop = none) :
    (t.exec w n h s { a with todo := ss } as).2.err ≠ none
      ∨ WidesOk (padAt h) (t.exec w n h s { a with todo := ss } as).2 ∧ (t.exec w n h s { a with todo := ss } as).2.budget (nestAt h) L < t.budget (nestAt h) L := by
  obtain ⟨c, ys, A, g1, g2, -, -⟩ := (ht.acts a (by rw [hst]; simp)).ok
  obtain ⟨w1, w2, -⟩ := hk a (by rw [hst]; simp)
  obtain ⟨st, bf, er⟩ := t
  dsimp only at hst
  subst hst
  obtain ⟨this, todo, loc, loop⟩ := a
  dsimp only at htd hlo g1 g2 w1 w2 ⊢
  subst htd hlo
  rw [encFitsAll, Bool.and_eq_true] at g2
  simp only [elemsWide, List.all_cons, Bool.and_eq_true] at w1
  have hss : elemsWide ss = true := w1.2
  have hls : padAt h this = false → lefts ss = 0 := by
    intro hp
    have := w2 hp
    simp only [lefts, List.countP_cons] at this
    unfold lefts
    omega
  have top : ∀ (l : Option (Nat × EncElem × Nat)), (∀ f el i, l = some (f, el, i) → el.wide = true ∧ (el.left = true → padAt h this = true)) →
      ∀ loc b er, WidesOk (padAt h) ⟨⟨this, ss, loc, l⟩ :: as, b, er⟩ := by
    intro l hl loc b er a' ha'
    rcases List.mem_cons.mp ha' with rfl | ha'
    · exact ⟨hss, hls, hl⟩
    · exact hk a' (List.mem_cons_of_mem _ ha')
  have hn : nestAt h this = nest c := by simp [nestAt, g1]
  have hw : eweights (nest c) L (s :: ss) = eweight (nest c) L s + eweights (nest c) L ss := by simp [eweights]
  have hb : HThread.budget (nestAt h) L ⟨⟨this, s :: ss, loc, none⟩ :: as, bf, er⟩
      = (99 + 2 * L) * bf.space + (1 + (eweight (nest c) L s + eweights (nest c) L ss)) + (as.map (Activation.cost (nestAt h) L)).sum
        + if s.writes then 0 else 99 + 2 * L := by
    simp only [HThread.budget, hbase_cons, HThread.writing, Activation.cost, eloop, hn, hw, Option.isNone_none, Bool.true_and, Nat.add_zero]
  have less : ∀ (l : Option (Nat × EncElem × Nat)) loc' b er', (99 + 2 * L) * b.space + eloop L l + (99 + 2 * L) < (99 + 2 * L) * bf.space + eweight (nest c) L s
        + (if s.writes then 0 else 99 + 2 * L) →
      HThread.budget (nestAt h) L ⟨⟨this, ss, loc', l⟩ :: as, b, er'⟩ < HThread.budget (nestAt h) L ⟨⟨this, s :: ss, loc, none⟩ :: as, bf, er⟩ := by
    intro l loc' b er' hlt
    have h1 := hbudget_le (nestAt h) L ⟨⟨this, ss, loc', l⟩ :: as, b, er'⟩
    rw [hbase_cons] at h1
    simp only [Activation.cost, hn] at h1
    rw [hb]
    omega
  -- statements that write at least one byte
  have wr : s.writes = true → 1 ≤ eweight (nest c) L s → ∀ (o : WBuf × Option JErr), Uses 1 bf o → ∀ loc',
      o.2 ≠ none ∨ WidesOk (padAt h) ⟨⟨this, ss, loc', none⟩ :: as, o.1, o.2⟩
        ∧ HThread.budget (nestAt h) L ⟨⟨this, ss, loc', none⟩ :: as, o.1, o.2⟩ < HThread.budget (nestAt h) L ⟨⟨this, s :: ss, loc, none⟩ :: as, bf, er⟩ := by
    intro h1 h2 o ho loc'
    rcases he : o.2 with _ | er'
    · refine .inr ⟨top _ (by simp) _ _ _, less _ _ _ _ ?_⟩
      have := uses_mul (K := 99 + 2 * L) ho he
      simp only [eloop, h1, if_true]
      omega
    · exact .inl (by simp)
  -- statements that need not write
  have nw : s.writes = false → 1 ≤ eweight (nest c) L s → ∀ (o : WBuf × Option JErr), Uses 0 bf o → ∀ loc',
      o.2 ≠ none ∨ WidesOk (padAt h) ⟨⟨this, ss, loc', none⟩ :: as, o.1, o.2⟩
        ∧ HThread.budget (nestAt h) L ⟨⟨this, ss, loc', none⟩ :: as, o.1, o.2⟩ < HThread.budget (nestAt h) L ⟨⟨this, s :: ss, loc, none⟩ :: as, bf, er⟩ := by
    intro h1 h2 o ho loc'
    rcases he : o.2 with _ | er'
    · refine .inr ⟨top _ (by simp) _ _ _, less _ _ _ _ ?_⟩
      have := uses_mul (K := 99 + 2 * L) ho he
      simp only [eloop, h1, Bool.false_eq_true, if_false]
      omega
    · exact .inl (by simp)
  have u0 : ∀ o : WBuf × Option JErr, o.1 = bf → Uses 0 bf o := fun o ho _ => by rw [ho]; exact Nat.le_refl _
  -- calls
  have call : s.writes = false → eweight (nest c) L s = (if nest c then 1 else 16) → ∀ (f : Nat) (ty : FTy) (x : HVal),
      (javaTypes c)[f]? = some ty → objTy ty = true → h.field this f = some x →
      (HThread.enter n x h ⟨⟨this, ss, loc, none⟩ :: as, bf, er⟩).err ≠ none
        ∨ WidesOk (padAt h) (HThread.enter n x h ⟨⟨this, ss, loc, none⟩ :: as, bf, er⟩)
          ∧ HThread.budget (nestAt h) L (HThread.enter n x h ⟨⟨this, ss, loc, none⟩ :: as, bf, er⟩)
            < HThread.budget (nestAt h) L ⟨⟨this, s :: ss, loc, none⟩ :: as, bf, er⟩ := by
    intro h1 h2 f ty x hf hty hx
    rcases henter_budget (h := h) n x L (t := ⟨⟨this, ss, loc, none⟩ :: as, bf, er⟩) (top _ (by simp) _ _ _) with h3 | ⟨r, d, zs, rfl, hr, h3, h4, h5⟩
    · exact .inl h3
    · refine .inr ⟨h3, ?_⟩
      rw [hbase_cons] at h4 h5
      simp only [Activation.cost, hn, eloop] at h4 h5
      rw [hb, h1, h2]
      rcases hnc : nest c with _ | _
      · rw [hnc] at h4
        simp
        omega
      · have hc := nest_eq hnc
        subst hc
        obtain ⟨y, hfy, -, h6⟩ := hh.field g1 hf
        rw [hfy] at hx
        cases hx
        rw [hnc] at h5
        rcases nest_types ty (List.mem_of_getElem? hf) hty with hmem | hmem <;> subst hmem <;> cases h6 with
        | obj h7 =>
          rw [hr] at h7
          cases h7
          first
            | have := h5 nest_sub_enc.1.1 nest_sub_enc.1.2
              simp
              omega
            | have := h5 nest_sub_enc.2.1 nest_sub_enc.2.2
              simp
              omega
  cases s with
  | num f p e =>
    simp only [HThread.exec, hencStmt]
    split
    · exact wr rfl (Nat.le_refl 1) _ (uses_val _ _ _ _) _
    · exact .inl (by simp)
  | fixed f k pad left =>
    simp only [HThread.exec, hencStmt]
    split
    · rename_i x hx
      obtain ⟨u1, u2⟩ := uses_fixedVal bf x.leaf k pad left
      rcases hwr : EncStmt.writes (.fixed f k pad left) with _ | _
      · exact nw hwr (Nat.le_refl 1) _ u1 _
      · have hwr' := hwr
        simp only [EncStmt.writes, Bool.and_eq_true, Bool.not_eq_true', decide_eq_true_eq] at hwr'
        exact wr hwr (Nat.le_refl 1) _ ((u2 hwr'.1).mono hwr'.2) _
    · exact .inl (by simp)
  | dyn f zt p e =>
    simp only [HThread.exec, hencStmt]
    split
    · exact wr rfl (Nat.le_refl 1) _ (uses_dynVal _ _ _ _ _) _
    · exact .inl (by simp)
  | list f zt p e el =>
    have hge : 2 ≤ eweight (nest c) L (.list f zt p e el) := by simp only [eweight]; split <;> omega
    have empty := wr rfl (by omega) (writeInt bf zt .be 0) (uses_int _ _ _ _) loc
    simp only [HThread.exec]
    split
    · exact empty
    · split
      · exact empty
      · rename_i x xs hx
        have hu := uses_int bf p e (x :: xs).length
        rcases he : (writeInt bf p e (x :: xs).length).2 with _ | er'
        · refine .inr ⟨top _ ?_ _ _ _, less _ _ _ _ ?_⟩
          · intro f' el' i' hs
            simp only [Option.some.injEq, Prod.mk.injEq] at hs
            rw [← hs.2.1]
            refine ⟨w1.1, fun hel => ?_⟩
            rcases hp : padAt h this with _ | _
            · have := w2 hp
              simp only [lefts, List.countP_cons, EncStmt.left, hel, if_true] at this
              omega
            · rfl
          · have := uses_mul (K := 99 + 2 * L) hu he
            simp only [eloop, eweight, EncStmt.writes, if_true]
            split <;> omega
        · exact .inl (by simp only [HThread.wrote, he]; exact Option.some_ne_none _)
      · exact .inl (by simp [HThread.throw])
  | obj f =>
    simp only [HThread.exec]
    simp only [encFits] at g2
    rcases hf : (javaTypes c)[f]? with _ | ty
    · rw [hf] at g2; simp at g2
    · rw [hf] at g2
      split
      · rename_i x hx
        exact call rfl rfl f ty x hf g2.1 hx
      · exact .inl (by simp [HThread.throw])
  | objOpt f =>
    simp only [HThread.exec]
    simp only [encFits] at g2
    rcases hf : (javaTypes c)[f]? with _ | ty
    · rw [hf] at g2; simp at g2
    · rw [hf] at g2
      split
      · refine .inr ⟨top _ (by simp) _ _ _, less _ _ _ _ ?_⟩
        simp only [eloop, eweight, EncStmt.writes, Bool.false_eq_true, if_false]
        split <;> omega
      · rename_i x _ hx
        exact call rfl rfl f ty x hf g2.1 hx
      · exact .inl (by simp [HThread.throw])
  | save x => exact nw rfl (Nat.le_refl 1) (bf, none) (u0 _ rfl) _
  | zero p e => exact wr rfl (Nat.le_refl 1) _ (uses_int _ _ _ _) _
  | setLen f x y =>
    simp only [HThread.exec, hencStmt]
    split
    · exact nw rfl (Nat.le_refl 1) (bf, none) (u0 _ rfl) _
    · exact .inl (by simp)
  | patch x f p e =>
    simp only [HThread.exec, hencStmt]
    split
    · split
      · exact nw rfl (Nat.le_refl 1) _ (uses_set _ _ _) _
      · exact .inl (by simp)
    · exact .inl (by simp)
  | checksum f alg =>
    simp only [HThread.exec, hencStmt]
    split
    · exact nw rfl (Nat.le_refl 1) (bf, none) (u0 _ rfl) _
    · exact nw rfl (Nat.le_refl 1) (bf, none) (u0 _ rfl) _

theorem hstep_budget {h : Heap} (hh : TypedHeap h) {L : Nat} (hL : ShortLists L h) (w : World) (n : Nat) {t : HThread} (ht : HOk h t)
    (hk : WidesOk (padAt h) t) (he : t.err = none) (hs : t.stack ≠ []) :
    (t.step w n h).2.err ≠ none ∨ WidesOk (padAt h) (t.step w n h).2 ∧ (t.step w n h).2.budget (nestAt h) L < t.budget (nestAt h) L := by
  rcases hst : t.stack with _ | ⟨a, as⟩
  · exact absurd hst hs
  · simp only [HThread.step, he, hst]
    rcases hl : a.loop with _ | ⟨f, el, i⟩
    · rcases htd : a.todo with _ | ⟨s, ss⟩
      · dsimp only
        refine .inr ⟨fun a' ha' => hk a' (by rw [hst]; exact List.mem_cons_of_mem _ ha'), ?_⟩
        have h1 := hbudget_le (nestAt h) L { t with stack := as, err := none }
        have h2 : t.writing = false := by simp [HThread.writing, hst, hl, htd]
        have h3 : HThread.base (nestAt h) L { t with stack := as, err := none } + 1 ≤ t.base (nestAt h) L := by
          simp only [HThread.base, hst, List.map_cons, List.sum_cons, Activation.cost]
          omega
        have h4 : t.budget (nestAt h) L = t.base (nestAt h) L + (99 + 2 * L) := by simp [HThread.budget, h2]
        omega
      · have := hexec_budget (L := L) hh w n hst ht hk htd hl
        rw [hl] at this
        exact this
    · exact hiterate_budget hh hL n hst ht hk hl

end FinProto
