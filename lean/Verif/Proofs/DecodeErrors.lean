import Verif.Proofs.Exact
/-
Helper lemmas: exceptions of `decode`, types of the decoded fields, call-stack depth.
-/
namespace FinProto

/-- Exceptions `decode` may throw. -/
def kindOk (e : Option JErr) : Prop := e = none ∨ e = some .indexOutOfBounds ∨ e = some .illegalArgument ∨ e = some .stackOverflow

theorem readNum_err {b b' : RBuf} {en : Endian} {t : PTy} {e : JErr} (h : b.readNum en t = (b', .error e)) : e = .indexOutOfBounds := by
  unfold RBuf.readNum at h
  split at h
  · simp at h
  · simp only [Prod.mk.injEq, Except.error.injEq] at h; exact h.2.symm

theorem readText_err {b b' : RBuf} {n : Nat} {e : JErr} (h : b.readText n = (b', .error e)) : e = .indexOutOfBounds := by
  unfold RBuf.readText at h
  split at h
  · simp at h
  · split at h
    · simp at h
    · simp only [Prod.mk.injEq, Except.error.injEq] at h; exact h.2.symm

theorem readFixed_err {b b' : RBuf} {n : Nat} {p : JChar} {l : Bool} {e : JErr} (h : readFixedString b n p l = (b', .error e)) :
    e = .indexOutOfBounds := by
  unfold readFixedString at h
  revert h
  rcases hr : b.readText n with ⟨b1, e1 | s⟩ <;> intro h
  · simp only [Prod.mk.injEq, Except.error.injEq] at h
    rw [← h.2]; exact readText_err hr
  · dsimp only at h
    split at h <;> simp at h

theorem readDyn_err {b b' : RBuf} {t : PTy} {en : Endian} {e : JErr} (h : readDyn b t en = (b', .error e)) : e = .indexOutOfBounds := by
  unfold readDyn at h
  revert h
  rcases hr : b.readNum en t with ⟨b1, e1 | n⟩ <;> intro h
  · simp only [Prod.mk.injEq, Except.error.injEq] at h
    rw [← h.2]; exact readNum_err hr
  · dsimp only at h
    split at h
    · revert h
      rcases ht : b1.readText n.bits.toNat with ⟨b2, e2 | s⟩ <;> intro h
      · simp only [Prod.mk.injEq, Except.error.injEq] at h
        rw [← h.2]; exact readText_err ht
      · simp at h
    · simp at h

theorem typed_defaults (ts : List FTy) : fieldsHaveType ts (ts.map FTy.default) = true := by
  induction ts with
  | nil => rfl
  | cons t ts ih =>
    simp only [List.map_cons, fieldsHaveType, Bool.and_eq_true]
    exact ⟨by cases t <;> simp [FTy.default, hasType], ih⟩

theorem typed_fresh (c : Cls) : fieldsHaveType (javaTypes c) (freshFields c) = true := by
  have : freshFields c = (javaTypes c).map FTy.default := by simp [freshFields, javaTypes]
  rw [this]; exact typed_defaults _

/-- The call keeps objects well-typed and throws only allowed exceptions. -/
def CallTyped (call : DecCall) : Prop :=
  ∀ c fs b, fieldsHaveType (javaTypes c) fs = true → fieldsHaveType (javaTypes c) (call c fs b).1 = true ∧ kindOk (call c fs b).2.2

theorem FreshSuppliers.typed {w : World} (h : FreshSuppliers w) : TypedSuppliers w := by
  intro fac key v hv
  obtain ⟨c, rfl⟩ := h fac key v hv
  simp only [wellTyped, fresh, hasType, Bool.true_and]
  exact typed_fresh c

theorem decElem_typed (call : DecCall) (hc : CallTyped call) (k : Conv) (e : EWTy) (b : RBuf) :
    (∀ b' v, decElem call (decElOf k e) b = (b', .ok (some v)) → elemHasType e.java v = true)
      ∧ (∀ b' er, decElem call (decElOf k e) b = (b', .error er) → kindOk (some er)) := by
  cases e with
  | num p =>
    simp only [decElem, decElOf]
    rcases hr : b.readNum (ordOf k p) p with ⟨b1, e | n⟩
    · refine ⟨fun _ _ h => by simp at h, fun _ _ h => ?_⟩
      simp only [Prod.mk.injEq, Except.error.injEq] at h
      rw [← h.2, readNum_err hr]; exact .inr (.inl rfl)
    · refine ⟨fun _ _ h => ?_, fun _ _ h => by simp at h⟩
      simp only [Prod.mk.injEq, Except.ok.injEq, Option.some.injEq] at h
      rw [← h.2]
      simp [elemHasType, EWTy.java, readNum_ty hr]
  | text n pad left =>
    simp only [decElem, decElOf]
    rcases hr : readFixedString b n pad left with ⟨b1, e | s⟩
    · refine ⟨fun _ _ h => by simp at h, fun _ _ h => ?_⟩
      simp only [Prod.mk.injEq, Except.error.injEq] at h
      rw [← h.2, readFixed_err hr]; exact .inr (.inl rfl)
    · refine ⟨fun _ _ h => ?_, fun _ _ h => by simp at h⟩
      simp only [Prod.mk.injEq, Except.ok.injEq, Option.some.injEq] at h
      rw [← h.2]
      simp [elemHasType, EWTy.java]
  | vstr =>
    simp only [decElem, decElOf]
    rcases hr : readDyn b k.strLen k.order with ⟨b1, e | _ | s⟩
    · refine ⟨fun _ _ h => by simp at h, fun _ _ h => ?_⟩
      simp only [Prod.mk.injEq, Except.error.injEq] at h
      rw [← h.2, readDyn_err hr]; exact .inr (.inl rfl)
    · exact ⟨fun _ _ h => by simp at h, fun _ _ h => by simp at h⟩
    · refine ⟨fun _ _ h => ?_, fun _ _ h => by simp at h⟩
      simp only [Prod.mk.injEq, Except.ok.injEq, Option.map_some, Option.some.injEq] at h
      rw [← h.2]
      simp [elemHasType, EWTy.java]
  | sub c =>
    simp only [decElem, decElOf]
    have := hc c (freshFields c) b (typed_fresh c)
    revert this
    rcases call c (freshFields c) b with ⟨fs, b1, _ | e⟩ <;> intro this
    · refine ⟨fun _ _ h => ?_, fun _ _ h => by simp at h⟩
      simp only [Prod.mk.injEq, Except.ok.injEq, Option.some.injEq] at h
      rw [← h.2]
      simp only [elemHasType, EWTy.java, decide_true, Bool.true_and]
      exact this.1
    · refine ⟨fun _ _ h => by simp at h, fun _ _ h => ?_⟩
      simp only [Prod.mk.injEq, Except.error.injEq] at h
      rw [← h.2]; exact this.2

theorem elemsHaveType_append (e : ElTy) (xs ys : List Val) :
    elemsHaveType e (xs ++ ys) = (elemsHaveType e xs && elemsHaveType e ys) := by
  induction xs with
  | nil => simp [elemsHaveType]
  | cons x xs ih => simp only [List.cons_append, elemsHaveType, ih, Bool.and_assoc]

theorem decElems_typed (call : DecCall) (hc : CallTyped call) (k : Conv) (e : EWTy) (n : Nat) (acc : List Val) (b : RBuf)
    (ha : elemsHaveType e.java acc = true) :
    elemsHaveType e.java (decElems call (decElOf k e) n acc b).1 = true ∧ kindOk (decElems call (decElOf k e) n acc b).2.2 := by
  induction n generalizing acc b with
  | zero => exact ⟨ha, .inl rfl⟩
  | succ n ih =>
    simp only [decElems]
    have := decElem_typed call hc k e b
    revert this
    rcases decElem call (decElOf k e) b with ⟨b', er | _ | v⟩ <;> intro this
    · exact ⟨ha, this.2 _ _ rfl⟩
    · exact ih acc b' ha
    · refine ih (acc ++ [v]) b' ?_
      rw [elemsHaveType_append, ha]
      simp only [elemsHaveType, Bool.and_true, Bool.true_and]
      exact this.1 _ _ rfl

theorem readField_typed (w : World) (hw : TypedSuppliers w) (call : DecCall) (hc : CallTyped call) (k : Conv) (done : List Val) (t : WTy)
    (old : Val) (b : RBuf) (ho : hasType t.java old = true) (hkey : ∀ fac key, t = .ext fac key → key < done.length) :
    hasType t.java (readField w call k done t old b).1 = true ∧ kindOk (readField w call k done t old b).2.2 := by
  have hnum : ∀ p : PTy, hasType (.prim p) old = true →
      hasType (.prim p) (readField w call k done (.num p) old b).1 = true ∧ kindOk (readField w call k done (.num p) old b).2.2 := by
    intro p ho
    simp only [readField]
    rcases hr : b.readNum (ordOf k p) p with ⟨b1, e | n⟩
    · exact ⟨ho, by rw [readNum_err hr]; exact .inr (.inl rfl)⟩
    · exact ⟨by simp [hasType, readNum_ty hr], .inl rfl⟩
  cases t with
  | num p => exact hnum p ho
  | len p => exact hnum p ho
  | cksum p alg => exact hnum p ho
  | text n pad left =>
    simp only [readField]
    rcases hr : readFixedString b n pad left with ⟨b1, e | s⟩
    · exact ⟨ho, by rw [readFixed_err hr]; exact .inr (.inl rfl)⟩
    · exact ⟨by simp [hasType, WTy.java], .inl rfl⟩
  | vstr =>
    simp only [readField]
    rcases hr : readDyn b k.strLen k.order with ⟨b1, e | _ | s⟩
    · exact ⟨ho, by rw [readDyn_err hr]; exact .inr (.inl rfl)⟩
    · exact ⟨ho, .inl rfl⟩
    · exact ⟨by simp [hasType, WTy.java], .inl rfl⟩
  | list e =>
    simp only [readField]
    rcases hr : b.readNum k.order k.listLen with ⟨b1, er | n⟩
    · exact ⟨ho, by rw [readNum_err hr]; exact .inr (.inl rfl)⟩
    · dsimp only
      split
      · exact decElems_typed call hc k e _ [] b1 rfl
      · exact ⟨ho, .inl rfl⟩
  | sub c =>
    simp only [readField]
    cases old with
    | null =>
      have := hc c (freshFields c) b (typed_fresh c)
      exact ⟨by simp only [hasType, WTy.java, decide_true, Bool.true_and]; exact this.1, this.2⟩
    | obj c' fs' =>
      simp only [hasType, WTy.java, Bool.and_eq_true, decide_eq_true_eq] at ho
      have := hc c' fs' b ho.2
      exact ⟨by simp only [hasType, WTy.java, ho.1, decide_true, Bool.true_and]; rw [← ho.1]; exact this.1, this.2⟩
    | _ => simp [hasType, WTy.java] at ho
  | ext fac key =>
    simp only [readField]
    have hk := hkey fac key rfl
    rw [List.getElem?_eq_getElem hk]
    dsimp only
    cases hf : w.fac fac (keyOf done[key]) with
    | none => exact ⟨ho, .inr (.inr (.inl rfl))⟩
    | some v =>
      have hv := hw _ _ _ hf
      cases v with
      | obj c' fs' =>
        simp only [wellTyped, hasType, Bool.true_and] at hv
        have := hc c' fs' b hv
        exact ⟨by simp only [hasType, WTy.java, Bool.true_and]; exact this.1, this.2⟩
      | _ => simp [wellTyped] at hv

theorem fieldsHaveType_append (ts1 ts2 : List FTy) (a b : List Val) (h1 : fieldsHaveType ts1 a = true) (h2 : fieldsHaveType ts2 b = true) :
    fieldsHaveType (ts1 ++ ts2) (a ++ b) = true := by
  induction a generalizing ts1 with
  | nil => cases ts1 <;> simp_all [fieldsHaveType]
  | cons x a ih =>
    cases ts1 with
    | nil => simp [fieldsHaveType] at h1
    | cons t ts1 =>
      simp only [fieldsHaveType, Bool.and_eq_true, List.cons_append] at h1 ⊢
      exact ⟨h1.1, ih ts1 h1.2⟩

theorem keysOk_head {i : Nat} {all : List WTy} {t : WTy} {ts : List WTy} (h : keysOk i all (t :: ts) = true) :
    (∀ fac key, t = .ext fac key → key < i) ∧ keysOk (i + 1) all ts = true := by
  constructor
  · intro fac key ht
    subst ht
    simp only [keysOk, Bool.and_eq_true, decide_eq_true_eq] at h
    exact h.1.1
  · cases t <;> simp only [keysOk, Bool.and_eq_true] at h
    case ext => exact h.2
    all_goals exact h

theorem readFields_typed (w : World) (hw : TypedSuppliers w) (call : DecCall) (hc : CallTyped call) (k : Conv) (all : List WTy)
    (ts : List WTy) : ∀ (dts : List FTy) (done olds : List Val) (b : RBuf), fieldsHaveType dts done = true →
      fieldsHaveType (ts.map WTy.java) olds = true → keysOk done.length all ts = true →
      fieldsHaveType (dts ++ ts.map WTy.java) (readFields w call k done ts olds b).1 = true
        ∧ kindOk (readFields w call k done ts olds b).2.2 := by
  induction ts with
  | nil =>
    intro dts done olds b hd ho _
    have : olds = [] := by cases olds with | nil => rfl | cons => simp [fieldsHaveType] at ho
    subst this
    simp only [readFields, List.append_nil, List.map_nil]
    exact ⟨hd, .inl rfl⟩
  | cons t ts ih =>
    intro dts done olds b hd ho hk
    cases olds with
    | nil => simp [fieldsHaveType] at ho
    | cons old olds =>
      simp only [List.map_cons, fieldsHaveType, Bool.and_eq_true] at ho
      obtain ⟨hk0, hk1⟩ := keysOk_head hk
      have hf := readField_typed w hw call hc k done t old b ho.1 hk0
      simp only [readFields]
      revert hf
      rcases readField w call k done t old b with ⟨v, b', _ | e⟩ <;> intro hf
      · have := ih (dts ++ [t.java]) (done ++ [v]) olds b' (fieldsHaveType_append _ _ _ _ hd (by simp [fieldsHaveType, hf.1])) ho.2
          (by simpa using hk1)
        simpa using this
      · refine ⟨?_, hf.2⟩
        refine fieldsHaveType_append _ _ _ _ hd ?_
        simp only [List.map_cons, fieldsHaveType, Bool.and_eq_true]
        exact ⟨hf.1, ho.2⟩

theorem decode_typed (w : World) (hw : TypedSuppliers w) (n : Nat) : CallTyped (decode w n) := by
  induction n with
  | zero => intro c fs b h; exact ⟨h, .inr (.inr (.inr rfl))⟩
  | succ n ih =>
    intro c fs b h
    rw [decode_eq w n c fs b (fields_length c fs h)]
    have := readFields_typed w hw (decode w n) ih (conv c.mod) (wire c) (wire c) [] [] fs b rfl (by rw [← type_table]; exact h)
      (by simpa using keysOk_table c)
    simpa [type_table] using this

/-! ### Call-stack depth -/

/-- The call does not overflow on objects of class `c` in buffers with at most `r` bytes left. -/
def NoOv (call : DecCall) (c : Cls) (r : Nat) : Prop :=
  ∀ fs b, fieldsHaveType (javaTypes c) fs = true → b.room ≤ r → (call c fs b).2.2 ≠ some .stackOverflow

theorem Law.room {α : Type} {f : Reader α} (h : Law f) (b : RBuf) : (f b).2.1.room ≤ b.room := by
  unfold RBuf.room
  rw [h.data, h.spare]
  have := h.forward b
  omega

theorem decElems_noOv (call : DecCall) (hl : ∀ c fs, Law (call c fs)) (k : Conv) (e : EWTy) (r : Nat)
    (hc : ∀ c, e = .sub c → NoOv call c r) (n : Nat) (acc : List Val) (b : RBuf) (hb : b.room ≤ r) :
    (decElems call (decElOf k e) n acc b).2.2 ≠ some .stackOverflow := by
  induction n generalizing acc b with
  | zero => simp [decElems]
  | succ n ih =>
    have h1 : ∀ b' er, decElem call (decElOf k e) b = (b', .error er) → er ≠ .stackOverflow := by
      intro b' er h
      cases e with
      | num p =>
        simp only [decElem, decElOf] at h
        revert h
        rcases hr : b.readNum (ordOf k p) p with ⟨b1, e | n⟩ <;> intro h <;> simp at h
        rw [← h.2, readNum_err hr]; simp
      | text n pad left =>
        simp only [decElem, decElOf] at h
        revert h
        rcases hr : readFixedString b n pad left with ⟨b1, e | n⟩ <;> intro h <;> simp at h
        rw [← h.2, readFixed_err hr]; simp
      | vstr =>
        simp only [decElem, decElOf] at h
        revert h
        rcases hr : readDyn b k.strLen k.order with ⟨b1, e | n⟩ <;> intro h <;> simp at h
        rw [← h.2, readDyn_err hr]; simp
      | sub c =>
        simp only [decElem, decElOf] at h
        have := hc c rfl (freshFields c) b (typed_fresh c) hb
        revert h this
        rcases call c (freshFields c) b with ⟨fs, b1, _ | e⟩ <;> intro h this <;> simp at h
        rw [← h.2]
        simpa using this
    have h2 : (decElem call (decElOf k e) b).1.room ≤ b.room := by
      have := (law_decElem call hl (decElOf k e)).room b
      simp only [toReader] at this
      revert this
      rcases decElem call (decElOf k e) b with ⟨b', er | v⟩ <;> exact fun h => h
    simp only [decElems]
    revert h1 h2
    rcases decElem call (decElOf k e) b with ⟨b', er | _ | v⟩ <;> intro h1 h2
    · simpa using h1 b' er rfl
    · exact ih acc b' (Nat.le_trans h2 hb)
    · exact ih (acc ++ [v]) b' (Nat.le_trans h2 hb)

/-- One field: nested calls get an object of the layout's class or of a registered class; behind a list count or a key field some bytes are gone. -/
theorem readField_noOv (w : World) (hw : TypedSuppliers w) (call : DecCall) (hl : ∀ c fs, Law (call c fs)) (k : Conv)
    (hk : k.listLen.isCount = true) (done : List Val) (t : WTy)
    (old : Val) (b : RBuf) (ho : hasType t.java old = true)
    (hsub : ∀ c, t = .sub c → NoOv call c b.room)
    (hlist : ∀ c r, t = .list (.sub c) → r + 2 ≤ b.room → NoOv call c r)
    (hext : ∀ fac key kv c fs, t = .ext fac key → w.fac fac kv = some (.obj c fs) → NoOv call c b.room) :
    (readField w call k done t old b).2.2 ≠ some .stackOverflow := by
  have hnum : ∀ p : PTy, (readField w call k done (.num p) old b).2.2 ≠ some .stackOverflow := by
    intro p
    simp only [readField]
    rcases hr : b.readNum (ordOf k p) p with ⟨b1, e | n⟩
    · rw [readNum_err hr]; simp
    · simp
  cases t with
  | num p => exact hnum p
  | len p => exact hnum p
  | cksum p alg => exact hnum p
  | text n pad left =>
    simp only [readField]
    rcases hr : readFixedString b n pad left with ⟨b1, e | s⟩
    · rw [readFixed_err hr]; simp
    · simp
  | vstr =>
    simp only [readField]
    rcases hr : readDyn b k.strLen k.order with ⟨b1, e | _ | s⟩
    · rw [readDyn_err hr]; simp
    · simp
    · simp
  | list e =>
    simp only [readField]
    rcases hr : b.readNum k.order k.listLen with ⟨b1, er | n⟩
    · rw [readNum_err hr]; simp
    · dsimp only
      split
      · have hb1 : b1.room + 2 ≤ b.room := by
          unfold RBuf.readNum at hr
          split at hr
          · rename_i hfit
            simp only [Prod.mk.injEq, Except.ok.injEq] at hr
            have h2 : 2 ≤ k.listLen.size := by
              revert hk; cases k.listLen <;> simp [PTy.isCount, PTy.size]
            rw [← hr.1]
            simp only [RBuf.room, List.length_append]
            omega
          · simp at hr
        refine decElems_noOv call hl k e b1.room (fun c he => ?_) _ [] b1 (Nat.le_refl _)
        exact hlist c _ (by rw [he]) hb1
      · simp
  | sub c =>
    simp only [readField]
    cases old with
    | null => exact hsub c rfl _ _ (typed_fresh c) (Nat.le_refl _)
    | obj c' fs' =>
      simp only [hasType, WTy.java, Bool.and_eq_true, decide_eq_true_eq] at ho
      obtain ⟨rfl, ho⟩ := ho
      exact hsub c' rfl _ _ ho (Nat.le_refl _)
    | _ => simp [hasType, WTy.java] at ho
  | ext fac key =>
    simp only [readField]
    cases done[key]? with
    | none => simp
    | some kv =>
      dsimp only
      cases hf : w.fac fac (keyOf kv) with
      | none => simp
      | some v =>
        have hv := hw _ _ _ hf
        cases v with
        | obj c' fs' =>
          simp only [wellTyped, hasType, Bool.true_and] at hv
          exact hext fac key _ c' fs' rfl hf _ _ hv (Nat.le_refl _)
        | _ => simp [wellTyped] at hv

theorem room_of_reader {α : Type} (g : RBuf → RBuf × Except JErr α) (h : Law (toReader g)) (b : RBuf) : (g b).1.room ≤ b.room := by
  have := h.room b
  simp only [toReader] at this
  revert this
  rcases g b with ⟨b', er | v⟩ <;> exact fun h => h

theorem readField_room (w : World) (call : DecCall) (hl : ∀ c fs, Law (call c fs)) (k : Conv) (done : List Val) (t : WTy) (old : Val) (b : RBuf) :
    (readField w call k done t old b).2.1.room ≤ b.room := by
  have hnum : ∀ p : PTy, (readField w call k done (.num p) old b).2.1.room ≤ b.room := by
    intro p
    simp only [readField]
    have := room_of_reader _ (law_readNum (ordOf k p) p) b
    revert this
    rcases b.readNum (ordOf k p) p with ⟨b1, e | n⟩ <;> exact fun h => h
  cases t with
  | num p => exact hnum p
  | len p => exact hnum p
  | cksum p alg => exact hnum p
  | text n pad left =>
    simp only [readField]
    have := room_of_reader _ (law_readFixedString n pad left) b
    revert this
    rcases readFixedString b n pad left with ⟨b1, e | s⟩ <;> exact fun h => h
  | vstr =>
    simp only [readField]
    have := room_of_reader _ (law_readDyn k.strLen k.order) b
    revert this
    rcases readDyn b k.strLen k.order with ⟨b1, e | _ | s⟩ <;> exact fun h => h
  | list e =>
    simp only [readField]
    have := room_of_reader _ (law_readNum k.order k.listLen) b
    revert this
    rcases b.readNum k.order k.listLen with ⟨b1, er | n⟩ <;> intro this
    · exact this
    · dsimp only
      split
      · exact Nat.le_trans ((law_decElems call hl (decElOf k e) n.bits.toNat []).room b1) this
      · exact this
  | sub c =>
    simp only [readField]
    cases old with
    | null => exact (hl c _).room b
    | obj c' fs' => exact (hl c' _).room b
    | _ => exact Nat.le_refl _
  | ext fac key =>
    simp only [readField]
    cases done[key]? with
    | none => exact Nat.le_refl _
    | some kv =>
      dsimp only
      cases w.fac fac (keyOf kv) with
      | none => exact Nat.le_refl _
      | some v =>
        cases v with
        | obj c' fs' => exact (hl c' _).room b
        | _ => exact Nat.le_refl _

theorem NoOv.mono {call : DecCall} {c : Cls} {r r' : Nat} (h : NoOv call c r) (hr : r' ≤ r) : NoOv call c r' :=
  fun fs b ht hb => h fs b ht (Nat.le_trans hb hr)

def WTy.isExt : WTy → Bool
  | .ext _ _ => true
  | _ => false

theorem readFields_noOv (w : World) (hw : TypedSuppliers w) (call : DecCall) (hl : ∀ c fs, Law (call c fs)) (k : Conv)
    (hk : k.listLen.isCount = true) (R : Nat) (ts : List WTy)
    (hsub : ∀ c, .sub c ∈ ts → NoOv call c R)
    (hlist : ∀ c r, .list (.sub c) ∈ ts → r + 2 ≤ R → NoOv call c r)
    (hext : ∀ fac key kv c fs r, .ext fac key ∈ ts → w.fac fac kv = some (.obj c fs) → r + 2 ≤ R → NoOv call c r) :
    ∀ (done olds : List Val) (b : RBuf), fieldsHaveType (ts.map WTy.java) olds = true → b.room ≤ R →
      (ts.any WTy.isExt = true → b.room + 2 ≤ R) → (readFields w call k done ts olds b).2.2 ≠ some .stackOverflow := by
  induction ts with
  | nil => intro done olds b _ _ _; cases olds <;> simp [readFields]
  | cons t ts ih =>
    intro done olds b ho hb hx
    cases olds with
    | nil => simp [readFields]
    | cons old olds =>
      simp only [List.map_cons, fieldsHaveType, Bool.and_eq_true] at ho
      have h1 := readField_noOv w hw call hl k hk done t old b ho.1
        (fun c ht => (hsub c (by simp [ht])).mono hb)
        (fun c r ht hr => hlist c r (by simp [ht]) (by omega))
        (fun fac key kv c fs ht hf => hext fac key kv c fs b.room (by simp [ht]) hf (hx (by simp [ht, WTy.isExt])))
      have h2 := readField_room w call hl k done t old b
      simp only [readFields]
      revert h1 h2
      rcases readField w call k done t old b with ⟨v, b', _ | e⟩ <;> intro h1 h2
      · refine ih (fun c hc => hsub c (by simp [hc])) (fun c r hc hr => hlist c r (by simp [hc]) hr)
          (fun fac key kv c fs r hc hf hr => hext fac key kv c fs r (by simp [hc]) hf hr) _ olds b' ho.2 (Nat.le_trans h2 hb) ?_
        intro ha
        have := hx (by simp only [List.any_cons, ha, Bool.or_true])
        simp only at h2
        omega
      · exact h1

/-- Messages with a polymorphic part start with a field of at least two bytes. -/
def headTwo : List WTy → Bool
  | .num p :: ts => ts.any WTy.isExt → decide (2 ≤ p.size)
  | .text n _ _ :: ts => ts.any WTy.isExt → decide (2 ≤ n)
  | ts => !ts.any WTy.isExt

theorem headTwo_table (c : Cls) : headTwo (wire c) = true := by cases c <;> decide

theorem readFields_noOv' (w : World) (hw : TypedSuppliers w) (call : DecCall) (hl : ∀ c fs, Law (call c fs)) (k : Conv)
    (hk : k.listLen.isCount = true) (R : Nat) (ts : List WTy) (hh : headTwo ts = true)
    (hsub : ∀ c, .sub c ∈ ts → NoOv call c R)
    (hlist : ∀ c r, .list (.sub c) ∈ ts → r + 2 ≤ R → NoOv call c r)
    (hext : ∀ fac key kv c fs r, .ext fac key ∈ ts → w.fac fac kv = some (.obj c fs) → r + 2 ≤ R → NoOv call c r)
    (olds : List Val) (b : RBuf) (ho : fieldsHaveType (ts.map WTy.java) olds = true) (hb : b.room ≤ R) :
    (readFields w call k [] ts olds b).2.2 ≠ some .stackOverflow := by
  by_cases hx : ts.any WTy.isExt = true
  · cases ts with
    | nil => cases olds <;> simp [readFields]
    | cons t ts =>
      cases olds with
      | nil => simp [readFields]
      | cons old olds =>
        simp only [List.map_cons, fieldsHaveType, Bool.and_eq_true] at ho
        have step : ∀ v b', b'.room + 2 ≤ b.room →
            (readFields w call k ([] ++ [v]) ts olds b').2.2 ≠ some .stackOverflow := by
          intro v b' h
          exact readFields_noOv w hw call hl k hk R ts (fun c hc => hsub c (by simp [hc])) (fun c r hc hr => hlist c r (by simp [hc]) hr)
            (fun fac key kv c fs r hc hf hr => hext fac key kv c fs r (by simp [hc]) hf hr) _ olds b' ho.2 (by omega) (fun _ => by omega)
        cases t with
        | num p =>
          simp only [List.any_cons, WTy.isExt, Bool.false_or] at hx
          simp only [headTwo, hx, true_implies, decide_eq_true_eq] at hh
          simp only [readFields, readField]
          rcases hr : b.readNum (ordOf k p) p with ⟨b1, e | n⟩
          · simp [readNum_err hr]
          · refine step _ _ ?_
            unfold RBuf.readNum at hr
            split at hr
            · rename_i hfit
              simp only [Prod.mk.injEq, Except.ok.injEq] at hr
              rw [← hr.1]
              simp only [RBuf.room, List.length_append]
              omega
            · simp at hr
        | text n pad left =>
          simp only [List.any_cons, WTy.isExt, Bool.false_or] at hx
          simp only [headTwo, hx, true_implies, decide_eq_true_eq] at hh
          simp only [readFields, readField]
          rcases hr : readFixedString b n pad left with ⟨b1, e | s⟩
          · simp [readFixed_err hr]
          · refine step _ _ ?_
            have hfit : b.rd + n ≤ (b.data ++ b.spare).length ∧ b1 = { b with rd := b.rd + n } := by
              unfold readFixedString RBuf.readText at hr
              rw [if_neg (by omega)] at hr
              by_cases hf : b.rd + n ≤ (b.data ++ b.spare).length
              · rw [if_pos hf] at hr
                refine ⟨hf, ?_⟩
                dsimp only at hr
                split at hr <;>
                · simp only [Prod.mk.injEq] at hr
                  exact hr.1.symm
              · rw [if_neg hf] at hr
                simp at hr
            rw [hfit.2]
            have := hfit.1
            simp only [RBuf.room] at this ⊢
            omega
        | _ => simp only [headTwo, hx] at hh; cases hh
  · exact readFields_noOv w hw call hl k hk R ts hsub hlist hext [] olds b ho hb fun h => absurd h hx

/-! Depth bound by the number of bytes: every level below a polymorphic part or a list consumes at least two bytes. -/

/-- 1 for the class that has a nested message in place. -/
def subRank (c : Cls) : Nat := if (wire c).any (fun t => match t with | .sub _ => true | _ => false) then 1 else 0

theorem subRank_le (c : Cls) : subRank c ≤ 1 := by unfold subRank; split <;> omega

theorem subRank_table (c : Cls) : (wire c).all (fun t => match t with | .sub d => decide (subRank d < subRank c) | _ => true) = true := by
  cases c <;> decide

theorem decode_noOv_bytes (w : World) (hw : TypedSuppliers w) (n : Nat) : ∀ c r, r + subRank c < n → NoOv (decode w n) c r := by
  induction n with
  | zero => intro c r h; omega
  | succ n ih =>
    intro c r hr fs b ht hb
    rw [decode_eq w n c fs b (fields_length c fs ht)]
    refine readFields_noOv' w hw (decode w n) (law_decode w n) (conv c.mod) (conv_counts c.mod).2 r (wire c) (headTwo_table c) ?_ ?_ ?_ fs b
      (by rw [← type_table]; exact ht) hb
    · intro d hd
      have := List.all_eq_true.mp (subRank_table c) _ hd
      simp only [decide_eq_true_eq] at this
      exact ih d r (by omega)
    · intro d r' hd h
      exact ih d r' (by have := subRank_le d; omega)
    · intro fac key kv d fs' r' hd hf h
      exact ih d r' (by have := subRank_le d; omega)

/-! ### Depth in a freshly started process -/

/-- Classes that `decode` of a `c` may have to decode inside, with the default registrations. -/
def children (c : Cls) : List Cls :=
  (wire c).flatMap fun t => match t with
    | .sub d => [d]
    | .list (.sub d) => [d]
    | .ext f _ => (defaultRegs.filter fun r => r.fac = f).map (·.cls)
    | _ => []

def levels : Nat → Cls → Nat
  | 0, _ => 1
  | n + 1, c => (children c).foldl (fun m d => max m (levels n d + 1)) 1

theorem levels_table : (allCls.all fun c => decide (levels 3 c ≤ 3) && (children c).all fun d => decide (levels 3 d < levels 3 c)) = true := by
  decide +kernel

theorem mem_allCls (c : Cls) : c ∈ allCls := by cases c <;> decide

theorem levels_child (c d : Cls) (h : d ∈ children c) : levels 3 d < levels 3 c := by
  have := List.all_eq_true.mp levels_table c (mem_allCls c)
  simp only [Bool.and_eq_true] at this
  exact of_decide_eq_true (List.all_eq_true.mp this.2 d h)

theorem levels_le (c : Cls) : levels 3 c ≤ 3 := by
  have := List.all_eq_true.mp levels_table c (mem_allCls c)
  simp only [Bool.and_eq_true, decide_eq_true_eq] at this
  exact this.1

theorem decode_noOv_default (w : World) (hw : TypedSuppliers w) (hd : DefaultClasses w) (n : Nat) :
    ∀ c r, levels 3 c ≤ n → NoOv (decode w n) c r := by
  induction n with
  | zero =>
    intro c r h
    have : 0 < levels 3 c := by
      have : ∀ (l : List Cls) (m : Nat) (f : Cls → Nat), 0 < m → 0 < l.foldl (fun m d => max m (f d + 1)) m := by
        intro l
        induction l with
        | nil => intro m f h; exact h
        | cons a l ih => intro m f h; exact ih _ f (Nat.lt_of_lt_of_le h (Nat.le_max_left _ _))
      exact this _ _ _ (by omega)
    omega
  | succ n ih =>
    intro c r hr fs b ht hb
    rw [decode_eq w n c fs b (fields_length c fs ht)]
    refine readFields_noOv' w hw (decode w n) (law_decode w n) (conv c.mod) (conv_counts c.mod).2 r (wire c) (headTwo_table c) ?_ ?_ ?_ fs b
      (by rw [← type_table]; exact ht) hb
    · intro d hd
      have := levels_child c d (List.mem_flatMap.mpr ⟨_, hd, by simp⟩)
      exact ih d r (by omega)
    · intro d r' hd _
      have := levels_child c d (List.mem_flatMap.mpr ⟨_, hd, by simp⟩)
      exact ih d r' (by omega)
    · intro fac key kv d fs' r' hm hf _
      obtain ⟨q, hq, h1, h2⟩ := hd _ _ _ _ hf
      have := levels_child c d (List.mem_flatMap.mpr ⟨_, hm, List.mem_map.mpr ⟨q, by simp [hq, h1], h2⟩⟩)
      exact ih d r' (by omega)

/-! ### More stack changes nothing -/

/-- `call2` does what `call1` does wherever that does not overflow. -/
def Agree (call1 call2 : DecCall) : Prop :=
  ∀ c fs b, (call1 c fs b).2.2 ≠ some .stackOverflow → call2 c fs b = call1 c fs b

theorem decElem_agree {call1 call2 : DecCall} (h : Agree call1 call2) (el : DecElem) (b : RBuf)
    (hn : (decElem call1 el b).2 ≠ .error .stackOverflow) : decElem call2 el b = decElem call1 el b := by
  cases el with
  | obj c =>
    simp only [decElem] at hn ⊢
    rw [h c (freshFields c) b ?_]
    intro he
    apply hn
    revert he
    rcases call1 c (freshFields c) b with ⟨fs, b1, _ | e⟩ <;> intro he <;> simp at he
    rw [he]
  | _ => rfl

theorem decElems_agree {call1 call2 : DecCall} (h : Agree call1 call2) (el : DecElem) (n : Nat) (acc : List Val) (b : RBuf)
    (hn : (decElems call1 el n acc b).2.2 ≠ some .stackOverflow) : decElems call2 el n acc b = decElems call1 el n acc b := by
  induction n generalizing acc b with
  | zero => rfl
  | succ n ih =>
    simp only [decElems] at hn ⊢
    have he := decElem_agree h el b
    revert he hn
    rcases decElem call1 el b with ⟨b', er | _ | v⟩ <;> intro hn he
    · rw [he (by simpa using hn)]
    · rw [he (by simp)]
      exact ih acc b' hn
    · rw [he (by simp)]
      exact ih (acc ++ [v]) b' hn

theorem decStmt_agree {call1 call2 : DecCall} (h : Agree call1 call2) (w : World) (tys : List FTy) (s : DecStmt) (st : DecSt)
    (hn : (decStmt w call1 tys s st).2 ≠ some .stackOverflow) : decStmt w call2 tys s st = decStmt w call1 tys s st := by
  cases s with
  | list f t e el =>
    simp only [decStmt] at hn ⊢
    revert hn
    rcases st.buf.readNum e t with ⟨b', er | n⟩ <;> intro hn
    · rfl
    · dsimp only at hn ⊢
      by_cases hp : 0 < n.bits.toInt
      · rw [if_pos hp] at hn ⊢
        rw [if_pos hp, decElems_agree h el _ [] b' hn]
      · rw [if_neg hp, if_neg hp]
  | obj f c =>
    simp only [decStmt] at hn ⊢
    revert hn
    rcases st.fs[f]? with _ | v <;> intro hn
    · rfl
    · cases v with
      | null => rw [h c (freshFields c) st.buf hn]
      | obj c' fs' => dsimp only at hn ⊢; rw [h c' fs' st.buf hn]
      | _ => rfl
  | call f =>
    simp only [decStmt] at hn ⊢
    revert hn
    rcases st.fs[f]? with _ | v <;> intro hn
    · rfl
    · cases v with
      | obj c' fs' => dsimp only at hn ⊢; rw [h c' fs' st.buf hn]
      | _ => rfl
  | _ => rfl

theorem decStmts_agree {call1 call2 : DecCall} (h : Agree call1 call2) (w : World) (tys : List FTy) (ss : List DecStmt) (st : DecSt)
    (hn : (decStmts w call1 tys ss st).2 ≠ some .stackOverflow) : decStmts w call2 tys ss st = decStmts w call1 tys ss st := by
  induction ss generalizing st with
  | nil => rfl
  | cons s ss ih =>
    simp only [decStmts] at hn ⊢
    have he := decStmt_agree h w tys s st
    revert he hn
    rcases decStmt w call1 tys s st with ⟨st', _ | e⟩ <;> intro hn he
    · rw [he (by simp)]
      exact ih st' hn
    · rw [he hn]

theorem decode_agree (w : World) (n : Nat) : Agree (decode w n) (decode w (n + 1)) := by
  induction n with
  | zero => intro c fs b h; simp [decode] at h
  | succ n ih =>
    intro c fs b h
    rw [decode] at h ⊢
    rw [decode]
    rw [decStmts_agree ih w _ _ _ h]

theorem decode_agree_le (w : World) (n m : Nat) (h : n ≤ m) : Agree (decode w n) (decode w m) := by
  obtain ⟨d, rfl⟩ := Nat.exists_eq_add_of_le h
  clear h
  induction d with
  | zero => intro c fs b _; rfl
  | succ d ih =>
    intro c fs b h
    have h1 := ih c fs b h
    rw [← Nat.add_assoc, decode_agree w (n + d) c fs b (by rw [h1]; exact h), h1]

end FinProto
