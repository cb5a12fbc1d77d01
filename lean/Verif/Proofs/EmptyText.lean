import Verif.Spec.EmptyText
import Verif.Proofs.DecodeErrors
/-
Helper lemmas: `encode` treats null and empty strings alike, and keeps objects well-typed.
-/
namespace FinProto

theorem emptyToNulls_map (xs : List Val) : emptyToNulls xs = xs.map emptyToNull := by
  induction xs with
  | nil => rfl
  | cons x xs ih => simp [emptyToNulls, ih]

/-- The element type fits the loop body. -/
def elOk : ElTy → EncElem → Bool
  | .obj _, .obj => true
  | .prim _, .num _ _ => true
  | .str, .fixed _ _ _ => true
  | .str, .dyn _ _ _ => true
  | _, _ => false

/-- A field for message objects. -/
def objTy : FTy → Bool
  | .obj _ => true
  | .codec => true
  | _ => false

/-- The field types fit the statement. -/
def stmtOk (tys : List FTy) : EncStmt → Bool
  | .list f _ _ _ el =>
    match tys[f]? with
    | some (.list e) => elOk e el
    | _ => false
  | .obj f => match tys[f]? with | some t => objTy t | _ => false
  | .objOpt f => match tys[f]? with | some t => objTy t | _ => false
  | .setLen f _ _ => match tys[f]? with | some (.prim .i32) => true | _ => false
  | .checksum f _ => match tys[f]? with | some (.prim .i32) => true | _ => false
  | _ => true

theorem stmtOk_table (c : Cls) : ((decl c).enc.all (stmtOk (javaTypes c))) = true := by
  cases c <;> decide

theorem typed_get {tys : List FTy} {fs : List Val} {f : Nat} {t : FTy} (h : fieldsHaveType tys fs = true) (ht : tys[f]? = some t) :
    ∃ v, fs[f]? = some v ∧ hasType t v = true := by
  induction fs generalizing tys f with
  | nil => cases tys <;> simp [fieldsHaveType] at h ht
  | cons v fs ih =>
    cases tys with
    | nil => simp at ht
    | cons s tys =>
      simp only [fieldsHaveType, Bool.and_eq_true] at h
      cases f with
      | zero => simp at ht; subst ht; exact ⟨v, rfl, h.1⟩
      | succ f => simp at ht; simpa using ih h.2 ht

theorem typed_set {tys : List FTy} {fs : List Val} {f : Nat} {t : FTy} {v : Val} (h : fieldsHaveType tys fs = true) (ht : tys[f]? = some t)
    (hv : hasType t v = true) : fieldsHaveType tys (fs.set f v) = true := by
  induction fs generalizing tys f with
  | nil => simpa using h
  | cons x fs ih =>
    cases tys with
    | nil => simp [fieldsHaveType] at h
    | cons s tys =>
      simp only [fieldsHaveType, Bool.and_eq_true] at h
      cases f with
      | zero => simp at ht; subst ht; simp [fieldsHaveType, hv, h.2]
      | succ f => simp at ht; simp [fieldsHaveType, h.1, ih h.2 ht]

theorem rel_get {fs fs' : List Val} (h : fs.map emptyToNull = fs'.map emptyToNull) {f : Nat} {v : Val} (hv : fs[f]? = some v) :
    ∃ v', fs'[f]? = some v' ∧ emptyToNull v = emptyToNull v' := by
  have := congrArg (·[f]?) h
  simp only [List.getElem?_map, hv, Option.map_some] at this
  cases h' : fs'[f]? with
  | none => rw [h'] at this; simp at this
  | some v' => rw [h'] at this; simp at this; exact ⟨v', rfl, this⟩

theorem rel_get_none {fs fs' : List Val} (h : fs.map emptyToNull = fs'.map emptyToNull) {f : Nat} (hv : fs[f]? = none) : fs'[f]? = none := by
  have := congrArg (·[f]?) h
  simp only [List.getElem?_map, hv, Option.map_none] at this
  cases h' : fs'[f]? with
  | none => rfl
  | some v' => rw [h'] at this; simp at this

theorem rel_set {fs fs' : List Val} (h : fs.map emptyToNull = fs'.map emptyToNull) {f : Nat} {v v' : Val}
    (hv : emptyToNull v = emptyToNull v') : (fs.set f v).map emptyToNull = (fs'.set f v').map emptyToNull := by
  rw [List.map_set, List.map_set, h, hv]

/-- A related pair: equal, or one null and the other empty, or lists or objects of related values. -/
theorem rel_cases {v v' : Val} (h : emptyToNull v = emptyToNull v') :
    v = v' ∨ (v = .null ∧ v' = .str []) ∨ (v = .str [] ∧ v' = .null)
      ∨ (∃ xs xs', v = .list xs ∧ v' = .list xs' ∧ xs.map emptyToNull = xs'.map emptyToNull)
      ∨ (∃ c fs fs', v = .obj c fs ∧ v' = .obj c fs' ∧ fs.map emptyToNull = fs'.map emptyToNull) := by
  cases v with
  | null =>
    cases v' with
    | null => exact .inl rfl
    | str s => cases s <;> simp [emptyToNull] at h; exact .inr (.inl ⟨rfl, rfl⟩)
    | _ => simp [emptyToNull] at h
  | num n =>
    cases v' with
    | num m => simp [emptyToNull] at h; exact .inl (by rw [h])
    | str s => cases s <;> simp [emptyToNull] at h
    | _ => simp [emptyToNull] at h
  | str s =>
    cases v' with
    | null => cases s <;> simp [emptyToNull] at h; exact .inr (.inr (.inl ⟨rfl, rfl⟩))
    | str s' => cases s <;> cases s' <;> simp [emptyToNull] at h <;> exact .inl (by simp [h])
    | _ => cases s <;> simp [emptyToNull] at h
  | list xs =>
    cases v' with
    | list xs' =>
      simp only [emptyToNull, emptyToNulls_map, Val.list.injEq] at h
      exact .inr (.inr (.inr (.inl ⟨xs, xs', rfl, rfl, h⟩)))
    | str s => cases s <;> simp [emptyToNull] at h
    | _ => simp [emptyToNull] at h
  | obj c fs =>
    cases v' with
    | obj c' fs' =>
      simp only [emptyToNull, emptyToNulls_map, Val.obj.injEq] at h
      obtain ⟨rfl, h⟩ := h
      exact .inr (.inr (.inr (.inr ⟨c, fs, fs', rfl, rfl, h⟩)))
    | str s => cases s <;> simp [emptyToNull] at h
    | _ => simp [emptyToNull] at h

theorem writeFixedVal_rel {v v' : Val} (h : emptyToNull v = emptyToNull v') (b : WBuf) (n : Nat) (pad : JChar) (left : Bool) :
    writeFixedVal b v n pad left = writeFixedVal b v' n pad left := by
  rcases rel_cases h with rfl | ⟨rfl, rfl⟩ | ⟨rfl, rfl⟩ | ⟨xs, xs', rfl, rfl, _⟩ | ⟨c, fs, fs', rfl, rfl, _⟩ <;> rfl

theorem writeDynVal_rel {v v' : Val} (h : emptyToNull v = emptyToNull v') (b : WBuf) (zt t : PTy) (e : Endian) :
    writeDynVal b v zt t e = writeDynVal b v' zt t e := by
  rcases rel_cases h with rfl | ⟨rfl, rfl⟩ | ⟨rfl, rfl⟩ | ⟨xs, xs', rfl, rfl, _⟩ | ⟨c, fs, fs', rfl, rfl, _⟩ <;> rfl

/-- Calls on related objects do the same; results are related and keep their class and types. -/
def CallSim (call : EncCall) : Prop :=
  (∀ b, call .null b = (.null, b, some .nullPointer)) ∧
  ∀ c fs fs' b, fieldsHaveType (javaTypes c) fs = true → fieldsHaveType (javaTypes c) fs' = true → fs.map emptyToNull = fs'.map emptyToNull →
    ∃ gs gs' b' e, call (.obj c fs) b = (.obj c gs, b', e) ∧ call (.obj c fs') b = (.obj c gs', b', e)
      ∧ fieldsHaveType (javaTypes c) gs = true ∧ fieldsHaveType (javaTypes c) gs' = true ∧ gs.map emptyToNull = gs'.map emptyToNull

/-- Outcome of two runs: same buffer and exception; values of the given kind, related. -/
def Pair (T : Val → Prop) (r r' : Val × WBuf × Option JErr) : Prop :=
  r.2 = r'.2 ∧ T r.1 ∧ T r'.1 ∧ emptyToNull r.1 = emptyToNull r'.1

theorem call_pair (call : EncCall) (hc : CallSim call) (t : FTy) (ht : objTy t = true)
    (v v' : Val) (b : WBuf) (h1 : hasType t v = true) (h2 : hasType t v' = true) (h : emptyToNull v = emptyToNull v') :
    Pair (fun v => hasType t v = true) (call v b) (call v' b) := by
  rcases rel_cases h with rfl | ⟨rfl, rfl⟩ | ⟨rfl, rfl⟩ | ⟨xs, xs', rfl, rfl, _⟩ | ⟨c, fs, fs', rfl, rfl, hr⟩
  · cases v with
    | null => rw [hc.1 b]; exact ⟨rfl, h1, h1, rfl⟩
    | obj c fs =>
      simp only [hasType, Bool.and_eq_true] at h1
      obtain ⟨gs, gs', b', e, e1, e2, t1, t2, r⟩ := hc.2 c fs fs b h1.2 h1.2 rfl
      rw [e1]
      rw [e1] at e2
      simp only [Prod.mk.injEq, Val.obj.injEq, true_and, and_true] at e2
      exact ⟨rfl, by simp [hasType, h1.1, t1], by simp [hasType, h1.1, t1], rfl⟩
    | _ => cases t <;> simp [hasType, objTy] at h1 ht
  · cases t <;> simp [hasType, objTy] at h2 ht
  · cases t <;> simp [hasType, objTy] at h1 ht
  · cases t <;> simp [hasType, objTy] at h1 ht
  · simp only [hasType, Bool.and_eq_true] at h1 h2
    obtain ⟨gs, gs', b', e, e1, e2, t1, t2, r⟩ := hc.2 c fs fs' b h1.2 h2.2 hr
    rw [e1, e2]
    exact ⟨rfl, by simp [hasType, h1.1, t1], by simp [hasType, h1.1, t2], by simp [emptyToNull, emptyToNulls_map, r]⟩

theorem encElem_pair (call : EncCall) (hc : CallSim call) (el : EncElem) (e : ElTy)
    (hel : elOk e el = true)
    (v v' : Val) (b : WBuf) (h1 : elemHasType e v = true) (h2 : elemHasType e v' = true) (h : emptyToNull v = emptyToNull v') :
    Pair (fun v => elemHasType e v = true) (encElem call el v b) (encElem call el v' b) := by
  cases el with
  | num t en =>
    cases e <;> simp only [elOk, Bool.false_eq_true] at hel
    have : v = v' := by
      rcases rel_cases h with rfl | ⟨rfl, rfl⟩ | ⟨rfl, rfl⟩ | ⟨xs, xs', rfl, rfl, _⟩ | ⟨c, fs, fs', rfl, rfl, _⟩
      · rfl
      · simp [elemHasType] at h2
      · simp [elemHasType] at h1
      · simp [elemHasType] at h1
      · simp [elemHasType] at h1
    subst this
    exact ⟨rfl, h1, h1, rfl⟩
  | fixed n pad left => exact ⟨writeFixedVal_rel h b n pad left, h1, h2, h⟩
  | dyn zt t en => exact ⟨writeDynVal_rel h b zt t en, h1, h2, h⟩
  | obj =>
    cases e with
    | obj d =>
      have conv : ∀ v, elemHasType (.obj d) v = hasType (.obj d) v := by
        intro v; cases v <;> rfl
      rw [conv] at h1 h2
      have := call_pair call hc (.obj d) rfl v v' b h1 h2 h
      simp only [← conv] at this
      exact this
    | _ => simp [elOk] at hel

theorem encElems_pair (call : EncCall) (hc : CallSim call) (el : EncElem) (e : ElTy)
    (hel : elOk e el = true)
    (xs xs' : List Val) (b : WBuf) (h1 : elemsHaveType e xs = true) (h2 : elemsHaveType e xs' = true)
    (h : xs.map emptyToNull = xs'.map emptyToNull) :
    (encElems call el xs b).2 = (encElems call el xs' b).2 ∧ elemsHaveType e (encElems call el xs b).1 = true
      ∧ elemsHaveType e (encElems call el xs' b).1 = true
      ∧ (encElems call el xs b).1.map emptyToNull = (encElems call el xs' b).1.map emptyToNull := by
  induction xs generalizing xs' b with
  | nil =>
    cases xs' with
    | nil => exact ⟨rfl, rfl, rfl, rfl⟩
    | cons => simp at h
  | cons v vs ih =>
    cases xs' with
    | nil => simp at h
    | cons v' vs' =>
      simp only [List.map_cons, List.cons.injEq] at h
      simp only [elemsHaveType, Bool.and_eq_true] at h1 h2
      have hp := encElem_pair call hc el e hel v v' b h1.1 h2.1 h.1
      simp only [encElems]
      revert hp
      rcases encElem call el v b with ⟨w1, b1, r1⟩
      rcases encElem call el v' b with ⟨w2, b2, r2⟩
      rintro ⟨p1, p2, p3, p4⟩
      simp only [Prod.mk.injEq] at p1
      obtain ⟨rfl, rfl⟩ := p1
      cases r1 with
      | some er =>
        refine ⟨rfl, ?_, ?_, ?_⟩
        · simp only [elemsHaveType, Bool.and_eq_true]; exact ⟨p2, h1.2⟩
        · simp only [elemsHaveType, Bool.and_eq_true]; exact ⟨p3, h2.2⟩
        · simp only [List.map_cons, p4, h.2]
      | none =>
        obtain ⟨q1, q2, q3, q4⟩ := ih vs' b1 h1.2 h2.2 h.2
        refine ⟨q1, ?_, ?_, ?_⟩
        · simp only [elemsHaveType, Bool.and_eq_true]; exact ⟨p2, q2⟩
        · simp only [elemsHaveType, Bool.and_eq_true]; exact ⟨p3, q3⟩
        · simp only [List.map_cons, p4, q4]

structure StRel (tys : List FTy) (st st' : EncSt) : Prop where
  t1 : fieldsHaveType tys st.fs = true
  t2 : fieldsHaveType tys st'.fs = true
  rel : st.fs.map emptyToNull = st'.fs.map emptyToNull
  buf : st.buf = st'.buf
  loc : st.loc = st'.loc

theorem num_rel {v : Val} {n : Num} (h : emptyToNull (.num n) = emptyToNull v) : v = .num n := by
  rcases rel_cases h with h | ⟨h, _⟩ | ⟨h, _⟩ | ⟨_, _, h, _⟩ | ⟨_, _, _, h, _⟩
  · exact h.symm
  all_goals cases h

theorem encStmt_num_ill (w : World) (call : EncCall) (f : Nat) (t : PTy) (e : Endian) (st : EncSt) (h : ∀ n, st.fs[f]? ≠ some (Val.num n)) :
    encStmt w call (.num f t e) st = (st, some .illTyped) := by
  simp only [encStmt]

theorem encStmt_patch_ill (w : World) (call : EncCall) (x f : Nat) (t : PTy) (e : Endian) (st : EncSt) (h : ∀ n, st.fs[f]? ≠ some (Val.num n)) :
    encStmt w call (.patch x f t e) st = (st, some .illTyped) := by
  simp only [encStmt]
  split
  · exact absurd (by assumption) (h _)
  · rfl

theorem encStmt_sim (w : World) (call : EncCall) (hc : CallSim call) (tys : List FTy) (s : EncStmt) (hs : stmtOk tys s = true) (st st' : EncSt)
    (h : StRel tys st st') :
    StRel tys (encStmt w call s st).1 (encStmt w call s st').1 ∧ (encStmt w call s st).2 = (encStmt w call s st').2 := by
  obtain ⟨fs, b, loc⟩ := st
  obtain ⟨fs', b', loc'⟩ := st'
  obtain ⟨t1, t2, rel, rfl, rfl⟩ := h
  have base : ∀ b2 : WBuf, ∀ l2, StRel tys ⟨fs, b2, l2⟩ ⟨fs', b2, l2⟩ := fun b2 l2 => ⟨t1, t2, rel, rfl, rfl⟩
  have numCase : ∀ f : Nat, (∃ n, fs[f]? = some (Val.num n) ∧ fs'[f]? = some (Val.num n)) ∨
      ((∀ n, fs[f]? ≠ some (Val.num n)) ∧ (∀ n, fs'[f]? ≠ some (Val.num n))) := by
    intro f
    by_cases hn : ∃ n, fs[f]? = some (Val.num n)
    · obtain ⟨n, hn⟩ := hn
      obtain ⟨v', hv', hr⟩ := rel_get rel hn
      exact .inl ⟨n, hn, by rw [hv', num_rel hr]⟩
    · refine .inr ⟨fun n h => hn ⟨n, h⟩, fun n h => ?_⟩
      obtain ⟨v, hv, hr⟩ := rel_get rel.symm h
      exact hn ⟨n, by rw [hv, num_rel hr]⟩
  cases s with
  | num f t e =>
    rcases numCase f with ⟨n, h1, h2⟩ | ⟨h1, h2⟩
    · simp only [encStmt, h1, h2]
      exact ⟨base _ _, trivial⟩
    · rw [encStmt_num_ill _ _ _ _ _ _ h1, encStmt_num_ill _ _ _ _ _ _ h2]
      exact ⟨base _ _, rfl⟩
  | fixed f n pad left =>
    simp only [encStmt]
    cases hf : fs[f]? with
    | none => rw [rel_get_none rel hf]; exact ⟨base _ _, rfl⟩
    | some v =>
      obtain ⟨v', hv', hr⟩ := rel_get rel hf
      rw [hv']
      dsimp only
      rw [writeFixedVal_rel hr]
      exact ⟨base _ _, rfl⟩
  | dyn f zt t e =>
    simp only [encStmt]
    cases hf : fs[f]? with
    | none => rw [rel_get_none rel hf]; exact ⟨base _ _, rfl⟩
    | some v =>
      obtain ⟨v', hv', hr⟩ := rel_get rel hf
      rw [hv']
      dsimp only
      rw [writeDynVal_rel hr]
      exact ⟨base _ _, rfl⟩
  | list f zt t e el =>
    simp only [stmtOk] at hs
    cases htf : tys[f]? with
    | none => rw [htf] at hs; simp at hs
    | some ft =>
      cases ft with
      | list et =>
        have hel : elOk et el = true := by
          rw [htf] at hs
          exact hs
        obtain ⟨v, hv, ht⟩ := typed_get t1 htf
        obtain ⟨v', hv', hr⟩ := rel_get rel hv
        obtain ⟨v2, hv2, ht'⟩ := typed_get t2 htf
        rw [hv'] at hv2
        cases hv2
        simp only [encStmt, hv, hv']
        cases v with
        | null =>
          have : v' = .null := by
            cases v' with
            | null => rfl
            | str s => simp [hasType] at ht'
            | _ => simp [emptyToNull] at hr
          subst this
          exact ⟨base _ _, rfl⟩
        | list xs =>
          cases v' with
          | list xs' =>
            simp only [emptyToNull, emptyToNulls_map, Val.list.injEq] at hr
            simp only [hasType] at ht ht'
            cases xs with
            | nil =>
              cases xs' with
              | nil => exact ⟨base _ _, rfl⟩
              | cons => simp at hr
            | cons x xs =>
              cases xs' with
              | nil => simp at hr
              | cons x' xs' =>
                have hlen : (x :: xs).length = (x' :: xs').length := by
                  have := congrArg List.length hr
                  simpa using this
                dsimp only
                rw [hlen]
                rcases writeInt b t e (x' :: xs').length with ⟨b1, _ | er⟩
                · obtain ⟨q1, q2, q3, q4⟩ := encElems_pair call hc el et hel (x :: xs) (x' :: xs') b1 ht ht' hr
                  dsimp only
                  refine ⟨⟨typed_set t1 htf ?_, typed_set t2 htf ?_, rel_set rel ?_, ?_, rfl⟩, ?_⟩
                  · simp only [hasType]; exact q2
                  · simp only [hasType]; exact q3
                  · simp only [emptyToNull, emptyToNulls_map, q4]
                  · dsimp only; rw [q1]
                  · rw [q1]
                · exact ⟨base _ _, rfl⟩
          | str s => cases s <;> simp [emptyToNull] at hr
          | _ => simp [emptyToNull] at hr
        | _ => simp [hasType] at ht
      | _ => rw [htf] at hs; simp at hs
  | obj f =>
    simp only [stmtOk] at hs
    cases htf : tys[f]? with
    | none => rw [htf] at hs; simp at hs
    | some ft =>
      have hft : objTy ft = true := by
        rw [htf] at hs; exact hs
      obtain ⟨v, hv, ht⟩ := typed_get t1 htf
      obtain ⟨v', hv', hr⟩ := rel_get rel hv
      obtain ⟨v2, hv2, ht'⟩ := typed_get t2 htf
      rw [hv'] at hv2
      cases hv2
      simp only [encStmt, hv, hv']
      obtain ⟨p1, p2, p3, p4⟩ := call_pair call hc ft hft v v' b ht ht' hr
      refine ⟨⟨typed_set t1 htf p2, typed_set t2 htf p3, rel_set rel p4, ?_, rfl⟩, ?_⟩
      · dsimp only; rw [p1]
      · rw [p1]
  | objOpt f =>
    simp only [stmtOk] at hs
    cases htf : tys[f]? with
    | none => rw [htf] at hs; simp at hs
    | some ft =>
      have hft : objTy ft = true := by
        rw [htf] at hs; exact hs
      obtain ⟨v, hv, ht⟩ := typed_get t1 htf
      obtain ⟨v', hv', hr⟩ := rel_get rel hv
      obtain ⟨v2, hv2, ht'⟩ := typed_get t2 htf
      rw [hv'] at hv2
      cases hv2
      simp only [encStmt, hv, hv']
      have fin : ∀ v v', hasType ft v = true → hasType ft v' = true → emptyToNull v = emptyToNull v' → v ≠ .null → v' ≠ .null →
          StRel tys
            (match some v with | some .null => ((⟨fs, b, loc⟩ : EncSt), (none : Option JErr)) | some v => (⟨fs.set f (call v b).1, (call v b).2.1, loc⟩, (call v b).2.2) | none => (⟨fs, b, loc⟩, some .illTyped)).1
            (match some v' with | some .null => ((⟨fs', b, loc⟩ : EncSt), (none : Option JErr)) | some v => (⟨fs'.set f (call v b).1, (call v b).2.1, loc⟩, (call v b).2.2) | none => (⟨fs', b, loc⟩, some .illTyped)).1
          ∧ (match some v with | some .null => ((⟨fs, b, loc⟩ : EncSt), (none : Option JErr)) | some v => (⟨fs.set f (call v b).1, (call v b).2.1, loc⟩, (call v b).2.2) | none => (⟨fs, b, loc⟩, some .illTyped)).2
            = (match some v' with | some .null => ((⟨fs', b, loc⟩ : EncSt), (none : Option JErr)) | some v => (⟨fs'.set f (call v b).1, (call v b).2.1, loc⟩, (call v b).2.2) | none => (⟨fs', b, loc⟩, some .illTyped)).2 := by
        intro v v' ht ht' hr hn hn'
        obtain ⟨p1, p2, p3, p4⟩ := call_pair call hc ft hft v v' b ht ht' hr
        have key : StRel tys ⟨fs.set f (call v b).1, (call v b).2.1, loc⟩ ⟨fs'.set f (call v' b).1, (call v' b).2.1, loc⟩
            ∧ (call v b).2.2 = (call v' b).2.2 :=
          ⟨⟨typed_set t1 htf p2, typed_set t2 htf p3, rel_set rel p4, by dsimp only; rw [p1], rfl⟩, by rw [p1]⟩
        cases v with
        | null => exact absurd rfl hn
        | _ => cases v' with
          | null => exact absurd rfl hn'
          | _ => exact key
      by_cases hn : v = .null
      · subst hn
        have : v' = .null := by
          cases v' with
          | null => rfl
          | str s => cases ft <;> simp [hasType, objTy] at ht' hft
          | _ => simp [emptyToNull] at hr
        subst this
        exact ⟨base _ _, rfl⟩
      · have hn' : v' ≠ .null := by
          rintro rfl
          cases v with
          | null => exact hn rfl
          | str s => cases ft <;> simp [hasType, objTy] at ht hft
          | _ => simp [emptyToNull] at hr
        exact fin v v' ht ht' hr hn hn'
  | save x => exact ⟨base _ _, rfl⟩
  | zero t e => exact ⟨base _ _, rfl⟩
  | setLen f x y =>
    simp only [stmtOk] at hs
    have htf : tys[f]? = some (.prim .i32) := by
      revert hs
      split <;> simp_all
    simp only [encStmt]
    rcases loc x with _ | a
    · exact ⟨base _ _, rfl⟩
    · rcases loc y with _ | a'
      · exact ⟨base _ _, rfl⟩
      · exact ⟨⟨typed_set t1 htf rfl, typed_set t2 htf rfl, rel_set rel rfl, rfl, rfl⟩, rfl⟩
  | patch x f t e =>
    rcases numCase f with ⟨n, h1, h2⟩ | ⟨h1, h2⟩
    · simp only [encStmt, h1, h2]
      rcases loc x with _ | p
      · exact ⟨base _ _, rfl⟩
      · dsimp only
        cases n.convert t with
        | none => exact ⟨base _ _, rfl⟩
        | some m => exact ⟨base _ _, rfl⟩
    · rw [encStmt_patch_ill _ _ _ _ _ _ _ h1, encStmt_patch_ill _ _ _ _ _ _ _ h2]
      exact ⟨base _ _, rfl⟩
  | checksum f alg =>
    simp only [stmtOk] at hs
    have htf : tys[f]? = some (.prim .i32) := by
      revert hs
      split <;> simp_all
    simp only [encStmt]
    cases Registry.getService w.svc alg with
    | none => exact ⟨base _ _, rfl⟩
    | some s => exact ⟨⟨typed_set t1 htf rfl, typed_set t2 htf rfl, rel_set rel rfl, rfl, rfl⟩, rfl⟩

theorem encStmts_sim (w : World) (call : EncCall) (hc : CallSim call) (tys : List FTy) (ss : List EncStmt) (hs : ss.all (stmtOk tys) = true)
    (st st' : EncSt) (h : StRel tys st st') :
    StRel tys (encStmts w call ss st).1 (encStmts w call ss st').1 ∧ (encStmts w call ss st).2 = (encStmts w call ss st').2 := by
  induction ss generalizing st st' with
  | nil => exact ⟨h, rfl⟩
  | cons s ss ih =>
    simp only [List.all_cons, Bool.and_eq_true] at hs
    have h1 := encStmt_sim w call hc tys s hs.1 st st' h
    simp only [encStmts]
    revert h1
    rcases encStmt w call s st with ⟨s1, r1⟩
    rcases encStmt w call s st' with ⟨s2, r2⟩
    rintro ⟨h1, h2⟩
    dsimp only at h1 h2
    subst h2
    cases r1 with
    | none => exact ih hs.2 s1 s2 h1
    | some e => exact ⟨h1, rfl⟩

theorem encode_callSim (w : World) (n : Nat) : CallSim (encode w n) := by
  induction n with
  | zero =>
    refine ⟨fun b => rfl, fun c fs fs' b h1 h2 h => ⟨fs, fs', b, some .stackOverflow, rfl, rfl, h1, h2, h⟩⟩
  | succ n ih =>
    refine ⟨fun b => rfl, fun c fs fs' b h1 h2 h => ?_⟩
    have := encStmts_sim w (encode w n) ih (javaTypes c) (decl c).enc (stmtOk_table c) ⟨fs, b, fun _ => none⟩ ⟨fs', b, fun _ => none⟩
      ⟨h1, h2, h, rfl, rfl⟩
    simp only [encode]
    refine ⟨_, _, _, _, rfl, ?_, this.1.t1, this.1.t2, this.1.rel⟩
    rw [this.1.buf, this.2]

end FinProto
