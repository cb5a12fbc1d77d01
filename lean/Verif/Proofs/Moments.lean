import Verif.Proofs.Resume
import Verif.Proofs.DecodeErrors
/-
Helper definitions and lemmas: what an object may hold while a `decode` call is running, and decoding again into such an object.
-/
namespace FinProto

/-- Type of "the object may have fields `p` while `decode` into fields `fs` from this buffer is running". -/
abbrev Mom := Cls → List Val → RBuf → List Val → Prop

/-- A message field while its `decode` is running. -/
def callMoment (mom : Mom) (f : Nat) (fs : List Val) (b : RBuf) (p : List Val) : Prop :=
  ∃ c' fs' q, fs[f]? = some (.obj c' fs') ∧ mom c' fs' b q ∧ p = fs.set f (.obj c' q)

/-- The fields in the middle of a statement. -/
def stmtMoment (call : DecCall) (mom : Mom) (s : DecStmt) (st : DecSt) (p : List Val) : Prop :=
  match s with
  | .list f t e el => ∃ b' n j b'' xs, st.buf.readNum e t = (b', .ok n) ∧ 0 < n.bits.toInt ∧ (j ≤ n.bits.toNat ∧ decElems call el j [] b' = (xs, b'', none))
      ∧ p = st.fs.set f (.list xs)
  | .obj f c => (st.fs[f]? = some .null ∧ ∃ q, mom c (freshFields c) st.buf q ∧ p = st.fs.set f (.obj c q)) ∨ callMoment mom f st.fs st.buf p
  | .call f => callMoment mom f st.fs st.buf p
  | _ => False

/-- The fields while statements are running. -/
def stmtsMoment (w : World) (call : DecCall) (mom : Mom) (tys : List FTy) : List DecStmt → DecSt → List Val → Prop
  | [], st, p => p = st.fs
  | s :: ss, st, p => p = st.fs ∨ stmtMoment call mom s st p ∨ ∃ st', decStmt w call tys s st = (st', none) ∧ stmtsMoment w call mom tys ss st' p

/-- The fields while `decode` is running. -/
def moment (w : World) : Nat → Mom
  | 0, _, fs, _, p => p = fs
  | n + 1, c, fs, b, p => stmtsMoment w (decode w n) (moment w n) ((decl c).fields.map (·.2)) (decl c).dec ⟨fs, b⟩ p

theorem stmtsMoment_refl (w : World) (call : DecCall) (mom : Mom) (tys : List FTy) (ss : List DecStmt) (st : DecSt) :
    stmtsMoment w call mom tys ss st st.fs := by
  cases ss with
  | nil => rfl
  | cons s ss => exact .inl rfl

theorem moment_refl (w : World) (n : Nat) (c : Cls) (fs : List Val) (b : RBuf) : moment w n c fs b fs := by
  cases n with
  | zero => rfl
  | succ n => exact stmtsMoment_refl w _ _ _ _ ⟨fs, b⟩

theorem stmtsMoment_append (w : World) (call : DecCall) (mom : Mom) (tys : List FTy) (xs ys : List DecStmt) (p : List Val) : ∀ st,
    stmtsMoment w call mom tys (xs ++ ys) st p →
    stmtsMoment w call mom tys xs st p ∨ ∃ st', decStmts w call tys xs st = (st', none) ∧ stmtsMoment w call mom tys ys st' p := by
  induction xs with
  | nil => intro st h; exact .inr ⟨st, rfl, h⟩
  | cons s ss ih =>
    intro st h
    rcases h with h | h | ⟨st', h1, h2⟩
    · exact .inl (.inl h)
    · exact .inl (.inr (.inl h))
    · rcases ih st' h2 with h | ⟨st2, h3, h4⟩
      · exact .inl (.inr (.inr ⟨st', h1, h⟩))
      · refine .inr ⟨st2, ?_, h4⟩
        simp only [decStmts, h1, h3]

/-! ### Field by field -/

/-- One field while it is being read. -/
def fieldMoment (w : World) (call : DecCall) (mom : Mom) (k : Conv) (done : List Val) (t : WTy) (old : Val) (b : RBuf) (v : Val) : Prop :=
  v = old ∨ v = (readField w call k done t old b).1 ∨
    match t with
    | .list e => ∃ b' n j xs b'', b.readNum k.order k.listLen = (b', .ok n) ∧ 0 < n.bits.toInt
        ∧ (j ≤ n.bits.toNat ∧ decElems call (decElOf k e) j [] b' = (xs, b'', none)) ∧ v = .list xs
    | .sub c => (old = .null ∧ ∃ q, mom c (freshFields c) b q ∧ v = .obj c q) ∨ ∃ c' fs' q, old = .obj c' fs' ∧ mom c' fs' b q ∧ v = .obj c' q
    | .ext fac key => ∃ kv u, done[key]? = some kv ∧ w.fac fac (keyOf kv) = some u ∧
        (v = u ∨ ∃ c' fs' q, u = .obj c' fs' ∧ mom c' fs' b q ∧ v = .obj c' q)
    | _ => False

/-- The fields while consecutive fields are being read. -/
def fieldsMoment (w : World) (call : DecCall) (mom : Mom) (k : Conv) (done : List Val) : List WTy → List Val → RBuf → List Val → Prop
  | t :: ts, old :: olds, b, p => (∃ v, fieldMoment w call mom k done t old b v ∧ p = done ++ v :: olds)
      ∨ ∃ v b', readField w call k done t old b = (v, b', none) ∧ fieldsMoment w call mom k (done ++ [v]) ts olds b' p
  | _, olds, _, p => p = done ++ olds

theorem one_moment {w : World} {call : DecCall} {mom : Mom} {tys : List FTy} {s : DecStmt} {st : DecSt} {p : List Val}
    (h : stmtsMoment w call mom tys [s] st p) : p = st.fs ∨ stmtMoment call mom s st p ∨ ∃ st', decStmts w call tys [s] st = (st', none) ∧ p = st'.fs := by
  rcases h with h | h | ⟨st', h1, h2⟩
  · exact .inl h
  · exact .inr (.inl h)
  · exact .inr (.inr ⟨st', by simp [decStmts, h1], h2⟩)

theorem decOf_moment (w : World) (call : DecCall) (mom : Mom) (tys : List FTy) (k : Conv) (done : List Val) (t : WTy) (old : Val)
    (olds : List Val) (b : RBuf) (hty : tys[done.length]? = some t.java)
    (hkey : ∀ fac key, t = .ext fac key → key < done.length) (p : List Val)
    (h : stmtsMoment w call mom tys (decOf k done.length t) ⟨done ++ old :: olds, b⟩ p) :
    ∃ v, fieldMoment w call mom k done t old b v ∧ p = done ++ v :: olds := by
  have hend : ∀ st', decStmts w call tys (decOf k done.length t) ⟨done ++ old :: olds, b⟩ = (st', none) → p = st'.fs →
      ∃ v, fieldMoment w call mom k done t old b v ∧ p = done ++ v :: olds := by
    intro st' h1 h2
    rw [decOf_eq w call tys k done t old olds b hty hkey] at h1
    have h3 := congrArg (fun x => x.1.fs) h1
    dsimp only at h3
    exact ⟨_, .inr (.inl rfl), by rw [h2, ← h3]⟩
  have hold : p = done ++ old :: olds → ∃ v, fieldMoment w call mom k done t old b v ∧ p = done ++ v :: olds := fun h => ⟨old, .inl rfl, h⟩
  cases t with
  | list e =>
    rcases one_moment h with h | ⟨b', n, j, b'', xs, h1, h2, h3, h4⟩ | ⟨st', h1, h2⟩
    · exact hold h
    · exact ⟨.list xs, .inr (.inr ⟨b', n, j, xs, b'', h1, h2, h3, rfl⟩), by rw [h4]; exact set_at ..⟩
    · exact hend st' h1 h2
  | sub c =>
    rcases one_moment h with h | h | ⟨st', h1, h2⟩
    · exact hold h
    · rcases h with ⟨h1, q, h2, h3⟩ | ⟨c', fs', q, h1, h2, h3⟩
      · dsimp only at h1 h2 h3
        rw [get_at] at h1
        rw [set_at] at h3
        exact ⟨_, .inr (.inr (.inl ⟨Option.some.inj h1, q, h2, rfl⟩)), h3⟩
      · dsimp only at h1 h2 h3
        rw [get_at] at h1
        rw [set_at] at h3
        exact ⟨_, .inr (.inr (.inr ⟨c', fs', q, Option.some.inj h1, h2, rfl⟩)), h3⟩
    · exact hend st' h1 h2
  | ext fac key =>
    rcases h with h | h | ⟨st', h1, h⟩
    · exact hold h
    · exact h.elim
    · have h0 := h1
      have hget : (done ++ old :: olds)[key]? = done[key]? := by
        rw [List.getElem?_append_left (hkey fac key rfl)]
      simp only [decStmt, hget] at h1
      revert h1
      rcases hd : done[key]? with _ | kv
      · intro h1; simp at h1
      · dsimp only
        rcases hf : w.fac fac (keyOf kv) with _ | u
        · intro h1; simp at h1
        · simp only [set_at, Prod.mk.injEq, and_true]
          intro h1
          rcases one_moment h with h | h | ⟨st2, h3, h4⟩
          · exact ⟨u, .inr (.inr ⟨kv, u, hd, hf, .inl rfl⟩), by rw [h, ← h1]⟩
          · obtain ⟨c', fs', q, g1, g2, g3⟩ := h
            rw [← h1] at g1 g2 g3
            dsimp only at g1 g2 g3
            rw [get_at] at g1
            rw [set_at] at g3
            exact ⟨_, .inr (.inr ⟨kv, u, hd, hf, .inr ⟨c', fs', q, Option.some.inj g1, g2, rfl⟩⟩), g3⟩
          · refine hend st2 ?_ h4
            simp only [decOf, decStmts, h0]
            simpa [decStmts] using h3
  | num p' =>
    rcases one_moment h with h | h | ⟨st', h1, h2⟩
    · exact hold h
    · exact h.elim
    · exact hend st' h1 h2
  | len p' =>
    rcases one_moment h with h | h | ⟨st', h1, h2⟩
    · exact hold h
    · exact h.elim
    · exact hend st' h1 h2
  | cksum p' alg =>
    rcases one_moment h with h | h | ⟨st', h1, h2⟩
    · exact hold h
    · exact h.elim
    · exact hend st' h1 h2
  | text n pad left =>
    rcases one_moment h with h | h | ⟨st', h1, h2⟩
    · exact hold h
    · exact h.elim
    · exact hend st' h1 h2
  | vstr =>
    rcases one_moment h with h | h | ⟨st', h1, h2⟩
    · exact hold h
    · exact h.elim
    · exact hend st' h1 h2

theorem compileDec_moment (w : World) (call : DecCall) (mom : Mom) (tys : List FTy) (k : Conv) (all : List WTy) (ts : List WTy) :
    ∀ (done olds : List Val) (b : RBuf) (p : List Val), tys.drop done.length = ts.map WTy.java → keysOk done.length all ts = true →
      olds.length = ts.length → stmtsMoment w call mom tys (compileDec k done.length ts) ⟨done ++ olds, b⟩ p →
      fieldsMoment w call mom k done ts olds b p := by
  induction ts with
  | nil =>
    intro done olds b p _ _ hl h
    have : olds = [] := List.length_eq_zero_iff.mp hl
    subst this
    exact h
  | cons t ts ih =>
    intro done olds b p hty hkey hl h
    cases olds with
    | nil => simp at hl
    | cons old olds =>
      have hty0 : tys[done.length]? = some t.java := by
        have := congrArg List.head? hty
        simpa using this
      obtain ⟨hk0, hk1⟩ := keysOk_head hkey
      rcases stmtsMoment_append w call mom tys _ _ p _ h with h | ⟨st', h1, h2⟩
      · exact .inl (decOf_moment w call mom tys k done t old olds b hty0 hk0 p h)
      · rw [decOf_eq w call tys k done t old olds b hty0 hk0] at h1
        revert h1
        rcases hr : readField w call k done t old b with ⟨v, b', e⟩
        intro h1
        simp only [Prod.mk.injEq] at h1
        obtain ⟨rfl, rfl⟩ := h1
        refine .inr ⟨v, b', hr, ih (done ++ [v]) olds b' p ?_ (by simpa using hk1) (by simpa using hl) ?_⟩
        · have := congrArg (List.drop 1) hty
          simpa [List.drop_drop, Nat.add_comm] using this
        · simpa using h2

theorem moment_eq (w : World) (n : Nat) (c : Cls) (olds : List Val) (b : RBuf) (p : List Val) (hl : olds.length = (wire c).length)
    (h : moment w (n + 1) c olds b p) : fieldsMoment w (decode w n) (moment w n) (conv c.mod) [] (wire c) olds b p := by
  simp only [moment, dec_table] at h
  refine compileDec_moment w _ _ _ (conv c.mod) (wire c) (wire c) [] olds b p ?_ (keysOk_table c) hl (by simpa using h)
  have := type_table c
  simpa [javaTypes] using this

/-! ### Types -/

/-- Objects stay well-typed while the call is running. -/
def MomTyped (mom : Mom) : Prop := ∀ c fs b p, fieldsHaveType (javaTypes c) fs = true → mom c fs b p → fieldsHaveType (javaTypes c) p = true

theorem fieldMoment_typed (w : World) (hw : TypedSuppliers w) (call : DecCall) (hc : CallTyped call) (mom : Mom) (hm : MomTyped mom) (k : Conv)
    (done : List Val) (t : WTy) (old : Val) (b : RBuf) (v : Val) (ho : hasType t.java old = true)
    (hkey : ∀ fac key, t = .ext fac key → key < done.length) (h : fieldMoment w call mom k done t old b v) : hasType t.java v = true := by
  rcases h with rfl | rfl | h
  · exact ho
  · exact (readField_typed w hw call hc k done t old b ho hkey).1
  · cases t with
    | list e =>
      obtain ⟨b', n, j, xs, b'', -, -, ⟨-, h3⟩, rfl⟩ := h
      have := (decElems_typed call hc k e j [] b' rfl).1
      rw [h3] at this
      exact this
    | sub c =>
      rcases h with ⟨-, q, h2, rfl⟩ | ⟨c', fs', q, rfl, h2, rfl⟩
      · simp only [hasType, WTy.java, decide_true, Bool.true_and]
        exact hm c _ b q (typed_fresh c) h2
      · simp only [hasType, WTy.java, Bool.and_eq_true, decide_eq_true_eq] at ho ⊢
        exact ⟨ho.1, hm c' fs' b q ho.2 h2⟩
    | ext fac key =>
      obtain ⟨kv, u, -, hf, h⟩ := h
      have hv := hw _ _ _ hf
      rcases h with rfl | ⟨c', fs', q, rfl, h2, rfl⟩
      · cases v with
        | obj c' fs' =>
          simp only [wellTyped, hasType, Bool.true_and] at hv
          simp only [hasType, WTy.java, Bool.true_and]
          exact hv
        | _ => simp [wellTyped] at hv
      · simp only [wellTyped, hasType, Bool.true_and] at hv
        simp only [hasType, WTy.java, Bool.true_and]
        exact hm c' fs' b q hv h2
    | _ => exact h.elim

theorem fieldsMoment_typed (w : World) (hw : TypedSuppliers w) (call : DecCall) (hc : CallTyped call) (mom : Mom) (hm : MomTyped mom) (k : Conv)
    (all : List WTy) (ts : List WTy) : ∀ (dts : List FTy) (done olds : List Val) (b : RBuf) (p : List Val), fieldsHaveType dts done = true →
      fieldsHaveType (ts.map WTy.java) olds = true → keysOk done.length all ts = true → fieldsMoment w call mom k done ts olds b p →
      fieldsHaveType (dts ++ ts.map WTy.java) p = true := by
  induction ts with
  | nil =>
    intro dts done olds b p hd ho _ h
    have : olds = [] := by cases olds with | nil => rfl | cons => simp [fieldsHaveType] at ho
    subst this
    simp only [fieldsMoment, List.append_nil] at h
    subst h
    simpa using hd
  | cons t ts ih =>
    intro dts done olds b p hd ho hk h
    cases olds with
    | nil => simp [fieldsHaveType] at ho
    | cons old olds =>
      simp only [List.map_cons, fieldsHaveType, Bool.and_eq_true] at ho
      obtain ⟨hk0, hk1⟩ := keysOk_head hk
      rcases h with ⟨v, h1, rfl⟩ | ⟨v, b', h1, h2⟩
      · refine fieldsHaveType_append _ _ _ _ hd ?_
        simp only [List.map_cons, fieldsHaveType, Bool.and_eq_true]
        exact ⟨fieldMoment_typed w hw call hc mom hm k done t old b v ho.1 hk0 h1, ho.2⟩
      · have hf := (readField_typed w hw call hc k done t old b ho.1 hk0).1
        rw [h1] at hf
        have := ih (dts ++ [t.java]) (done ++ [v]) olds b' p (fieldsHaveType_append _ _ _ _ hd (by simp [fieldsHaveType, hf])) ho.2
          (by simpa using hk1) h2
        simpa using this

theorem moment_typed (w : World) (hw : TypedSuppliers w) (n : Nat) : MomTyped (moment w n) := by
  induction n with
  | zero =>
    intro c fs b p h hp
    have : p = fs := hp
    subst this; exact h
  | succ n ih =>
    intro c fs b p h hp
    have h1 := moment_eq w n c fs b p (fields_length c fs h) hp
    have := fieldsMoment_typed w hw _ (decode_typed w hw n) _ ih (conv c.mod) (wire c) (wire c) [] [] fs b p rfl (by rw [← type_table]; exact h)
      (by simpa using keysOk_table c) h1
    simpa [type_table] using this

/-! ### More room on the stack -/

theorem stmtMoment_mono {call call' : DecCall} (hg : Agree call call') {mom mom' : Mom} (hm : ∀ c fs b p, mom c fs b p → mom' c fs b p)
    {s : DecStmt} {st : DecSt} {p : List Val} (h : stmtMoment call mom s st p) : stmtMoment call' mom' s st p := by
  have hcall : ∀ f, callMoment mom f st.fs st.buf p → callMoment mom' f st.fs st.buf p := by
    rintro f ⟨c', fs', q, h1, h2, h3⟩
    exact ⟨c', fs', q, h1, hm _ _ _ _ h2, h3⟩
  cases s with
  | list f t e el =>
    obtain ⟨b', n, j, b'', xs, h1, h2, ⟨hj, h3⟩, h4⟩ := h
    refine ⟨b', n, j, b'', xs, h1, h2, ⟨hj, ?_⟩, h4⟩
    rw [decElems_agree hg el j [] b' (by rw [h3]; simp), h3]
  | obj f c =>
    rcases h with ⟨h1, q, h2, h3⟩ | h
    · exact .inl ⟨h1, q, hm _ _ _ _ h2, h3⟩
    · exact .inr (hcall f h)
  | call f => exact hcall f h
  | _ => exact h.elim

theorem stmtsMoment_mono {w : World} {call call' : DecCall} (hg : Agree call call') {mom mom' : Mom} (hm : ∀ c fs b p, mom c fs b p → mom' c fs b p)
    {tys : List FTy} {p : List Val} (ss : List DecStmt) : ∀ (st : DecSt), stmtsMoment w call mom tys ss st p → stmtsMoment w call' mom' tys ss st p := by
  induction ss with
  | nil => intro st h; exact h
  | cons s ss ih =>
    intro st h
    rcases h with h | h | ⟨st', h1, h2⟩
    · exact .inl h
    · exact .inr (.inl (stmtMoment_mono hg hm h))
    · refine .inr (.inr ⟨st', ?_, ih st' h2⟩)
      rw [decStmt_agree hg w tys s st (by rw [h1]; simp), h1]

theorem moment_mono (w : World) (n : Nat) : ∀ m, n ≤ m → ∀ c fs b p, moment w n c fs b p → moment w m c fs b p := by
  induction n with
  | zero =>
    intro m _ c fs b p h
    have : p = fs := h
    subst this
    exact moment_refl w m c p b
  | succ n ih =>
    intro m hm c fs b p h
    obtain ⟨m, rfl⟩ : ∃ k, m = k + 1 := ⟨m - 1, by omega⟩
    exact stmtsMoment_mono (decode_agree_le w n m (by omega)) (ih m (by omega)) _ _ h

/-! ### Again -/

/-- A call, with more bytes, on what is there while another one is running. -/
def MomResume (call : DecCall) (mom : Mom) : Prop :=
  ∀ c olds bt bf p, fieldsHaveType (javaTypes c) olds = true → Beh bt bf → mom c olds bt p → (call c olds bf).2.2 = none →
    call c p bf = call c olds bf

theorem fieldMoment_resume (w : World) (call : DecCall) (hc : CallResume call) (mom : Mom) (hm : MomResume call mom) (k : Conv)
    (doneT doneF : List Val) (t : WTy) (old : Val) (bt bf : RBuf) (v : Val) (ho : hasType t.java old = true) (h : Beh bt bf)
    (hmv : fieldMoment w call mom k doneT t old bt v) (hok : (readField w call k doneF t old bf).2.2 = none) :
    readField w call k doneF t v bf = readField w call k doneF t old bf := by
  rcases hmv with rfl | rfl | hmv
  · rfl
  · exact readField_resume w call hc k doneT doneF t old bt bf ho h hok
  · cases t with
    | list e =>
      obtain ⟨b', n, j, xs, b'', h1, h2, -, -⟩ := hmv
      have h3 := readNum_extend h _ _ _ _ h1
      simp only [readField, h3]
      rw [if_pos h2, if_pos h2]
    | sub c =>
      rcases hmv with ⟨rfl, q, h2, rfl⟩ | ⟨c', fs', q, rfl, h2, rfl⟩
      · simp only [readField] at hok ⊢
        rw [hm c (freshFields c) bt bf q (freshTyped c) h h2 hok]
      · simp only [hasType, WTy.java, Bool.and_eq_true] at ho
        simp only [readField] at hok ⊢
        rw [hm c' fs' bt bf q ho.2 h h2 hok]
    | ext fac key =>
      revert hok
      simp only [readField]
      rcases doneF[key]? with _ | kv
      · intro h; simp at h
      · dsimp only
        rcases w.fac fac (keyOf kv) with _ | v'
        · intro h; simp at h
        · cases v' <;> exact fun _ => rfl
    | _ => exact hmv.elim

theorem fieldsMoment_resume (w : World) (call : DecCall) (hl : ∀ c fs, Law (call c fs)) (hc : CallResume call) (mom : Mom)
    (hm : MomResume call mom) (k : Conv) (ts : List WTy) :
    ∀ (doneT doneF olds : List Val) (bt bf : RBuf) (p : List Val), fieldsHaveType (ts.map WTy.java) olds = true → Beh bt bf →
      (bt.rd ≤ bt.data.length → doneT = doneF) → fieldsMoment w call mom k doneT ts olds bt p → (readFields w call k doneF ts olds bf).2.2 = none →
      (∃ r, p = doneT ++ r) ∧ readFields w call k doneF ts (p.drop doneT.length) bf = readFields w call k doneF ts olds bf := by
  induction ts with
  | nil =>
    intro doneT doneF olds bt bf p ht _ _ hp _
    cases olds with
    | nil =>
      have hp : p = doneT ++ [] := hp
      subst hp
      exact ⟨⟨[], rfl⟩, by simp [readFields]⟩
    | cons => simp [fieldsHaveType] at ht
  | cons t ts ih =>
    intro doneT doneF olds bt bf p ht hb hd hp hok
    cases olds with
    | nil => simp [fieldsHaveType] at ht
    | cons old olds =>
      simp only [List.map_cons, fieldsHaveType, Bool.and_eq_true] at ht
      have law := law_readField w call hl k doneT t old
      rcases hF : readField w call k doneF t old bf with ⟨vF, bF, _ | eF⟩
      · have hokF : (readFields w call k (doneF ++ [vF]) ts olds bF).2.2 = none := by
          simpa [readFields, hF] using hok
        have goalR : readFields w call k doneF (t :: ts) (old :: olds) bf = readFields w call k (doneF ++ [vF]) ts olds bF := by
          simp [readFields, hF]
        rw [goalR]
        rcases hp with ⟨v, hv, rfl⟩ | ⟨vT, bT, hT, hp⟩
        · have hA := fieldMoment_resume w call hc mom hm k doneT doneF t old bt bf v ht.1 hb hv (by rw [hF])
          rw [hF] at hA
          exact ⟨⟨_, rfl⟩, by simp [readFields, hA]⟩
        · have hA := readField_resume w call hc k doneT doneF t old bt bf ht.1 hb (by rw [hF])
          rw [hF, hT] at hA
          dsimp only at hA
          have hdata : bT.data = bt.data := by
            have := law.data bt; rw [hT] at this; exact this
          have hfwd : bt.rd ≤ bT.rd := by
            have := law.forward bt; rw [hT] at this; exact this
          have hFdata : bF.data = bf.data := by
            have := (law_readField w call hl k doneF t old).data bf; rw [hF] at this; exact this
          have key : (∃ r, p = (doneT ++ [vT]) ++ r)
              ∧ readFields w call k (doneF ++ [vF]) ts (p.drop (doneT ++ [vT]).length) bF = readFields w call k (doneF ++ [vF]) ts olds bF := by
            by_cases hin : bT.rd ≤ bt.data.length
            · have hdd := hd (by omega)
              subst hdd
              have := law.extend hb (by rw [hT]) (by rw [hT]; exact hin)
              rw [hT, hF] at this
              simp only [Prod.mk.injEq, and_true] at this
              obtain ⟨rfl, h2⟩ := this
              refine ih _ _ olds bT bF p ht.2 ⟨by rw [hdata, hFdata]; exact hb.1, .inl ?_⟩ (fun _ => rfl) hp hokF
              rw [h2]
            · refine ih _ _ olds bT bF p ht.2 ⟨by rw [hdata, hFdata]; exact hb.1, .inr (by rw [hdata]; omega)⟩ (fun h => ?_) hp hokF
              rw [hdata] at h
              exact absurd h hin
          obtain ⟨⟨r, rfl⟩, h2⟩ := key
          refine ⟨⟨vT :: r, by simp⟩, ?_⟩
          have e1 : (doneT ++ [vT] ++ r).drop doneT.length = vT :: r := by simp
          have e2 : (doneT ++ [vT] ++ r).drop (doneT ++ [vT]).length = r := List.drop_left
          rw [e2] at h2
          rw [e1]
          simp only [readFields, hA]
          exact h2
      · simp [readFields, hF] at hok

theorem fieldsMoment_length (w : World) (call : DecCall) (mom : Mom) (k : Conv) (ts : List WTy) : ∀ (done olds : List Val) (b : RBuf) (p : List Val),
    fieldsMoment w call mom k done ts olds b p → p.length = done.length + olds.length := by
  induction ts with
  | nil => intro done olds b p h; have : p = done ++ olds := by cases olds <;> exact h
           rw [this]; simp
  | cons t ts ih =>
    intro done olds b p h
    cases olds with
    | nil => have h : p = done ++ [] := h
             rw [h]; simp
    | cons old olds =>
      rcases h with ⟨v, -, rfl⟩ | ⟨v, b', -, h⟩
      · simp
      · have := ih _ _ _ _ h
        simp only [List.length_append, List.length_cons, List.length_nil] at this ⊢
        omega

theorem moment_resume (w : World) (n : Nat) : MomResume (decode w n) (moment w n) := by
  induction n with
  | zero => intro c olds bt bf p _ _ _ h; simp [decode] at h
  | succ n ih =>
    intro c olds bt bf p ht hb hp hok
    have hl := fields_length c olds ht
    have hp := moment_eq w n c olds bt p hl hp
    rw [decode_eq w n c olds bf hl] at hok ⊢
    rw [decode_eq w n c p bf (by rw [fieldsMoment_length w _ _ _ _ _ _ _ _ hp]; simpa using hl)]
    rw [type_table] at ht
    have := (fieldsMoment_resume w (decode w n) (law_decode w n) (decode_resume w n) _ ih (conv c.mod) (wire c) [] [] olds bt bf p ht hb
      (fun _ => rfl) hp hok).2
    simpa using this

end FinProto
