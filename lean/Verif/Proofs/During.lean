import Verif.Model.During
import Verif.Spec.During
import Verif.Spec.Suppliers
import Verif.Proofs.DecodeErrors
/-
Helper lemmas: encode and decode with registries that change meanwhile.
-/
namespace FinProto

/-! ### decode -/

def readFieldsDuring (ws : Nat → World) (call : DecCall) (k : Conv) (done : List Val) :
    List WTy → List Val → RBuf → List Val × RBuf × Option JErr
  | t :: ts, old :: olds, b =>
    match readField (ws b.rd) call k done t old b with
    | (v, b', none) => readFieldsDuring ws call k (done ++ [v]) ts olds b'
    | (v, b', some e) => (done ++ v :: olds, b', some e)
  | _, olds, b => (done ++ olds, b, none)

theorem decStmtsDuring_append (ws : Nat → World) (call : DecCall) (tys : List FTy) (xs ys : List DecStmt) (st : DecSt) :
    decStmtsDuring ws call tys (xs ++ ys) st =
      match decStmtsDuring ws call tys xs st with
      | (st', none) => decStmtsDuring ws call tys ys st'
      | (st', some e) => (st', some e) := by
  induction xs generalizing st with
  | nil => rfl
  | cons s ss ih =>
    simp only [List.cons_append, decStmtsDuring]
    rcases decStmt (ws st.buf.rd) call tys s st with ⟨st', _ | e⟩
    · exact ih st'
    · rfl

theorem decOf_during (ws : Nat → World) (call : DecCall) (tys : List FTy) (k : Conv) (i : Nat) (t : WTy) (st : DecSt) :
    decStmtsDuring ws call tys (decOf k i t) st = decStmts (ws st.buf.rd) call tys (decOf k i t) st := by
  cases t with
  | ext fac key =>
    simp only [decOf, decStmtsDuring, decStmts]
    have hbuf : (decStmt (ws st.buf.rd) call tys (.create i fac key) st).1.buf = st.buf := by
      simp only [decStmt]
      split
      · split <;> rfl
      · rfl
    revert hbuf
    rcases decStmt (ws st.buf.rd) call tys (.create i fac key) st with ⟨st', _ | e⟩
    · intro hbuf
      simp only at hbuf
      simp only [hbuf]
      rcases decStmt (ws st.buf.rd) call tys (.call i) st' with ⟨st'', _ | e⟩ <;> rfl
    · intro _; rfl
  | _ => rfl

theorem compileDec_during (ws : Nat → World) (call : DecCall) (tys : List FTy) (k : Conv) (all : List WTy) (ts : List WTy) :
    ∀ (done olds : List Val) (b : RBuf), tys.drop done.length = ts.map WTy.java → keysOk done.length all ts = true →
      olds.length = ts.length →
    decStmtsDuring ws call tys (compileDec k done.length ts) ⟨done ++ olds, b⟩ =
      (⟨(readFieldsDuring ws call k done ts olds b).1, (readFieldsDuring ws call k done ts olds b).2.1⟩,
        (readFieldsDuring ws call k done ts olds b).2.2) := by
  induction ts with
  | nil =>
    intro done olds b _ _ hl
    have : olds = [] := List.length_eq_zero_iff.mp hl
    subst this
    rfl
  | cons t ts ih =>
    intro done olds b hty hkey hl
    cases olds with
    | nil => simp at hl
    | cons old olds =>
      have hty0 : tys[done.length]? = some t.java := by
        have := congrArg List.head? hty
        simpa using this
      have hk0 : ∀ fac key, t = .ext fac key → key < done.length := by
        intro fac key h
        subst h
        simp only [keysOk, Bool.and_eq_true, decide_eq_true_eq] at hkey
        exact hkey.1.1
      have hk1 : keysOk (done.length + 1) all ts = true := by
        cases t <;> simp only [keysOk, Bool.and_eq_true] at hkey
        case ext => exact hkey.2
        all_goals exact hkey
      simp only [compileDec, decStmtsDuring_append, decOf_during, decOf_eq (ws b.rd) call tys k done t old olds b hty0 hk0, readFieldsDuring]
      rcases readField (ws b.rd) call k done t old b with ⟨v, b', _ | e⟩
      · have := ih (done ++ [v]) olds b' (by
          have h := congrArg List.tail hty
          simpa using h) (by simpa using hk1) (by simpa using hl)
        simpa using this
      · rfl

theorem decodeDuring_eq (ws : Nat → World) (n : Nat) (c : Cls) (fs : List Val) (b : RBuf) (hl : fs.length = (wire c).length) :
    decodeDuring ws (n + 1) c fs b = readFieldsDuring ws (decodeDuring ws n) (conv c.mod) [] (wire c) fs b := by
  have := compileDec_during ws (decodeDuring ws n) (javaTypes c) (conv c.mod) (wire c) (wire c) [] fs b
    (by simpa using type_table c) (by simpa using keysOk_table c) hl
  simp only [decodeDuring, dec_table]
  rw [show ((decl c).fields.map fun x => x.2) = javaTypes c from rfl]
  simp only [List.length_nil, List.nil_append] at this
  rw [this]

/-- Numbers, texts and lists of them: read without looking at the factories. -/
def flatTy : WTy → Bool
  | .sub _ | .ext _ _ | .list (.sub _) => false
  | _ => true

/-- The messages in lists have no nested messages. -/
def elemsFlat : WTy → Bool
  | .list (.sub d) => (wire d).all flatTy
  | _ => true

theorem elemsFlat_table (c : Cls) : (wire c).all elemsFlat = true := by
  cases c <;> decide

theorem decElem_call (call call' : DecCall) (el : DecElem) (b : RBuf) (h : ∀ c, el = .obj c → ∀ b, call c (freshFields c) b = call' c (freshFields c) b) :
    decElem call el b = decElem call' el b := by
  cases el with
  | obj c => simp only [decElem, h c rfl]
  | _ => rfl

theorem decElems_call (call call' : DecCall) (el : DecElem) (h : ∀ c, el = .obj c → ∀ b, call c (freshFields c) b = call' c (freshFields c) b) (n : Nat) :
    ∀ (acc : List Val) (b : RBuf), decElems call el n acc b = decElems call' el n acc b := by
  induction n with
  | zero => intro acc b; rfl
  | succ n ih =>
    intro acc b
    simp only [decElems, decElem_call call call' el b h, ih]

theorem readField_flat (w w' : World) (call call' : DecCall) (k : Conv) (done : List Val) (t : WTy) (old : Val) (b : RBuf) (h : flatTy t = true) :
    readField w call k done t old b = readField w' call' k done t old b := by
  cases t with
  | list e =>
    simp only [readField]
    cases e with
    | sub d => simp [flatTy] at h
    | _ =>
      rcases b.readNum k.order k.listLen with ⟨b', e | m⟩
      · rfl
      · dsimp only
        rw [decElems_call call call' _ (fun c hc => by cases hc)]
  | sub c => simp [flatTy] at h
  | ext f i => simp [flatTy] at h
  | _ => rfl

theorem readFields_flat (w : World) (ws : Nat → World) (call call' : DecCall) (k : Conv) (ts : List WTy) (h : ts.all flatTy = true) :
    ∀ (done olds : List Val) (b : RBuf), readFieldsDuring ws call k done ts olds b = readFields w call' k done ts olds b := by
  induction ts with
  | nil => intro done olds b; cases olds <;> rfl
  | cons t ts ih =>
    simp only [List.all_cons, Bool.and_eq_true] at h
    intro done olds b
    cases olds with
    | nil => rfl
    | cons o olds =>
      simp only [readFieldsDuring, readFields, readField_flat (ws b.rd) w call call' k done t o b h.1]
      rcases readField w call' k done t o b with ⟨v, b', _ | e⟩
      · exact ih h.2 _ _ _
      · rfl

theorem decode_flat (w : World) (ws : Nat → World) (n : Nat) (c : Cls) (h : (wire c).all flatTy = true) (fs : List Val) (b : RBuf)
    (hl : fs.length = (wire c).length) : decodeDuring ws n c fs b = decode w n c fs b := by
  cases n with
  | zero => rfl
  | succ n =>
    rw [decodeDuring_eq ws n c fs b hl, decode_eq w n c fs b hl]
    exact readFields_flat w ws _ _ _ _ h _ _ _

theorem during_fields (w : World) (hw : TypedSuppliers w) (ws : Nat → World) (n : Nat)
    (ih : ∀ c fs b, fieldsHaveType (javaTypes c) fs = true →
      (∀ fac k, Carries (.obj c (decode w n c fs b).1) fac k → ∀ p, (ws p).fac fac k = w.fac fac k) → decodeDuring ws n c fs b = decode w n c fs b)
    (k : Conv) (ts : List WTy) (hflat : ts.all elemsFlat = true) :
    ∀ (done olds : List Val) (b : RBuf), fieldsHaveType (ts.map WTy.java) olds = true →
      (∀ fac key kv, WTy.ext fac key ∈ ts → (readFields w (decode w n) k done ts olds b).1[key]? = some kv →
        ∀ p, (ws p).fac fac (keyOf kv) = w.fac fac (keyOf kv)) →
      (∀ v ∈ (readFields w (decode w n) k done ts olds b).1, ∀ fac k, Carries v fac k → ∀ p, (ws p).fac fac k = w.fac fac k) →
      readFieldsDuring ws (decodeDuring ws n) k done ts olds b = readFields w (decode w n) k done ts olds b := by
  induction ts with
  | nil => intro done olds b _ _ _; cases olds <;> rfl
  | cons t ts ihts =>
    intro done olds b hty hkey hin
    simp only [List.all_cons, Bool.and_eq_true] at hflat
    cases olds with
    | nil => rfl
    | cons o olds =>
      simp only [List.map_cons, fieldsHaveType, Bool.and_eq_true] at hty
      have hmem : (readField w (decode w n) k done t o b).1 ∈ (readFields w (decode w n) k done (t :: ts) (o :: olds) b).1 := by
        simp only [readFields]
        rcases readField w (decode w n) k done t o b with ⟨v, b', _ | e⟩
        · exact (readFields_prefix w (decode w n) k ts (done ++ [v]) olds b').subset (by simp)
        · simp
      have hstep : readField (ws b.rd) (decodeDuring ws n) k done t o b = readField w (decode w n) k done t o b := by
        by_cases hf : flatTy t = true
        · exact readField_flat _ _ _ _ _ _ _ _ _ hf
        · cases t with
          | sub c =>
            simp only [readField] at hmem ⊢
            cases o with
            | null =>
              dsimp only at hmem ⊢
              have := ih c (freshFields c) b (typed_fresh c) (hin _ hmem)
              rw [this]
            | obj c' fs' =>
              dsimp only at hmem ⊢
              simp only [WTy.java, hasType, Bool.and_eq_true] at hty
              have := ih c' fs' b hty.1.2 (hin _ hmem)
              rw [this]
            | _ => rfl
          | list e =>
            cases e with
            | sub d =>
              simp only [elemsFlat] at hflat
              simp only [readField, decElOf]
              have hd : ∀ b, decodeDuring ws n d (freshFields d) b = decode w n d (freshFields d) b :=
                fun b => decode_flat w ws n d hflat.1 _ b (freshFields_length d)
              simp only [decElems_call (decodeDuring ws n) (decode w n) (.obj d) (fun c hc => by cases hc; exact hd)]
            | _ => simp [flatTy] at hf
          | ext fac key =>
            simp only [readField] at hmem ⊢
            cases hd : done[key]? with
            | none => rfl
            | some kv =>
              have hfin : (readFields w (decode w n) k done (.ext fac key :: ts) (o :: olds) b).1[key]? = some kv := by
                obtain ⟨r, hr⟩ := readFields_prefix w (decode w n) k (.ext fac key :: ts) done (o :: olds) b
                rw [← hr]
                have hlt : key < done.length := by
                  rcases Nat.lt_or_ge key done.length with h | h
                  · exact h
                  · rw [List.getElem?_eq_none h] at hd; cases hd
                rw [List.getElem?_append_left hlt, hd]
              have hag := hkey fac key kv (by simp) hfin b.rd
              simp only [hd] at hmem
              dsimp only
              rw [hag]
              cases hfac : w.fac fac (keyOf kv) with
              | none => rfl
              | some v =>
                simp only [hfac] at hmem
                cases v with
                | obj c' fs' =>
                  dsimp only at hmem ⊢
                  have ht := hw _ _ _ hfac
                  simp only [wellTyped, hasType, Bool.and_eq_true] at ht
                  have := ih c' fs' b ht.2 (hin _ hmem)
                  rw [this]
                | _ => rfl
          | _ => simp [flatTy] at hf
      revert hkey hin
      simp only [readFieldsDuring, readFields, hstep]
      rcases readField w (decode w n) k done t o b with ⟨v, b', _ | e⟩
      · intro hkey hin
        exact ihts hflat.2 (done ++ [v]) olds b' hty.2 (fun fac key kv hm => hkey fac key kv (by simp [hm])) hin
      · intro _ _; rfl

theorem decodeDuring_same (w : World) (hw : TypedSuppliers w) (ws : Nat → World) (n : Nat) :
    ∀ c fs b, fieldsHaveType (javaTypes c) fs = true →
      (∀ fac k, Carries (.obj c (decode w n c fs b).1) fac k → ∀ p, (ws p).fac fac k = w.fac fac k) → decodeDuring ws n c fs b = decode w n c fs b := by
  induction n with
  | zero => intro c fs b _ _; rfl
  | succ n ih =>
    intro c fs b hty h
    have hl := fields_length c fs hty
    rw [decode_eq w n c fs b hl] at h ⊢
    rw [decodeDuring_eq ws n c fs b hl]
    refine during_fields w hw ws n ih (conv c.mod) (wire c) (elemsFlat_table c) [] fs b (by rw [← type_table]; exact hty) ?_ ?_
    · intro fac key kv hm hk
      exact h fac _ (.here hm hk)
    · intro v hv fac k hc
      exact h fac k (.field hv hc)

/-! ### encode -/

def algListed (c : Cls) : EncStmt → Bool
  | .checksum _ alg => (wire c).any fun t => match t with | .cksum _ alg' => alg == alg' | _ => false
  | _ => true

theorem algListed_table (c : Cls) : (decl c).enc.all (algListed c) = true := by
  cases c <;> decide +kernel

/-- All registry states agree on the algorithms of the message. -/
def Safe (w : World) (ws : Nat → World) (v : Val) : Prop := ∀ alg, Checksums v alg → ∀ p, (ws p).svc alg = w.svc alg

theorem safe_num (w : World) (ws : Nat → World) (n : Num) : Safe w ws (.num n) := by
  intro alg h; cases h

/-- The recursive call behaves alike under all registry states. -/
def CallSafe (w : World) (ws : Nat → World) (call' call : EncCall) : Prop :=
  ∀ v b, Safe w ws v → call' v b = call v b ∧ Safe w ws (call v b).1

theorem safe_elem (w : World) (ws : Nat → World) (call' call : EncCall) (hc : CallSafe w ws call' call) (el : EncElem) (v : Val) (b : WBuf)
    (hv : Safe w ws v) : encElem call' el v b = encElem call el v b ∧ Safe w ws (encElem call el v b).1 := by
  cases el with
  | obj => exact hc v b hv
  | _ => exact ⟨rfl, hv⟩

theorem safe_elems (w : World) (ws : Nat → World) (call' call : EncCall) (hc : CallSafe w ws call' call) (el : EncElem) :
    ∀ (xs : List Val) (b : WBuf), (∀ v ∈ xs, Safe w ws v) →
      encElems call' el xs b = encElems call el xs b ∧ ∀ v ∈ (encElems call el xs b).1, Safe w ws v := by
  intro xs
  induction xs with
  | nil => intro b _; exact ⟨rfl, by simp [encElems]⟩
  | cons x xs ih =>
    intro b h
    have h1 := safe_elem w ws call' call hc el x b (h x (by simp))
    simp only [encElems, h1.1]
    have h2 := h1.2
    revert h2
    rcases encElem call el x b with ⟨v', b', _ | e⟩
    · intro h2
      have h3 := ih b' (fun v hv => h v (by simp [hv]))
      simp only [h3.1]
      refine ⟨trivial, ?_⟩
      simp only [List.mem_cons]
      rintro v (rfl | hv)
      · exact h2
      · exact h3.2 v hv
    · intro h2
      refine ⟨rfl, ?_⟩
      simp only [List.mem_cons]
      rintro v (rfl | hv)
      · exact h2
      · exact h v (by simp [hv])

theorem safe_set (w : World) (ws : Nat → World) (fs : List Val) (f : Nat) (v : Val) (h : ∀ v ∈ fs, Safe w ws v) (hv : Safe w ws v) :
    ∀ u ∈ fs.set f v, Safe w ws u := by
  intro u hu
  rcases List.mem_or_eq_of_mem_set hu with h1 | h1
  · exact h u h1
  · rw [h1]; exact hv

theorem safe_stmt (w : World) (ws : Nat → World) (call' call : EncCall) (hc : CallSafe w ws call' call) (s : EncStmt) (st : EncSt) (p : Nat)
    (hs : ∀ f alg, s = .checksum f alg → ∀ p, (ws p).svc alg = w.svc alg) (h : ∀ v ∈ st.fs, Safe w ws v) :
    encStmt (ws p) call' s st = encStmt w call s st ∧ ∀ v ∈ (encStmt w call s st).1.fs, Safe w ws v := by
  cases s with
  | num f t e =>
    refine ⟨rfl, ?_⟩
    simp only [encStmt]
    split <;> exact h
  | fixed f n pad left =>
    refine ⟨rfl, ?_⟩
    simp only [encStmt]
    split <;> exact h
  | dyn f zt t e =>
    refine ⟨rfl, ?_⟩
    simp only [encStmt]
    split <;> exact h
  | list f zt t e el =>
    simp only [encStmt]
    cases hf : st.fs[f]? with
    | none => exact ⟨rfl, h⟩
    | some v =>
      cases v with
      | list xs =>
        cases xs with
        | nil => exact ⟨rfl, h⟩
        | cons x xs =>
          dsimp only
          rcases writeInt st.buf t e (x :: xs).length with ⟨b', _ | e⟩
          · have hsafe : ∀ v ∈ x :: xs, Safe w ws v := by
              intro v hv alg ha
              exact h _ (List.mem_of_getElem? hf) alg (.elem hv ha)
            have := safe_elems w ws call' call hc el (x :: xs) b' hsafe
            dsimp only
            rw [this.1]
            refine ⟨rfl, safe_set w ws _ _ _ h ?_⟩
            intro alg ha
            cases ha with
            | elem hv ha => exact this.2 _ hv alg ha
          · exact ⟨rfl, h⟩
      | _ => exact ⟨rfl, h⟩
  | obj f =>
    simp only [encStmt]
    cases hf : st.fs[f]? with
    | none => exact ⟨rfl, h⟩
    | some v =>
      have := hc v st.buf (h v (List.mem_of_getElem? hf))
      dsimp only
      rw [this.1]
      exact ⟨rfl, safe_set w ws _ _ _ h this.2⟩
  | objOpt f =>
    simp only [encStmt]
    cases hf : st.fs[f]? with
    | none => exact ⟨rfl, h⟩
    | some v =>
      have := hc v st.buf (h v (List.mem_of_getElem? hf))
      cases v with
      | null => exact ⟨rfl, h⟩
      | _ =>
        dsimp only
        rw [this.1]
        exact ⟨rfl, safe_set w ws _ _ _ h this.2⟩
  | save x => exact ⟨rfl, h⟩
  | zero t e => exact ⟨rfl, h⟩
  | setLen f x y =>
    refine ⟨rfl, ?_⟩
    simp only [encStmt]
    split
    · exact safe_set w ws _ _ _ h (safe_num _ _ _)
    · exact h
  | patch x f t e =>
    refine ⟨rfl, ?_⟩
    simp only [encStmt]
    split
    · split <;> exact h
    · exact h
  | checksum f alg =>
    simp only [encStmt, Registry.getService, hs f alg rfl p]
    refine ⟨trivial, ?_⟩
    split
    · exact safe_set w ws _ _ _ h (safe_num _ _ _)
    · exact h

theorem safe_stmts (w : World) (ws : Nat → World) (call' call : EncCall) (hc : CallSafe w ws call' call) (ss : List EncStmt) :
    ∀ (st : EncSt), (∀ f alg, .checksum f alg ∈ ss → ∀ p, (ws p).svc alg = w.svc alg) → (∀ v ∈ st.fs, Safe w ws v) →
    encStmtsDuring ws call' ss st = encStmts w call ss st ∧ ∀ v ∈ (encStmts w call ss st).1.fs, Safe w ws v := by
  induction ss with
  | nil => intro st _ h; exact ⟨rfl, h⟩
  | cons s ss ih =>
    intro st hs h
    have h1 := safe_stmt w ws call' call hc s st st.buf.wr (fun f alg e => hs f alg (by simp [e])) h
    simp only [encStmtsDuring, encStmts, h1.1]
    have h2 := h1.2
    revert h2
    rcases encStmt w call s st with ⟨st', _ | e⟩
    · intro h2
      exact ih st' (fun f alg hm => hs f alg (by simp [hm])) h2
    · intro h2
      exact ⟨rfl, h2⟩

theorem encodeDuring_same (w : World) (ws : Nat → World) (n : Nat) : CallSafe w ws (encodeDuring ws n) (encode w n) := by
  induction n with
  | zero =>
    intro v b h
    cases v <;> exact ⟨rfl, h⟩
  | succ n ih =>
    intro v b h
    cases v with
    | obj c fs =>
      have := safe_stmts w ws (encodeDuring ws n) (encode w n) ih (decl c).enc ⟨fs, b, fun _ => none⟩ (by
          intro f alg hm p
          have ht := List.all_eq_true.mp (algListed_table c) _ hm
          simp only [algListed, List.any_eq_true] at ht
          obtain ⟨t, htm, ht⟩ := ht
          cases t with
          | cksum t' alg' =>
            simp only [beq_iff_eq] at ht
            subst ht
            exact h alg (.here htm) p
          | _ => simp at ht) (by
          intro v hv alg ha
          exact h alg (.field hv ha))
      simp only [encodeDuring, encode, this.1]
      refine ⟨trivial, ?_⟩
      intro alg ha
      cases ha with
      | here hm => exact h alg (.here hm)
      | field hv ha => exact this.2 _ hv alg ha
    | _ => exact ⟨rfl, h⟩

end FinProto
