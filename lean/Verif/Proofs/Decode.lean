import Verif.Proofs.Encode
/-
Helper lemmas: the `decode` statements of a class, regrouped field by field following its layout.
-/
namespace FinProto

/-- Value of the field, buffer and exception after the statements that read one field.  `done` are the fields in front of it
(already read), `old` is what the field holds. -/
def readField (w : World) (call : DecCall) (k : Conv) (done : List Val) (t : WTy) (old : Val) (b : RBuf) :
    Val × RBuf × Option JErr :=
  match t with
  | .num p | .len p | .cksum p _ =>
    match b.readNum (ordOf k p) p with
    | (b', .ok n) => (.num n, b', none)
    | (b', .error e) => (old, b', some e)
  | .text n pad left =>
    match readFixedString b n pad left with
    | (b', .ok s) => (.str s, b', none)
    | (b', .error e) => (old, b', some e)
  | .vstr =>
    match readDyn b k.strLen k.order with
    | (b', .ok (some s)) => (.str s, b', none)
    | (b', .ok none) => (old, b', none)
    | (b', .error e) => (old, b', some e)
  | .list e =>
    match b.readNum k.order k.listLen with
    | (b', .error err) => (old, b', some err)
    | (b', .ok n) =>
      if 0 < n.bits.toInt then
        ((.list (decElems call (decElOf k e) n.bits.toNat [] b').1), (decElems call (decElOf k e) n.bits.toNat [] b').2)
      else (old, b', none)
  | .sub c =>
    match old with
    | .null => (.obj c (call c (freshFields c) b).1, (call c (freshFields c) b).2)
    | .obj c' fs' => (.obj c' (call c' fs' b).1, (call c' fs' b).2)
    | _ => (old, b, some .illTyped)
  | .ext fac key =>
    match done[key]? with
    | none => (old, b, some .illTyped)
    | some kv =>
      match w.fac fac (keyOf kv) with
      | none => (old, b, some .illegalArgument)
      | some .null => (.null, b, some .nullPointer)
      | some (.obj c' fs') => (.obj c' (call c' fs' b).1, (call c' fs' b).2)
      | some v => (v, b, some .illTyped)

/-- Reading consecutive fields. -/
def readFields (w : World) (call : DecCall) (k : Conv) (done : List Val) :
    List WTy → List Val → RBuf → List Val × RBuf × Option JErr
  | t :: ts, old :: olds, b =>
    match readField w call k done t old b with
    | (v, b', none) => readFields w call k (done ++ [v]) ts olds b'
    | (v, b', some e) => (done ++ v :: olds, b', some e)
  | _, olds, b => (done ++ olds, b, none)

/-- Keys of polymorphic fields are read before them; they are numbers or fixed-width texts. -/
def keysOk (i : Nat) (all : List WTy) : List WTy → Bool
  | [] => true
  | .ext _ key :: ts =>
    decide (key < i) && (match all[key]? with | some (.num t) => t == .i16 || t == .i32 | some (.text _ _ _) => true | _ => false)
      && keysOk (i + 1) all ts
  | _ :: ts => keysOk (i + 1) all ts

theorem keysOk_table (c : Cls) : keysOk 0 (wire c) (wire c) = true := by
  cases c <;> decide

theorem set_at (done : List Val) (old v : Val) (olds : List Val) :
    (done ++ old :: olds).set done.length v = done ++ v :: olds := by
  simp

theorem get_at (done : List Val) (old : Val) (olds : List Val) : (done ++ old :: olds)[done.length]? = some old := by
  simp

/-- Append of statement lists. -/
theorem decStmts_append (w : World) (call : DecCall) (tys : List FTy) (xs ys : List DecStmt) (st : DecSt) :
    decStmts w call tys (xs ++ ys) st =
      match decStmts w call tys xs st with
      | (st', none) => decStmts w call tys ys st'
      | (st', some e) => (st', some e) := by
  induction xs generalizing st with
  | nil => rfl
  | cons s ss ih =>
    simp only [List.cons_append, decStmts]
    rcases decStmt w call tys s st with ⟨st', _ | e⟩
    · exact ih st'
    · rfl

theorem readNum_ty {b b' : RBuf} {e : Endian} {t : PTy} {n : Num} (h : b.readNum e t = (b', .ok n)) : n.ty = t := by
  unfold RBuf.readNum at h
  split at h
  · simp only [Prod.mk.injEq, Except.ok.injEq] at h
    rw [← h.2]
    rfl
  · simp at h

theorem assignNum_self (n : Num) : assignNum (.prim n.ty) n = some (.num n) := by
  simp [assignNum]

/-- The statements of one field. -/
theorem decOf_eq (w : World) (call : DecCall) (tys : List FTy) (k : Conv) (done : List Val) (t : WTy) (old : Val)
    (olds : List Val) (b : RBuf) (hty : tys[done.length]? = some t.java)
    (hkey : ∀ fac key, t = .ext fac key → key < done.length) :
    decStmts w call tys (decOf k done.length t) ⟨done ++ old :: olds, b⟩ =
      (⟨done ++ (readField w call k done t old b).1 :: olds, (readField w call k done t old b).2.1⟩,
        (readField w call k done t old b).2.2) := by
  have hnum : ∀ p : PTy, tys[done.length]? = some (.prim p) →
      decStmts w call tys [.num done.length p (ordOf k p)] ⟨done ++ old :: olds, b⟩ =
      (⟨done ++ (readField w call k done (.num p) old b).1 :: olds, (readField w call k done (.num p) old b).2.1⟩,
        (readField w call k done (.num p) old b).2.2) := by
    intro p hp
    simp only [decStmts, decStmt, readField]
    rcases hr : b.readNum (ordOf k p) p with ⟨b', e | n⟩
    · rfl
    · have hn := readNum_ty hr
      subst hn
      simp only [hp, Option.bind_some, assignNum_self, set_at]
  cases t with
  | num p => exact hnum p hty
  | len p => exact hnum p hty
  | cksum p alg => exact hnum p hty
  | text n pad left =>
    simp only [decOf, decStmts, decStmt, readField]
    rcases readFixedString b n pad left with ⟨b', e | s⟩
    · rfl
    · simp only [set_at]
  | vstr =>
    simp only [decOf, decStmts, decStmt, readField]
    rcases readDyn b k.strLen k.order with ⟨b', e | s | s⟩
    · rfl
    · rfl
    · simp only [set_at]
  | list e =>
    simp only [decOf, decStmts, decStmt, readField]
    rcases b.readNum k.order k.listLen with ⟨b', e | n⟩
    · rfl
    · dsimp only
      by_cases h : 0 < n.bits.toInt
      · rw [if_pos h, if_pos h, set_at]
        rcases decElems call (decElOf k e) n.bits.toNat [] b' with ⟨xs, b'', _ | e⟩ <;> rfl
      · rw [if_neg h, if_neg h]
  | sub c =>
    simp only [decOf, decStmts, decStmt, readField, get_at]
    cases old with
    | null =>
      simp only [set_at]
      rcases call c (freshFields c) b with ⟨xs, b'', _ | e⟩ <;> rfl
    | obj c' fs' =>
      simp only [set_at]
      rcases call c' fs' b with ⟨xs, b'', _ | e⟩ <;> rfl
    | _ => rfl
  | ext fac key =>
    have hk := hkey fac key rfl
    have hget : (done ++ old :: olds)[key]? = done[key]? := by
      rw [List.getElem?_append_left hk]
    simp only [decOf, decStmts, decStmt, readField, hget]
    cases hd : done[key]? with
    | none => rfl
    | some kv =>
      dsimp only
      cases hf : w.fac fac (keyOf kv) with
      | none => rfl
      | some v =>
        simp only [set_at, get_at]
        cases v with
        | obj c' fs' =>
          dsimp only
          rcases call c' fs' b with ⟨xs, b'', _ | e⟩ <;> rfl
        | _ => rfl

theorem compileDec_eq (w : World) (call : DecCall) (tys : List FTy) (k : Conv) (all : List WTy) (ts : List WTy) :
    ∀ (done olds : List Val) (b : RBuf), tys.drop done.length = ts.map WTy.java → keysOk done.length all ts = true →
      olds.length = ts.length →
    decStmts w call tys (compileDec k done.length ts) ⟨done ++ olds, b⟩ =
      (⟨(readFields w call k done ts olds b).1, (readFields w call k done ts olds b).2.1⟩,
        (readFields w call k done ts olds b).2.2) := by
  induction ts with
  | nil =>
    intro done olds b _ _ hl
    have : olds = [] := List.length_eq_zero_iff.mp hl
    subst this
    rfl
  | cons t ts ih =>
    intro done olds b hty hkey hl
    cases olds with
    | nil => simp at hl
    | cons old olds =>
      have hty0 : tys[done.length]? = some t.java := by
        have := congrArg List.head? hty
        simpa using this
      have hk0 : ∀ fac key, t = .ext fac key → key < done.length := by
        intro fac key h
        subst h
        simp only [keysOk, Bool.and_eq_true, decide_eq_true_eq] at hkey
        exact hkey.1.1
      have hk1 : keysOk (done.length + 1) all ts = true := by
        cases t <;> simp only [keysOk, Bool.and_eq_true] at hkey
        case ext => exact hkey.2
        all_goals exact hkey
      simp only [compileDec, decStmts_append, decOf_eq w call tys k done t old olds b hty0 hk0, readFields]
      rcases readField w call k done t old b with ⟨v, b', _ | e⟩
      · have := ih (done ++ [v]) olds b' (by
          have h := congrArg List.tail hty
          simpa using h) (by simpa using hk1) (by simpa using hl)
        simpa using this
      · rfl

/-- `decode` reads the fields of the layout one after the other. -/
theorem decode_eq (w : World) (n : Nat) (c : Cls) (fs : List Val) (b : RBuf) (hl : fs.length = (wire c).length) :
    decode w (n + 1) c fs b = readFields w (decode w n) (conv c.mod) [] (wire c) fs b := by
  have := compileDec_eq w (decode w n) (javaTypes c) (conv c.mod) (wire c) (wire c) [] fs b
    (by simpa using type_table c) (by simpa using keysOk_table c) hl
  simp only [decode, dec_table]
  rw [show ((decl c).fields.map fun x => x.2) = javaTypes c from rfl]
  simp only [List.length_nil, List.nil_append] at this
  rw [this]

theorem readFields_prefix (w : World) (call : DecCall) (k : Conv) (ts : List WTy) : ∀ (done olds : List Val) (b : RBuf),
    done <+: (readFields w call k done ts olds b).1 := by
  induction ts with
  | nil => intro done olds b; cases olds <;> simp [readFields]
  | cons t ts ih =>
    intro done olds b
    cases olds with
    | nil => simp [readFields]
    | cons o olds =>
      simp only [readFields]
      rcases readField w call k done t o b with ⟨v, b', _ | e⟩
      · exact (List.prefix_append done [v]).trans (ih (done ++ [v]) olds b')
      · simp

theorem readFields_append (w : World) (call : DecCall) (k : Conv) (ts1 ts2 : List WTy) : ∀ (done olds1 olds2 : List Val) (b : RBuf),
    olds1.length = ts1.length →
    readFields w call k done (ts1 ++ ts2) (olds1 ++ olds2) b =
      match readFields w call k done ts1 olds1 b with
      | (gs, b', none) => readFields w call k gs ts2 olds2 b'
      | (gs, b', some e) => (gs ++ olds2, b', some e) := by
  induction ts1 with
  | nil =>
    intro done olds1 olds2 b h
    have : olds1 = [] := List.length_eq_zero_iff.mp h
    subst this
    simp [readFields]
  | cons t ts ih =>
    intro done olds1 olds2 b h
    cases olds1 with
    | nil => simp at h
    | cons o olds1 =>
      simp only [List.cons_append, readFields]
      rcases readField w call k done t o b with ⟨v, b', _ | e⟩
      · exact ih (done ++ [v]) olds1 olds2 b' (by simpa using h)
      · simp

theorem readFields_length (w : World) (call : DecCall) (k : Conv) (ts : List WTy) : ∀ (done olds : List Val) (b : RBuf),
    (readFields w call k done ts olds b).1.length = done.length + olds.length := by
  induction ts with
  | nil => intro done olds b; cases olds <;> simp [readFields]
  | cons t ts ih =>
    intro done olds b
    cases olds with
    | nil => simp [readFields]
    | cons o olds =>
      simp only [readFields]
      rcases readField w call k done t o b with ⟨v, b', _ | e⟩
      · rw [ih]; simp; omega
      · simp

theorem fieldsHaveType_length : ∀ (ts : List FTy) (fs : List Val), fieldsHaveType ts fs = true → fs.length = ts.length
  | [], [], _ => rfl
  | [], _ :: _, h => by simp [fieldsHaveType] at h
  | _ :: _, [], h => by simp [fieldsHaveType] at h
  | t :: ts, v :: vs, h => by
    simp only [fieldsHaveType, Bool.and_eq_true] at h
    simp [fieldsHaveType_length ts vs h.2]

theorem fields_length (c : Cls) (fs : List Val) (h : fieldsHaveType (javaTypes c) fs = true) :
    fs.length = (wire c).length := by
  rw [fieldsHaveType_length _ _ h, type_table]
  simp

theorem freshFields_length (c : Cls) : (freshFields c).length = (wire c).length := by
  have := congrArg List.length (type_table c)
  simp only [javaTypes, List.length_map] at this
  simpa [freshFields] using this

end FinProto
