import Verif.Proofs.Compile
import Verif.Proofs.BinaryCodec
/-
Helper lemmas: running the `encode` statements of a class appends the image of the settled object.
-/
namespace FinProto

/-- The buffer with bytes appended. -/
def WBuf.app (b : WBuf) (bs : List Byte) : WBuf := { b with data := b.data ++ bs }

@[simp] theorem WBuf.app_nil (b : WBuf) : b.app [] = b := by simp [WBuf.app]
@[simp] theorem WBuf.app_app (b : WBuf) (xs ys : List Byte) : (b.app xs).app ys = b.app (xs ++ ys) := by simp [WBuf.app]
@[simp] theorem WBuf.app_rd (b : WBuf) (xs : List Byte) : (b.app xs).rd = b.rd := rfl
@[simp] theorem WBuf.app_maxCap (b : WBuf) (xs : List Byte) : (b.app xs).maxCap = b.maxCap := rfl
@[simp] theorem WBuf.app_data (b : WBuf) (xs : List Byte) : (b.app xs).data = b.data ++ xs := rfl
theorem WBuf.app_readable (b : WBuf) (xs : List Byte) (h : b.rd ≤ b.data.length) :
    (b.app xs).readable = b.readable ++ xs := by
  simp [WBuf.readable, List.drop_append_of_le_length h]

theorem WBuf.write_app (b : WBuf) (bs : List Byte) (h : b.data.length + bs.length ≤ b.maxCap) :
    b.write bs = (b.app bs, none) := by
  simp [WBuf.write, h, WBuf.app]

/-! ### numbers -/

theorem leBytes_mod (n v : Nat) : leBytes n (v % 256 ^ n) = leBytes n v := by
  have h := leBytes_leVal (leBytes n v)
  rw [leVal_leBytes] at h
  simpa using h

theorem leBytes_mod' (n m v : Nat) (h : n ≤ m) : leBytes n (v % 256 ^ m) = leBytes n v := by
  rw [← leBytes_mod n (v % 256 ^ m), Nat.mod_mod_of_dvd _ (Nat.pow_dvd_pow 256 h), leBytes_mod]

theorem toBytes_mod' (e : Endian) (n m v : Nat) (h : n ≤ m) : toBytes e n (v % 256 ^ m) = toBytes e n v := by
  cases e <;> simp [toBytes, leBytes_mod' n m v h]

theorem leBytes_zero (n : Nat) : leBytes n 0 = List.replicate n 0 := by
  induction n with
  | zero => rfl
  | succ n ih => simp [leBytes, ih, List.replicate_succ]

theorem toBytes_zero (e : Endian) (n : Nat) : toBytes e n 0 = List.replicate n 0 := by
  cases e <;> simp [toBytes, leBytes_zero]

theorem bytes_ordOf (k : Conv) (n : Num) : n.bytes (ordOf k n.ty) = n.bytes k.order := by
  unfold ordOf
  split
  · next h =>
    have : ∀ e, n.bytes e = n.bytes .be := by
      intro e
      cases e
      · rfl
      · simp only [Num.bytes, h, PTy.size, toBytes, leBytes, List.reverse_cons, List.reverse_nil, List.nil_append]
    rw [this k.order]
  · rfl

theorem convert_int_bytes (e : Endian) (t : PTy) (k : Nat) (ht : t.isCount = true) :
    ∃ m, (Num.int (BitVec.ofNat 32 k)).convert t = some m ∧ m.bytes e = toBytes e t.size k := by
  cases t <;> simp [PTy.isCount] at ht
  · refine ⟨⟨.i16, (BitVec.ofNat 32 k).signExtend 16⟩, by rfl, ?_⟩
    simp only [Num.bytes, PTy.size]
    have : ((BitVec.ofNat 32 k).signExtend 16).toNat = k % 256 ^ 4 % 256 ^ 2 := by
      rw [BitVec.signExtend_eq_setWidth_of_le _ (by decide)]
      simp
    refine (congrArg (toBytes e 2) this).trans ?_
    rw [toBytes_mod' e 2 2 _ (Nat.le_refl _), toBytes_mod' e 2 4 _ (by decide)]
  · refine ⟨⟨.i32, BitVec.ofNat 32 k⟩, by rfl, ?_⟩
    simp only [Num.bytes, PTy.size]
    exact toBytes_mod' e 4 4 k (Nat.le_refl _)

theorem writeInt_eq (b : WBuf) (t : PTy) (e : Endian) (k : Nat) (ht : t.isCount = true) :
    writeInt b t e k = b.write (toBytes e t.size k) := by
  obtain ⟨m, h1, h2⟩ := convert_int_bytes e t k ht
  simp only [writeInt, writeVal, h1, h2]

theorem writeInt_zero (b : WBuf) (k : Conv) (t : PTy) (ht : t.isCount = true) :
    writeInt b t .be 0 = b.write (countImage k t 0) := by
  rw [writeInt_eq _ _ _ _ ht]
  simp [countImage, toBytes_zero]

@[simp] theorem countImage_length (k : Conv) (t : PTy) (n : Nat) : (countImage k t n).length = t.size := by
  simp [countImage]

theorem writeVal_num (b : WBuf) (k : Conv) (n : Num) (h : b.data.length + n.ty.size ≤ b.maxCap) :
    writeVal b n.ty (ordOf k n.ty) (.num n) = (b.app (n.bytes k.order), none) := by
  simp only [writeVal, Num.convert_self, bytes_ordOf]
  exact WBuf.write_app _ _ (by simpa using h)

/-! ### text -/

/-- A string reference. -/
def Val.isStr : Val → Bool
  | .null | .str _ => true
  | _ => false

theorem asStr_of_isStr (v : Val) (h : v.isStr = true) : ∃ s, v.asStr = some s ∧ s.getD [] = v.text := by
  cases v <;> simp [Val.isStr] at h
  · exact ⟨none, rfl, rfl⟩
  · exact ⟨some _, rfl, rfl⟩

theorem textImage_length_le (n : Nat) (pad : JChar) (left : Bool) (s : JStr) : (textImage n pad left s).length ≤ n := by
  unfold textImage; split <;> simp [fixedField_length]

theorem writeFixedVal_ok (b : WBuf) (v : Val) (n : Nat) (pad : JChar) (left : Bool) (hv : v.isStr = true)
    (h : b.data.length + (textImage n pad left v.text).length ≤ b.maxCap) :
    writeFixedVal b v n pad left = (b.app (textImage n pad left v.text), none) := by
  obtain ⟨s, h1, h2⟩ := asStr_of_isStr v hv
  simp only [writeFixedVal, h1]
  by_cases hq : left = true ∧ isNullOrEmpty s = true
  · obtain ⟨rfl, hs⟩ := hq
    have : v.text = [] := by
      rw [← h2]
      cases s with
      | none => rfl
      | some s => simpa [isNullOrEmpty] using hs
    rw [writeFixedString_left_empty _ _ _ _ hs]
    simp [this, textImage]
  · have hne : textImage n pad left v.text = fixedField n pad left v.text := by
      rw [← h2]
      unfold textImage
      rw [if_neg]
      intro hc
      apply hq
      simp only [Bool.and_eq_true] at hc
      refine ⟨hc.1, ?_⟩
      cases s with
      | none => rfl
      | some s => simpa [isNullOrEmpty] using hc.2
    rw [hne, fixedField_length] at h
    rw [writeFixedString_fits b s n pad left _ h, hne, h2]
    · rfl
    · cases left
      · exact .inl rfl
      · right
        cases hs : isNullOrEmpty s
        · rfl
        · exact absurd ⟨rfl, hs⟩ hq

theorem writeDynVal_ok (b : WBuf) (k : Conv) (v : Val) (hk : k.strLen.isCount = true) (hv : v.isStr = true)
    (h : b.data.length + (vstrImage k v.text).length ≤ b.maxCap) :
    writeDynVal b v k.strLen k.strLen k.order = (b.app (vstrImage k v.text), none) := by
  simp only [vstrImage, List.length_append, countImage_length] at h
  cases v with
  | num | list | obj => simp [Val.isStr] at hv
  | null =>
    simp only [writeDynVal, Val.asStr, writeDyn, Val.text] at *
    rw [writeInt_zero b k _ hk]
    simp only [vstrImage, utf8Enc_nil, List.length_nil, List.append_nil] at *
    exact WBuf.write_app _ _ (by simp; omega)
  | str s =>
    cases s with
    | nil =>
      simp only [writeDynVal, Val.asStr, writeDyn, Val.text] at *
      rw [writeInt_zero b k _ hk]
      simp only [vstrImage, utf8Enc_nil, List.length_nil, List.append_nil] at *
      exact WBuf.write_app _ _ (by simp; omega)
    | cons c cs =>
      simp only [writeDynVal, Val.asStr, writeDyn, Val.text] at *
      rw [writeInt_eq b _ _ _ hk, WBuf.write_app _ _ (by simp; omega)]
      simp only
      rw [WBuf.write_app _ _ (by simp; omega)]
      simp [vstrImage, countImage]

/-! ### statement sequences -/

theorem encStmts_append (w : World) (call : EncCall) (xs ys : List EncStmt) (st : EncSt) :
    encStmts w call (xs ++ ys) st =
      match encStmts w call xs st with
      | (st', none) => encStmts w call ys st'
      | (st', some e) => (st', some e) := by
  induction xs generalizing st with
  | nil => rfl
  | cons s ss ih =>
    simp only [List.cons_append, encStmts]
    cases hs : encStmt w call s st with
    | mk st' r =>
      cases r with
      | none => exact ih st'
      | some e => rfl

theorem encStmts_single (w : World) (call : EncCall) (s : EncStmt) (st : EncSt) :
    encStmts w call [s] st = encStmt w call s st := by
  simp only [encStmts]
  cases encStmt w call s st with
  | mk st' r => cases r <;> rfl

theorem setLoc_same (loc : Nat → Option Nat) (x v : Nat) : setLoc loc x v x = some v := by simp [setLoc]

theorem setLoc_other (loc : Nat → Option Nat) (x v y z : Nat) (hxy : y ≠ x) (h : loc y = some z) : setLoc loc x v y = some z := by
  simp [setLoc, hxy, h]

theorem set_same {α : Type} (l : List α) (i : Nat) (v : α) (h : l[i]? = some v) : l.set i v = l := by
  apply List.ext_getElem?
  intro j
  rw [List.getElem?_set]
  split
  · next e => subst e; rw [List.getElem?_eq_some_iff] at h; obtain ⟨h1, h2⟩ := h; simp [h1, h2]
  · rfl

/-! ### one field -/

/-- `call` behaves like `encode` on complete objects up to nesting depth `n`. -/
def CallOk (svc : Registry) (n : Nat) (call : EncCall) : Prop :=
  ∀ c fs (b : WBuf), hasType .codec (.obj c fs) = true → complete (.obj c fs) = true → depth (.obj c fs) ≤ n →
    b.rd ≤ b.data.length →
    b.data.length + (image (settle svc b.readable (.obj c fs))).length ≤ b.maxCap →
    call (.obj c fs) b =
      (settle svc b.readable (.obj c fs), b.app (image (settle svc b.readable (.obj c fs))), none)

theorem encElem_ok (svc : Registry) (n : Nat) (call : EncCall) (hc : CallOk svc n call) (k : Conv)
    (hk : k.strLen.isCount = true) (e : EWTy) (v : Val) (b : WBuf)
    (ht : elemHasType e.java v = true) (hcp : completeElem e v = true) (hd : depth v ≤ n) (hrd : b.rd ≤ b.data.length)
    (hfit : b.data.length + (imageElem k e (settleElem svc b.readable v)).length ≤ b.maxCap) :
    encElem call (encElOf k e) v b =
      (settleElem svc b.readable v, b.app (imageElem k e (settleElem svc b.readable v)), none) := by
  cases e with
  | num t =>
    cases v <;> simp [completeElem, elemHasType, EWTy.java] at hcp ht
    subst ht
    simp only [encElem, encElOf, settleElem, imageElem] at *
    rw [writeVal_num _ _ _ (by simpa using hfit)]
  | text m pad left =>
    cases v <;> simp [elemHasType, EWTy.java] at ht
    all_goals
      simp only [encElem, encElOf, settleElem, imageElem] at *
      rw [writeFixedVal_ok _ _ _ _ _ rfl hfit]
  | vstr =>
    cases v <;> simp [elemHasType, EWTy.java] at ht
    all_goals
      simp only [encElem, encElOf, settleElem, imageElem] at *
      rw [writeDynVal_ok _ _ _ hk rfl hfit]
  | sub c =>
    cases v <;> simp [completeElem, elemHasType, EWTy.java] at hcp ht
    next c' fs =>
    simp only [encElem, encElOf]
    exact hc c' fs b (by simp [hasType, ht.2]) hcp hd hrd hfit

theorem encElems_ok (svc : Registry) (n : Nat) (call : EncCall) (hc : CallOk svc n call) (k : Conv)
    (hk : k.strLen.isCount = true) (e : EWTy) (vs : List Val) (b : WBuf)
    (ht : elemsHaveType e.java vs = true) (hcp : completeElems e vs = true) (hd : depthList vs ≤ n)
    (hrd : b.rd ≤ b.data.length)
    (hfit : b.data.length + (imageElems k e (settleElems svc k b.readable e vs)).length ≤ b.maxCap) :
    encElems call (encElOf k e) vs b =
      (settleElems svc k b.readable e vs, b.app (imageElems k e (settleElems svc k b.readable e vs)), none) := by
  induction vs generalizing b with
  | nil => simp [encElems, settleElems, imageElems]
  | cons v vs ih =>
    simp only [elemsHaveType, completeElems, Bool.and_eq_true, depthList] at ht hcp hd
    simp only [settleElems, imageElems, List.length_append] at hfit ⊢
    simp only [encElems]
    rw [encElem_ok svc n call hc k hk e v b ht.1 hcp.1 (by omega) hrd (by omega)]
    simp only
    have hr := WBuf.app_readable b (imageElem k e (settleElem svc b.readable v)) hrd
    rw [ih (b.app (imageElem k e (settleElem svc b.readable v))) ht.2 hcp.2 (by omega) (by simp; omega)
      (by rw [hr]; simp; omega)]
    simp [hr]

theorem settleElems_length (svc : Registry) (k : Conv) (pre : List Byte) (e : EWTy) (vs : List Val) :
    (settleElems svc k pre e vs).length = vs.length := by
  induction vs generalizing pre with
  | nil => rfl
  | cons v vs ih => simp [settleElems, ih]

/-- A field other than a length field. -/
theorem encField_ok (w : World) (n : Nat) (call : EncCall) (hc : CallOk w.svc n call) (k : Conv)
    (hk : k.strLen.isCount = true) (hl : k.listLen.isCount = true) (t : WTy) (i : Nat) (v : Val) (st : EncSt)
    (hlen : ∀ lt, t ≠ .len lt) (hck : ∀ ct alg, t = .cksum ct alg → ct = .i32)
    (hi : st.fs[i]? = some v)
    (ht : hasType t.java v = true) (hcp : completeField t v = true) (hd : depth v ≤ n)
    (hrd : st.buf.rd ≤ st.buf.data.length)
    (hfit : st.buf.data.length + (imageField k t (settleField w.svc k st.buf.readable t v)).length ≤ st.buf.maxCap) :
    encStmts w call (encOf k i t) st =
      ({ st with
          fs := st.fs.set i (settleField w.svc k st.buf.readable t v)
          buf := st.buf.app (imageField k t (settleField w.svc k st.buf.readable t v)) }, none) := by
  have hset := set_same _ _ _ hi
  cases t with
  | len lt => exact absurd rfl (hlen lt)
  | num t =>
    cases v <;> simp [hasType, WTy.java] at ht
    subst ht
    simp only [encOf, encStmts_single, encStmt, hi, settleField, imageField] at *
    rw [writeVal_num _ _ _ (by simpa using hfit)]
    simp [hset]
  | text m pad left =>
    have key : v.isStr = true → settleField w.svc k st.buf.readable (.text m pad left) v = v ∧
        imageField k (.text m pad left) v = textImage m pad left v.text := by
      cases v <;> simp [Val.isStr, settleField, imageField, Val.text]
    have hv : v.isStr = true := by cases v <;> simp [hasType, WTy.java, Val.isStr] at ht ⊢
    rw [(key hv).1, (key hv).2] at hfit ⊢
    simp only [encOf, encStmts_single, encStmt, hi]
    rw [writeFixedVal_ok st.buf v m pad left hv hfit, hset]
  | vstr =>
    have key : v.isStr = true → settleField w.svc k st.buf.readable .vstr v = v ∧
        imageField k .vstr v = vstrImage k v.text := by
      cases v <;> simp [Val.isStr, settleField, imageField, Val.text]
    have hv : v.isStr = true := by cases v <;> simp [hasType, WTy.java, Val.isStr] at ht ⊢
    rw [(key hv).1, (key hv).2] at hfit ⊢
    simp only [encOf, encStmts_single, encStmt, hi]
    rw [writeDynVal_ok st.buf k v hk hv hfit, hset]
  | list e =>
    cases v <;> simp [hasType, WTy.java] at ht
    · simp only [encOf, encStmts_single, encStmt, hi, settleField, imageField] at *
      rw [writeInt_zero _ k _ hl, WBuf.write_app _ _ hfit]
      simp [hset]
    · next xs =>
      cases xs with
      | nil =>
        simp only [encOf, encStmts_single, encStmt, hi, settleField, imageField, settleElems, imageElems, List.length_nil,
          List.append_nil] at *
        rw [writeInt_zero _ k _ hl, WBuf.write_app _ _ hfit]
        simp [hset]
      | cons x xs =>
        simp only [encOf, encStmts_single, encStmt, hi, settleField, imageField, completeField, depth] at *
        rw [settleElems_length] at *
        simp only [List.length_append, countImage_length] at hfit
        rw [writeInt_eq _ _ _ _ hl, WBuf.write_app _ _ (by simp; omega)]
        have hr := WBuf.app_readable st.buf (toBytes k.order k.listLen.size (x :: xs).length) hrd
        simp only
        rw [encElems_ok w.svc n call hc k hk e (x :: xs) _ ht hcp hd (by simp; omega)
          (by rw [hr]; simp only [WBuf.app_data, WBuf.app_maxCap, List.length_append, toBytes_length]
              simp only [countImage] at hfit; omega)]
        simp only [hr, WBuf.app_app, countImage]
  | sub c =>
    cases v <;> simp [hasType, WTy.java, completeField] at ht hcp
    next c' fs =>
    simp only [encOf, encStmts_single, encStmt, hi]
    rw [hc c' fs st.buf (by simp [hasType, ht.2]) hcp hd hrd hfit]
    rfl
  | ext fac key =>
    cases v <;> simp [hasType, WTy.java, completeField] at ht hcp
    · simp [encOf, encStmts_single, encStmt, hi, settleField, imageField, hset]
    · next c' fs =>
      simp only [encOf, encStmts_single, encStmt, hi]
      rw [hc c' fs st.buf (by simp [hasType, ht]) hcp hd hrd hfit]
      rfl
  | cksum ct alg =>
    obtain rfl := hck ct alg rfl
    cases v <;> simp [hasType, WTy.java] at ht
    next m =>
    simp only [encOf, encStmts, encStmt, Registry.getService, settleField] at *
    have hlt : i < st.fs.length := by rw [List.getElem?_eq_some_iff] at hi; exact hi.1
    cases hs : w.svc alg with
    | none =>
      simp only [hs, hi, imageField] at *
      have := writeVal_num st.buf k m (by simpa using hfit)
      rw [ht] at this
      simp only [ordOf, reduceCtorEq, if_false] at this
      simp [this, hset]
    | some s =>
      simp only [hs, hi, imageField] at *
      have := writeVal_num st.buf k (.int (s.calcOn st.buf.readable)) (by simpa using hfit)
      simp only [ordOf, reduceCtorEq, if_false] at this
      simp [this, hlt]

/-! ### all fields -/

/-- A length field together with the body behind it. -/
theorem encLen_ok (w : World) (n : Nat) (call : EncCall) (hc : CallOk w.svc n call) (k : Conv)
    (hk : k.strLen.isCount = true) (hl : k.listLen.isCount = true) (fac : Fac) (key : Nat) (i : Nat) (v : Val) (st : EncSt)
    (hi : i < st.fs.length) (hi1 : st.fs[i + 1]? = some v)
    (ht : hasType (WTy.ext fac key).java v = true) (hcp : completeField (.ext fac key) v = true) (hd : depth v ≤ n)
    (hrd : st.buf.rd ≤ st.buf.data.length) (v' : Val) (body : List Byte)
    (hv' : v' = settleField w.svc k (st.buf.readable ++ List.replicate 4 0) (.ext fac key) v)
    (hbody : body = imageField k (.ext fac key) v')
    (hfit : st.buf.data.length + (4 + body.length) ≤ st.buf.maxCap) :
    ∃ loc', encStmts w call (lenOf k i .i32) st =
      (⟨(st.fs.set (i + 1) v').set i (.num (.int (BitVec.ofNat 32 body.length))),
        st.buf.app (countImage k .i32 body.length ++ body), loc'⟩, none) := by
  have hr := WBuf.app_readable st.buf (List.replicate 4 0) hrd
  have hz : writeInt st.buf .i32 k.order 0 = (st.buf.app (List.replicate 4 0), none) := by
    rw [writeInt_eq _ _ _ _ rfl, toBytes_zero]
    exact WBuf.write_app _ _ (by simp [PTy.size]; omega)
  let loc1 := setLoc st.loc 0 st.buf.data.length
  let loc2 := setLoc loc1 1 (st.buf.data.length + 4)
  let loc3 := setLoc loc2 2 (st.buf.data.length + 4 + body.length)
  have hl0 : loc3 0 = some st.buf.data.length :=
    setLoc_other _ _ _ _ _ (by decide) (setLoc_other _ _ _ _ _ (by decide) (setLoc_same _ _ _))
  have hl1 : loc3 1 = some (st.buf.data.length + 4) :=
    setLoc_other _ _ _ _ _ (by decide) (setLoc_same _ _ _)
  have hl2 : loc3 2 = some (st.buf.data.length + 4 + body.length) := setLoc_same _ _ _
  refine ⟨loc3, ?_⟩
  have hf := encField_ok w n call hc k hk hl (.ext fac key) (i + 1) v
    ⟨st.fs, st.buf.app (List.replicate 4 0), loc2⟩ (by intro lt; simp) (by intro ct alg; simp) hi1 ht hcp hd (by simp; omega)
    (by simp only [hr, ← hv', ← hbody]; simp; omega)
  simp only [hr, ← hv', ← hbody, encOf, encStmts_single] at hf
  have e1 : (st.buf.app (List.replicate 4 0)).wr = st.buf.data.length + 4 := by simp [WBuf.wr]
  have e2 : ((st.buf.app (List.replicate 4 0)).app body).wr = st.buf.data.length + 4 + body.length := by
    simp [WBuf.wr]; omega
  have hdiff : BitVec.ofNat 32 (st.buf.data.length + 4 + body.length) - BitVec.ofNat 32 (st.buf.data.length + 4) =
      BitVec.ofNat 32 body.length := by
    apply BitVec.eq_of_toNat_eq
    simp
    omega
  have hconv := convert_int_bytes k.order .i32 body.length rfl
  obtain ⟨m, hm1, hm2⟩ := hconv
  have hget : ((st.fs.set (i + 1) v').set i (.num (.int (BitVec.ofNat 32 body.length))))[i]? =
      some (.num (.int (BitVec.ofNat 32 body.length))) := by
    rw [List.getElem?_set_self (by simpa using hi)]
  have hset : ((st.buf.app (List.replicate 4 0)).app body).set st.buf.data.length (m.bytes k.order) =
      (st.buf.app (countImage k .i32 body.length ++ body), none) := by
    rw [hm2]
    simp only [WBuf.set, toBytes_length, PTy.size, WBuf.app_data]
    rw [if_pos (by simp)]
    simp [overwrite, WBuf.app, countImage, PTy.size]
  simp only [lenOf, encStmts, encStmt, hz]
  rw [show setLoc (setLoc st.loc 0 st.buf.wr) 1 (st.buf.app (List.replicate 4 0)).wr = loc2 by rw [e1]; rfl]
  simp only [encStmt] at hf
  rw [hf]
  simp only [e2]
  rw [show setLoc loc2 2 (st.buf.data.length + 4 + body.length) = loc3 from rfl]
  simp only [hl0, hl1, hl2, hdiff, hget, hm1, hset]

theorem encFields_ok (w : World) (n : Nat) (call : EncCall) (hc : CallOk w.svc n call) (k : Conv)
    (hk : k.strLen.isCount = true) (hl : k.listLen.isCount = true) (ts : List WTy) (i : Nat) (hok : lenOk ts = true)
    (done vs : List Val) (b : WBuf) (loc : Nat → Option Nat) (hi : done.length = i)
    (ht : fieldsHaveType (ts.map WTy.java) vs = true) (hcp : completeFields ts vs = true) (hd : depthList vs ≤ n)
    (hrd : b.rd ≤ b.data.length)
    (hfit : b.data.length + (imageFields k ts (settleFields w.svc k b.readable ts vs)).length ≤ b.maxCap) :
    ∃ loc', encStmts w call (compileEnc k i ts) ⟨done ++ vs, b, loc⟩ =
      (⟨done ++ settleFields w.svc k b.readable ts vs,
        b.app (imageFields k ts (settleFields w.svc k b.readable ts vs)), loc'⟩, none) := by
  fun_induction compileEnc k i ts generalizing done vs b loc with
  | case1 i =>
    cases vs with
    | nil => exact ⟨loc, by simp [encStmts, settleFields, imageFields]⟩
    | cons v vs => simp [fieldsHaveType] at ht
  | case2 i t fac key ts ih =>
    simp only [lenOk, Bool.and_eq_true, decide_eq_true_eq] at hok
    obtain ⟨rfl, hok⟩ := hok
    cases vs with
    | nil => simp [fieldsHaveType] at ht
    | cons v vs =>
      cases vs with
      | nil => simp [fieldsHaveType] at ht
      | cons v2 vs =>
        simp only [List.map_cons, fieldsHaveType, Bool.and_eq_true] at ht
        simp only [completeFields, Bool.and_eq_true] at hcp
        simp only [depthList] at hd
        simp only [settleFields, PTy.size] at hfit ⊢
        generalize hv' : settleField w.svc k (b.readable ++ List.replicate 4 0) (.ext fac key) v2 = v' at hfit ⊢
        generalize hbody : imageField k (.ext fac key) v' = body at hfit ⊢
        have hnum : imageField k (.len .i32) (.num (.int (BitVec.ofNat 32 body.length))) = countImage k .i32 body.length := by
          simp only [imageField, countImage, Num.bytes, PTy.size]
          exact toBytes_mod' k.order 4 4 body.length (Nat.le_refl _)
        simp only [imageFields, hbody, hnum] at hfit ⊢
        have hr := WBuf.app_readable b (countImage k .i32 body.length ++ body) hrd
        simp only [← List.append_assoc] at hr
        simp only [List.length_append, countImage_length, PTy.size] at hfit
        obtain ⟨loc', hL⟩ := encLen_ok w n call hc k hk hl fac key i v2 ⟨done ++ v :: v2 :: vs, b, loc⟩ (by simp; omega)
          (by simp [← hi]) ht.2.1 hcp.2.1 (by omega) hrd v' body hv'.symm hbody.symm (by simp only; omega)
        obtain ⟨loc'', hF⟩ := ih hok (done ++ [.num (.int (BitVec.ofNat 32 body.length)), v']) vs
          (b.app (countImage k .i32 body.length ++ body)) loc' (by simp; omega) ht.2.2 hcp.2.2 (by omega) (by simp; omega)
          (by rw [hr]; simp only [WBuf.app_data, WBuf.app_maxCap, List.length_append, countImage_length, PTy.size]
              omega)
        refine ⟨loc'', ?_⟩
        rw [encStmts_append, hL]
        have hfs : ((done ++ v :: v2 :: vs).set (i + 1) v').set i (.num (.int (BitVec.ofNat 32 body.length))) =
            done ++ [.num (.int (BitVec.ofNat 32 body.length)), v'] ++ vs := by
          subst hi
          simp
        simp only [hfs, hF]
        simp only [← List.append_assoc] at hF ⊢
        simp only [hr, WBuf.app_app]
        simp
  | case3 i t ts hne ih =>
    cases vs with
    | nil => simp [fieldsHaveType] at ht
    | cons v vs =>
      have hnl : ∀ lt, t ≠ .len lt := by
        rintro lt rfl
        cases ts with
        | nil => simp [lenOk] at hok
        | cons t2 ts2 =>
          cases t2 <;> simp [lenOk] at hok
          exact hne _ _ _ _ rfl rfl
      have hck : (∀ ct alg, t = .cksum ct alg → ct = .i32) ∧ lenOk ts = true := by
        cases t <;> simp [lenOk] at hok ⊢ <;> try exact hok
      simp only [List.map_cons, fieldsHaveType, Bool.and_eq_true] at ht
      simp only [completeFields, Bool.and_eq_true] at hcp
      simp only [depthList] at hd
      have hsf : settleFields w.svc k b.readable (t :: ts) (v :: vs) =
          settleField w.svc k b.readable t v ::
            settleFields w.svc k (b.readable ++ imageField k t (settleField w.svc k b.readable t v)) ts vs := by
        cases t <;> first | rfl | exact absurd rfl (hnl _)
      rw [hsf] at hfit ⊢
      generalize hv' : settleField w.svc k b.readable t v = v' at hfit ⊢
      simp only [imageFields, List.length_append] at hfit ⊢
      have hr := WBuf.app_readable b (imageField k t v') hrd
      have h1 := encField_ok w n call hc k hk hl t i v ⟨done ++ v :: vs, b, loc⟩ hnl hck.1 (by simp [← hi]) ht.1 hcp.1
        (by omega) hrd (by simp only [hv']; omega)
      simp only [hv'] at h1
      obtain ⟨loc', hF⟩ := ih hck.2 (done ++ [v']) vs (b.app (imageField k t v')) loc (by simp; omega) ht.2 hcp.2 (by omega)
        (by simp; omega) (by rw [hr]; simp; omega)
      refine ⟨loc', ?_⟩
      have hfs : (done ++ v :: vs).set i v' = done ++ [v'] ++ vs := by subst hi; simp
      rw [encStmts_append, h1]
      simp only [hfs, hF, hr, WBuf.app_app]
      simp

theorem encode_callOk (w : World) (n : Nat) : CallOk w.svc n (encode w n) := by
  induction n with
  | zero => intro c fs b _ _ hd; simp [depth] at hd
  | succ n ih =>
    intro c fs b ht hcp hd hrd hfit
    simp only [encode, enc_table]
    obtain ⟨hk, hl⟩ := conv_counts c.mod
    simp only [hasType, Bool.true_and, type_table] at ht
    simp only [complete] at hcp
    simp only [depth, Nat.add_le_add_iff_right] at hd
    simp only [settle, image] at hfit ⊢
    obtain ⟨loc', h⟩ := encFields_ok w n (encode w n) ih (conv c.mod) hk hl (wire c) 0 (lenOk_table c) [] fs b (fun _ => none) rfl ht hcp hd
      hrd hfit
    simp only [List.nil_append] at h
    rw [h]

end FinProto
