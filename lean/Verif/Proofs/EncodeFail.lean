import Verif.Proofs.EncodeGen
import Verif.Proofs.Settle
/-
Helper lemmas: `encode` of an incomplete object throws, given enough room; and the complete case distinction.
-/
namespace FinProto

/-- The error thrown for a value: a null pointer only if something is missing, a stack overflow only if the nesting
is too deep. -/
def Cause (n : Nat) (comp : Bool) (d : Nat) (e : Option JErr) : Prop :=
  (e = some .nullPointer ∧ comp = false) ∨ (e = some .stackOverflow ∧ n < d)

/-- `call` throws on objects that are incomplete or nested too deeply. -/
def CallBad (n : Nat) (call : EncCall) : Prop :=
  (∀ b, call .null b = (.null, b, some .nullPointer)) ∧
  ∀ c fs (b : WBuf), hasType .codec (.obj c fs) = true → (complete (.obj c fs) = false ∨ n < depth (.obj c fs)) →
    b.rd ≤ b.data.length → b.data.length + (image (.obj c fs)).length ≤ b.maxCap →
    Cause n (complete (.obj c fs)) (depth (.obj c fs)) (call (.obj c fs) b).2.2

theorem Cause.mono {n : Nat} {c c' : Bool} {d d' : Nat} {e : Option JErr} (h : Cause n c d e) (hc : c = false → c' = false)
    (hd : d ≤ d') : Cause n c' d' e := by
  rcases h with ⟨h1, h2⟩ | ⟨h1, h2⟩
  · exact .inl ⟨h1, hc h2⟩
  · exact .inr ⟨h1, by omega⟩

theorem Cause.isSome {n : Nat} {c : Bool} {d : Nat} {e : Option JErr} (h : Cause n c d e) : ∃ x, e = some x := by
  rcases h with ⟨h1, _⟩ | ⟨h1, _⟩ <;> exact ⟨_, h1⟩

theorem encElem_bad (n : Nat) (call : EncCall) (hb : CallBad n call) (k : Conv) (e : EWTy) (v : Val) (b : WBuf)
    (ht : elemHasType e.java v = true) (hbad : completeElem e v = false ∨ n < depth v) (hrd : b.rd ≤ b.data.length)
    (hfit : b.data.length + (imageElem k e v).length ≤ b.maxCap) :
    Cause n (completeElem e v) (depth v) (encElem call (encElOf k e) v b).2.2 := by
  cases v with
  | null =>
    cases e <;> simp [completeElem, depth] at hbad
    · exact .inl ⟨rfl, rfl⟩
    · exact .inl ⟨by simp [encElem, encElOf, hb.1], rfl⟩
  | num | str | list => simp [completeElem, depth, elemHasType] at hbad ht
  | obj c fs =>
    cases e <;> simp [elemHasType, EWTy.java] at ht
    exact hb.2 c fs b (by simp [hasType, ht.2]) hbad hrd hfit

theorem encElems_bad (svc : Registry) (n : Nat) (call : EncCall) (hc : CallOk svc n call) (hb : CallBad n call) (k : Conv)
    (hk : k.strLen.isCount = true) (e : EWTy) (vs : List Val) (b : WBuf)
    (ht : elemsHaveType e.java vs = true) (hbad : completeElems e vs = false ∨ n < depthList vs)
    (hrd : b.rd ≤ b.data.length) (hfit : b.data.length + (imageElems k e vs).length ≤ b.maxCap) :
    Cause n (completeElems e vs) (depthList vs) (encElems call (encElOf k e) vs b).2.2 := by
  induction vs generalizing b with
  | nil => simp [completeElems, depthList] at hbad
  | cons v vs ih =>
    simp only [elemsHaveType, Bool.and_eq_true] at ht
    simp only [imageElems, List.length_append] at hfit
    simp only [completeElems, depthList] at hbad ⊢
    simp only [encElems]
    by_cases h1 : completeElem e v = true ∧ depth v ≤ n
    · have sz : (imageElem k e (settleElem svc b.readable v)).length = (imageElem k e v).length := by
        have F := settleElems_facts svc (depth v) (settle_ih svc _) k e [v] b.readable (by simp [elemsHaveType, ht.1])
          (by simp [depthList])
        have := F.size
        simpa [settleElems, imageElems] using this
      rw [encElem_ok svc n call hc k hk e v b ht.1 h1.1 h1.2 hrd (by omega)]
      simp only
      have R := ih (b.app (imageElem k e (settleElem svc b.readable v))) ht.2 (by
          rcases hbad with h | h
          · left; simpa [h1.1] using h
          · right; omega) (by simp; omega) (by simp; omega)
      exact R.mono (by intro h; simp [h]) (by omega)
    · have hbad1 : completeElem e v = false ∨ n < depth v := by
        by_cases hcv : completeElem e v = true
        · right; exact Nat.lt_of_not_le fun h => h1 ⟨hcv, h⟩
        · left; simpa using hcv
      have B := encElem_bad n call hb k e v b ht.1 hbad1 hrd (by omega)
      obtain ⟨x, hx⟩ := B.isSome
      rcases hr : encElem call (encElOf k e) v b with ⟨v', b', r⟩
      rw [hr] at B hx
      simp only at hx
      subst hx
      simp only
      exact B.mono (by intro h; simp [h]) (by omega)

theorem encField_bad (w : World) (n : Nat) (call : EncCall) (hc : CallOk w.svc n call) (hb : CallBad n call) (k : Conv)
    (hk : k.strLen.isCount = true) (hl : k.listLen.isCount = true) (t : WTy) (i : Nat) (v : Val) (st : EncSt)
    (hi : st.fs[i]? = some v)
    (ht : hasType t.java v = true) (hbad : completeField t v = false ∨ n < depth v)
    (hrd : st.buf.rd ≤ st.buf.data.length)
    (hfit : st.buf.data.length + (imageField k t v).length ≤ st.buf.maxCap) :
    Cause n (completeField t v) (depth v) (encStmts w call (encOf k i t) st).2 := by
  cases v with
  | num | str => simp [completeField, depth] at hbad
  | null =>
    cases t <;> simp [completeField, depth] at hbad
    exact .inl ⟨by simp [encOf, encStmts_single, encStmt, hi, hb.1], rfl⟩
  | list xs =>
    cases t with
    | list e =>
      simp only [hasType, WTy.java] at ht
      simp only [completeField, depth] at hbad ⊢
      cases xs with
      | nil => simp [completeElems, depthList] at hbad
      | cons x xs =>
        simp only [imageField, List.length_append, countImage_length] at hfit
        simp only [encOf, encStmts_single, encStmt, hi]
        rw [writeInt_eq _ _ _ _ hl, WBuf.write_app _ _ (by simp; omega)]
        exact encElems_bad w.svc n call hc hb k hk e (x :: xs) _ ht hbad (by simp; omega) (by simp; omega)
    | _ => simp [hasType, WTy.java] at ht
  | obj c fs =>
    cases t <;> simp [hasType, WTy.java] at ht
    · simp only [encOf, encStmts_single, encStmt, hi]
      exact hb.2 c fs st.buf (by simp [hasType, ht.2]) hbad hrd hfit
    · simp only [encOf, encStmts_single, encStmt, hi]
      exact hb.2 c fs st.buf (by simp [hasType, ht]) hbad hrd hfit

theorem encLen_bad (w : World) (n : Nat) (call : EncCall) (hb : CallBad n call) (k : Conv)
    (fac : Fac) (key : Nat) (i : Nat) (v : Val) (st : EncSt) (hi1 : st.fs[i + 1]? = some v)
    (ht : hasType (WTy.ext fac key).java v = true) (hbad : completeField (.ext fac key) v = false ∨ n < depth v)
    (hrd : st.buf.rd ≤ st.buf.data.length)
    (hfit : st.buf.data.length + (4 + (imageField k (.ext fac key) v).length) ≤ st.buf.maxCap) :
    Cause n (completeField (.ext fac key) v) (depth v) (encStmts w call (lenOf k i .i32) st).2 := by
  have hz : writeInt st.buf .i32 k.order 0 = (st.buf.app (List.replicate 4 0), none) := by
    rw [writeInt_eq _ _ _ _ rfl, toBytes_zero]
    exact WBuf.write_app _ _ (by simp [PTy.size]; omega)
  cases v with
  | null => simp [completeField, depth] at hbad
  | num | str | list => simp [hasType, WTy.java] at ht
  | obj c fs =>
    simp only [hasType, WTy.java, Bool.true_and] at ht
    have B := hb.2 c fs (st.buf.app (List.replicate 4 0)) (by simp [hasType, ht]) hbad (by simp; omega)
      (by simp only [imageField] at hfit; simp [image]; omega)
    obtain ⟨x, hx⟩ := B.isSome
    simp only [lenOf, encStmts, encStmt, hz, hi1, hx]
    rw [hx] at B
    exact B

theorem encFields_bad (w : World) (n : Nat) (call : EncCall) (hc : CallOk w.svc n call) (hb : CallBad n call) (k : Conv)
    (hk : k.strLen.isCount = true) (hl : k.listLen.isCount = true) (ts : List WTy) (i : Nat) (hok : lenOk ts = true)
    (done vs : List Val) (b : WBuf) (loc : Nat → Option Nat) (hi : done.length = i)
    (ht : fieldsHaveType (ts.map WTy.java) vs = true) (hbad : completeFields ts vs = false ∨ n < depthList vs)
    (hrd : b.rd ≤ b.data.length)
    (hfit : b.data.length + (imageFields k ts vs).length ≤ b.maxCap) :
    Cause n (completeFields ts vs) (depthList vs) (encStmts w call (compileEnc k i ts) ⟨done ++ vs, b, loc⟩).2 := by
  revert i done vs b loc
  refine lenOk_induction (P := fun ts => ∀ (i : Nat) (done vs : List Val) (b : WBuf) (loc : Nat → Option Nat),
    done.length = i → fieldsHaveType (ts.map WTy.java) vs = true → (completeFields ts vs = false ∨ n < depthList vs) →
    b.rd ≤ b.data.length → b.data.length + (imageFields k ts vs).length ≤ b.maxCap →
    Cause n (completeFields ts vs) (depthList vs) (encStmts w call (compileEnc k i ts) ⟨done ++ vs, b, loc⟩).2) ?_ ?_ ?_ ts hok
  · intro i done vs b loc hi ht hbad hrd hfit
    cases vs with
    | nil => simp [completeFields, depthList] at hbad
    | cons v vs => simp [fieldsHaveType] at ht
  · intro fac key ts _ ih i done vs b loc hi ht hbad hrd hfit
    rcases vs with _ | ⟨v, _ | ⟨v2, vs⟩⟩
    · simp [fieldsHaveType] at ht
    · simp [fieldsHaveType] at ht
    · simp only [List.map_cons, fieldsHaveType, Bool.and_eq_true] at ht
      have hv : ∃ m : Num, v = .num m ∧ m.ty = .i32 := by
        have := ht.1
        cases v <;> simp [hasType, WTy.java] at this
        exact ⟨_, rfl, this⟩
      obtain ⟨m, rfl, hm⟩ := hv
      have hc1 : completeField (.len .i32) (.num m) = true := rfl
      have hd1 : depth (.num m) = 0 := rfl
      simp only [completeFields, depthList, hc1, hd1, Bool.true_and] at hbad ⊢
      simp only [imageFields, List.length_append] at hfit
      have hm4 : (imageField k (.len .i32) (.num m)).length = 4 := by simp [imageField, hm, PTy.size]
      rw [hm4] at hfit
      simp only [compileEnc, encStmts_append]
      by_cases h1 : completeField (.ext fac key) v2 = true ∧ depth v2 ≤ n
      · have sz := (settleField_facts w.svc (depth v2) (settle_ih w.svc _) k (.ext fac key) v2
          (b.readable ++ List.replicate 4 0) (by intro ct alg; simp) ht.2.1 (Nat.le_refl _)).size
        obtain ⟨loc', hL⟩ := encLen_ok w n call hc k hk hl fac key i v2 ⟨done ++ .num m :: v2 :: vs, b, loc⟩ (by simp; omega)
          (by simp [← hi]) ht.2.1 h1.1 h1.2 hrd _ _ rfl rfl (by simp only; omega)
        rw [hL]
        simp only
        generalize hv' : settleField w.svc k (b.readable ++ List.replicate 4 0) (.ext fac key) v2 = v' at *
        generalize hbody : imageField k (.ext fac key) v' = body at *
        have hfs : ((done ++ .num m :: v2 :: vs).set (i + 1) v').set i (.num (.int (BitVec.ofNat 32 body.length))) =
            done ++ [.num (.int (BitVec.ofNat 32 body.length)), v'] ++ vs := by
          subst hi
          simp
        rw [hfs]
        have R := ih (i + 2) (done ++ [.num (.int (BitVec.ofNat 32 body.length)), v']) vs
          (b.app (countImage k .i32 body.length ++ body)) loc' (by simp; omega) ht.2.2 (by
            rcases hbad with h | h
            · left; simpa [h1.1] using h
            · right; omega) (by simp; omega) (by simp [PTy.size]; omega)
        exact R.mono (by intro h; simp [h]) (by omega)
      · have hbad1 : completeField (.ext fac key) v2 = false ∨ n < depth v2 := by
          by_cases hcv : completeField (.ext fac key) v2 = true
          · right; exact Nat.lt_of_not_le fun h => h1 ⟨hcv, h⟩
          · left; simpa using hcv
        have B := encLen_bad w n call hb k fac key i v2 ⟨done ++ .num m :: v2 :: vs, b, loc⟩ (by simp [← hi]) ht.2.1 hbad1 hrd
          (by simp only; omega)
        obtain ⟨x, hx⟩ := B.isSome
        rcases hr : encStmts w call (lenOf k i .i32) ⟨done ++ .num m :: v2 :: vs, b, loc⟩ with ⟨st', r⟩
        rw [hr] at B hx
        simp only at hx
        subst hx
        exact B.mono (by intro h; simp [h]) (by omega)
  · intro t ts hnl hck _ ih i done vs b loc hi ht hbad hrd hfit
    cases vs with
    | nil => simp [fieldsHaveType] at ht
    | cons v vs =>
      simp only [List.map_cons, fieldsHaveType, Bool.and_eq_true] at ht
      simp only [completeFields, depthList] at hbad ⊢
      simp only [imageFields, List.length_append] at hfit
      have hcomp : compileEnc k i (t :: ts) = encOf k i t ++ compileEnc k (i + 1) ts := by
        cases t <;> first | rfl | exact absurd rfl (hnl _)
      rw [hcomp, encStmts_append]
      by_cases h1 : completeField t v = true ∧ depth v ≤ n
      · have sz := (settleField_facts w.svc (depth v) (settle_ih w.svc _) k t v b.readable hck ht.1 (Nat.le_refl _)).size
        rw [encField_ok w n call hc k hk hl t i v ⟨done ++ v :: vs, b, loc⟩ hnl hck (by simp [← hi]) ht.1 h1.1 h1.2 hrd
          (by simp only; omega)]
        simp only
        generalize settleField w.svc k b.readable t v = v' at *
        have hfs : (done ++ v :: vs).set i v' = done ++ [v'] ++ vs := by subst hi; simp
        rw [hfs]
        have R := ih (i + 1) (done ++ [v']) vs (b.app (imageField k t v')) loc (by simp; omega) ht.2 (by
            rcases hbad with h | h
            · left; simpa [h1.1] using h
            · right; omega) (by simp; omega) (by simp; omega)
        exact R.mono (by intro h; simp [h]) (by omega)
      · have hbad1 : completeField t v = false ∨ n < depth v := by
          by_cases hcv : completeField t v = true
          · right; exact Nat.lt_of_not_le fun h => h1 ⟨hcv, h⟩
          · left; simpa using hcv
        have B := encField_bad w n call hc hb k hk hl t i v ⟨done ++ v :: vs, b, loc⟩ (by simp [← hi]) ht.1 hbad1 hrd
          (by simp only; omega)
        obtain ⟨x, hx⟩ := B.isSome
        rcases hr : encStmts w call (encOf k i t) ⟨done ++ v :: vs, b, loc⟩ with ⟨st', r⟩
        rw [hr] at B hx
        simp only at hx
        subst hx
        exact B.mono (by intro h; simp [h]) (by omega)

theorem encode_callBad (w : World) (n : Nat) : CallBad n (encode w n) := by
  induction n with
  | zero =>
    refine ⟨fun b => rfl, ?_⟩
    intro c fs b ht hbad hrd hfit
    exact .inr ⟨rfl, by simp [depth]⟩
  | succ n ih =>
    refine ⟨fun b => rfl, ?_⟩
    intro c fs b ht hbad hrd hfit
    simp only [encode, enc_table]
    obtain ⟨hk, hl⟩ := conv_counts c.mod
    simp only [hasType, Bool.true_and, type_table] at ht
    simp only [complete, depth] at hbad ⊢
    simp only [image] at hfit
    have := encFields_bad w n (encode w n) (encode_callOk w n) ih (conv c.mod) hk hl (wire c) 0 (lenOk_table c) [] fs b
      (fun _ => none) rfl ht
      (hbad.imp id (by omega)) hrd hfit
    rcases this with h | h
    · exact .inl h
    · exact .inr ⟨h.1, by omega⟩

/-! ### every outcome of `encode` -/

/-- `encode` of a well-typed message into a buffer: success exactly when it is complete, not too deep and fits. -/
theorem encode_cases (w : World) (n : Nat) (v : Val) (b : WBuf) (hv : wellTyped v = true) (hrd : b.rd ≤ b.data.length)
    (hcap : b.data.length ≤ b.maxCap) :
    (complete v = true ∧ depth v ≤ n ∧ b.data.length + (image v).length ≤ b.maxCap ∧
      encode w n v b = (settle w.svc b.readable v, b.app (image (settle w.svc b.readable v)), none)) ∨
    (complete v = true ∧ depth v ≤ n ∧ b.maxCap < b.data.length + (image v).length ∧
      (encode w n v b).2.2 = some .indexOutOfBounds) ∨
    ((complete v = false ∨ n < depth v) ∧
      ((encode w n v b).2.2 = some .indexOutOfBounds ∨ Cause n (complete v) (depth v) (encode w n v b).2.2)) := by
  obtain ⟨c, fs, rfl, ht⟩ := wellTyped_obj v hv
  have hty : hasType .codec (.obj c fs) = true := by simp [hasType, ht]
  have sz := image_settle_length w.svc b.readable (.obj c fs) hv
  let M := b.data.length + (image (.obj c fs)).length + b.maxCap
  have hsim := (encode_good w n (.obj c fs)).sim b.maxCap (b.cap M) hcap (by simp [WBuf.cap, M])
  have hbb : (b.cap M).cap b.maxCap = b := rfl
  rw [hbb] at hsim
  by_cases hg : complete (.obj c fs) = true ∧ depth (.obj c fs) ≤ n
  · obtain ⟨hg1, hg2⟩ := hg
    by_cases hfit : b.data.length + (image (.obj c fs)).length ≤ b.maxCap
    · exact .inl ⟨hg1, hg2, hfit, encode_callOk w n c fs b hty hg1 hg2 hrd (by omega)⟩
    · refine .inr (.inl ⟨hg1, hg2, by omega, ?_⟩)
      have big := encode_callOk w n c fs (b.cap M) hty hg1 hg2 hrd (by
        simp only [WBuf.cap, WBuf.readable] at sz ⊢; omega)
      rw [big] at hsim
      rcases hsim with ⟨_, _, _, h⟩ | ⟨h, _⟩
      · simp only [WBuf.app_data, List.length_append, WBuf.cap, WBuf.readable] at h sz
        omega
      · exact h
  · have hbad : complete (.obj c fs) = false ∨ n < depth (.obj c fs) := by
      by_cases hcv : complete (.obj c fs) = true
      · right; exact Nat.lt_of_not_le fun h => hg ⟨hcv, h⟩
      · left; simpa using hcv
    refine .inr (.inr ⟨hbad, ?_⟩)
    have big := (encode_callBad w n).2 c fs (b.cap M) hty hbad hrd (by simp only [WBuf.cap, M]; omega)
    rcases hsim with ⟨_, h, _, _⟩ | ⟨h, _⟩
    · right; rw [h]; exact big
    · exact .inl h

end FinProto
