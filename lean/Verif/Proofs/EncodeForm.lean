import Verif.Proofs.Compile
import Verif.Proofs.Encode
/-
Helper: `encode` of an object with the right number of fields as a recursion over the fields.
-/
namespace FinProto

/-- What `encode` does with one field: new value of the field, new buffer, exception. -/
def writeField (w : World) (call : EncCall) (k : Conv) (t : WTy) (v : Val) (b : WBuf) : Val × WBuf × Option JErr :=
  match t with
  | .num p => match v with | .num n => (.num n, writeVal b p (ordOf k p) (.num n)) | v => (v, b, some .illTyped)
  | .text n pad left => (v, writeFixedVal b v n pad left)
  | .vstr => (v, writeDynVal b v k.strLen k.strLen k.order)
  | .list e =>
    match v with
    | .null => (.null, writeInt b k.listLen .be 0)
    | .list [] => (.list [], writeInt b k.listLen .be 0)
    | .list (x :: xs) =>
      match writeInt b k.listLen k.order (x :: xs).length with
      | (b', some err) => (.list (x :: xs), b', some err)
      | (b', none) => (.list (encElems call (encElOf k e) (x :: xs) b').1, (encElems call (encElOf k e) (x :: xs) b').2)
    | v => (v, b, some .illTyped)
  | .sub _ => call v b
  | .ext _ _ => match v with | .null => (.null, b, none) | v => call v b
  | .len _ => (v, b, none)
  | .cksum p alg =>
    match (match Registry.getService w.svc alg with | some s => Val.num (.int (s.calcOn b.readable)) | none => v) with
    | .num n => (.num n, writeVal b p k.order (.num n))
    | v' => (v', b, some .illTyped)

/-- The last part of `writeLen`. -/
def patchLen (k : Conv) (lt : PTy) (p q : Nat) (v2 : Val) (b2 : WBuf) : (Val × Val) × WBuf × Option JErr :=
  match (Num.int (BitVec.ofNat 32 b2.wr - BitVec.ofNat 32 q)).convert lt with
  | some m => ((.num (.int (BitVec.ofNat 32 b2.wr - BitVec.ofNat 32 q)), v2), b2.set p (m.bytes k.order))
  | none => ((.num (.int (BitVec.ofNat 32 b2.wr - BitVec.ofNat 32 q)), v2), b2, some .illTyped)

/-- What `encode` does with a length field and the body behind it. -/
def writeLen (call : EncCall) (k : Conv) (lt : PTy) (v v2 : Val) (b : WBuf) : (Val × Val) × WBuf × Option JErr :=
  match writeInt b lt k.order 0 with
  | (b1, some e) => ((v, v2), b1, some e)
  | (b1, none) =>
    match v2 with
    | .null => patchLen k lt b.wr b1.wr .null b1
    | v2 =>
      match call v2 b1 with
      | (v2', b2, some e) => ((v, v2'), b2, some e)
      | (v2', b2, none) => patchLen k lt b.wr b1.wr v2' b2

/-- What `encode` does with consecutive fields. -/
def writeFields (w : World) (call : EncCall) (k : Conv) : List WTy → List Val → WBuf → List Val × WBuf × Option JErr
  | .len lt :: .ext _ _ :: ts, v :: v2 :: vs, b =>
    match writeLen call k lt v v2 b with
    | (r, b', some e) => (r.1 :: r.2 :: vs, b', some e)
    | (r, b', none) => (r.1 :: r.2 :: (writeFields w call k ts vs b').1, (writeFields w call k ts vs b').2)
  | t :: ts, v :: vs, b =>
    match writeField w call k t v b with
    | (v', b', some e) => (v' :: vs, b', some e)
    | (v', b', none) => (v' :: (writeFields w call k ts vs b').1, (writeFields w call k ts vs b').2)
  | _, vs, b => (vs, b, none)

theorem encOf_form (w : World) (call : EncCall) (k : Conv) (t : WTy) (done : List Val) (v : Val) (vs : List Val) (b : WBuf)
    (loc : Nat → Option Nat) :
    encStmts w call (encOf k done.length t) ⟨done ++ v :: vs, b, loc⟩ =
      (⟨done ++ (writeField w call k t v b).1 :: vs, (writeField w call k t v b).2.1, loc⟩, (writeField w call k t v b).2.2) := by
  have hget : (done ++ v :: vs)[done.length]? = some v := by simp
  have hset : ∀ x, (done ++ v :: vs).set done.length x = done ++ x :: vs := by intro x; simp
  cases t with
  | num p =>
    simp only [encOf, encStmts_single, encStmt, hget]
    cases v <;> rfl
  | text n pad left => simp only [encOf, encStmts_single, encStmt, hget]; rfl
  | vstr => simp only [encOf, encStmts_single, encStmt, hget]; rfl
  | list e =>
    simp only [encOf, encStmts_single, encStmt, hget]
    cases v with
    | list xs =>
      cases xs with
      | nil => rfl
      | cons x xs =>
        simp only [writeField]
        rcases writeInt b k.listLen k.order (x :: xs).length with ⟨b', _ | e'⟩
        · simp only [hset]
        · rfl
    | _ => rfl
  | sub c => simp only [encOf, encStmts_single, encStmt, hget, hset]; rfl
  | ext fac key =>
    simp only [encOf, encStmts_single, encStmt, hget]
    cases v <;> first | rfl | (simp only [hset]; rfl)
  | len lt => rfl
  | cksum p alg =>
    simp only [encOf, encStmts, encStmt, writeField]
    cases Registry.getService w.svc alg with
    | none =>
      simp only [hget]
      cases v with
      | num n => simp only; rcases writeVal b p k.order (.num n) with ⟨b', _ | e'⟩ <;> rfl
      | _ => rfl
    | some s =>
      have hg' : ∀ x : Val, (done ++ x :: vs)[done.length]? = some x := by intro x; simp
      simp only [hset, hg']
      rcases writeVal b p k.order (.num (.int (s.calcOn b.readable))) with ⟨b', _ | e'⟩ <;> rfl

theorem patchLen_form (w : World) (call : EncCall) (k : Conv) (lt : PTy) (done : List Val) (v v2 : Val) (vs : List Val) (b : WBuf)
    (loc : Nat → Option Nat) (p q : Nat) (h0 : loc 0 = some p) (h1 : loc 1 = some q) :
    ∃ loc', encStmts w call [.save 2, .setLen done.length 2 1, .patch 0 done.length lt k.order] ⟨done ++ v :: v2 :: vs, b, loc⟩ =
      (⟨done ++ (patchLen k lt p q v2 b).1.1 :: (patchLen k lt p q v2 b).1.2 :: vs, (patchLen k lt p q v2 b).2.1, loc'⟩,
        (patchLen k lt p q v2 b).2.2) := by
  refine ⟨setLoc loc 2 b.wr, ?_⟩
  have hset0 : ∀ y x, (done ++ v :: y :: vs).set done.length x = done ++ x :: y :: vs := by intro y x; simp
  have hg0 : ∀ x y : Val, (done ++ x :: y :: vs)[done.length]? = some x := by intro x y; simp
  have e2 : setLoc loc 2 b.wr 2 = some b.wr := setLoc_same _ _ _
  have e1 : setLoc loc 2 b.wr 1 = some q := setLoc_other _ _ _ _ _ (by decide) h1
  have e0 : setLoc loc 2 b.wr 0 = some p := setLoc_other _ _ _ _ _ (by decide) h0
  simp only [encStmts, encStmt, e2, e1, e0, hset0, hg0, patchLen]
  cases (Num.int (BitVec.ofNat 32 b.wr - BitVec.ofNat 32 q)).convert lt with
  | none => rfl
  | some m => simp only; rcases b.set p (m.bytes k.order) with ⟨b', _ | e⟩ <;> rfl

theorem lenOf_form (w : World) (call : EncCall) (k : Conv) (lt : PTy) (done : List Val) (v v2 : Val) (vs : List Val) (b : WBuf)
    (loc : Nat → Option Nat) :
    ∃ loc', encStmts w call (lenOf k done.length lt) ⟨done ++ v :: v2 :: vs, b, loc⟩ =
      (⟨done ++ (writeLen call k lt v v2 b).1.1 :: (writeLen call k lt v v2 b).1.2 :: vs, (writeLen call k lt v v2 b).2.1, loc'⟩,
        (writeLen call k lt v v2 b).2.2) := by
  have hget : (done ++ v :: v2 :: vs)[done.length + 1]? = some v2 := by simp
  have hset : ∀ x, (done ++ v :: v2 :: vs).set (done.length + 1) x = done ++ v :: x :: vs := by intro x; simp
  have hsplit : lenOf k done.length lt = [.save 0, .zero lt k.order, .save 1] ++ ([.objOpt (done.length + 1)] ++
      [.save 2, .setLen done.length 2 1, .patch 0 done.length lt k.order]) := rfl
  rw [hsplit, encStmts_append]
  have hA : encStmts w call [.save 0, .zero lt k.order, .save 1] ⟨done ++ v :: v2 :: vs, b, loc⟩ =
      (⟨done ++ v :: v2 :: vs, (writeInt b lt k.order 0).1,
        match (writeInt b lt k.order 0).2 with | none => setLoc (setLoc loc 0 b.wr) 1 (writeInt b lt k.order 0).1.wr | some _ => setLoc loc 0 b.wr⟩,
        (writeInt b lt k.order 0).2) := by
    simp only [encStmts, encStmt]
    rcases writeInt b lt k.order 0 with ⟨b1, _ | e⟩ <;> rfl
  rw [hA]
  simp only [writeLen]
  rcases writeInt b lt k.order 0 with ⟨b1, _ | e⟩
  · have l0 : setLoc (setLoc loc 0 b.wr) 1 b1.wr 0 = some b.wr := setLoc_other _ _ _ _ _ (by decide) (setLoc_same _ _ _)
    have l1 : setLoc (setLoc loc 0 b.wr) 1 b1.wr 1 = some b1.wr := setLoc_same _ _ _
    simp only
    rw [encStmts_append, encStmts_single]
    simp only [encStmt, hget]
    cases v2 with
    | null => exact patchLen_form w call k lt done v .null vs b1 _ _ _ l0 l1
    | num | str | list | obj =>
      simp only [hset]
      rcases call _ b1 with ⟨v2', b2, _ | e⟩
      · exact patchLen_form w call k lt done v v2' vs b2 _ _ _ l0 l1
      · exact ⟨_, rfl⟩
  · exact ⟨_, rfl⟩

theorem writeFields_form (w : World) (call : EncCall) (k : Conv) (ts : List WTy) (i : Nat) (done vs : List Val) (b : WBuf)
    (loc : Nat → Option Nat) (hi : done.length = i) (hl : vs.length = ts.length) :
    ∃ loc', encStmts w call (compileEnc k i ts) ⟨done ++ vs, b, loc⟩ =
      (⟨done ++ (writeFields w call k ts vs b).1, (writeFields w call k ts vs b).2.1, loc'⟩, (writeFields w call k ts vs b).2.2) := by
  fun_induction compileEnc k i ts generalizing done vs b loc with
  | case1 i =>
    cases vs with
    | nil => exact ⟨loc, rfl⟩
    | cons v vs => simp at hl
  | case2 i lt fac key ts ih =>
    match vs, hl with
    | v :: v2 :: vs, hl =>
      subst hi
      obtain ⟨loc1, h1⟩ := lenOf_form w call k lt done v v2 vs b loc
      rw [encStmts_append, h1]
      simp only [writeFields]
      rcases writeLen call k lt v v2 b with ⟨⟨r1, r2⟩, b', _ | e⟩
      · simp only
        obtain ⟨loc2, h2⟩ := ih (done ++ [r1, r2]) vs b' loc1 (by simp) (by simpa using hl)
        refine ⟨loc2, ?_⟩
        simpa using h2
      · exact ⟨_, rfl⟩
  | case3 i t ts hne ih =>
    match vs, hl with
    | v :: vs, hl =>
      subst hi
      have h1 := encOf_form w call k t done v vs b loc
      rw [encStmts_append, h1]
      have hw : writeFields w call k (t :: ts) (v :: vs) b =
          match writeField w call k t v b with
          | (v', b', some e) => (v' :: vs, b', some e)
          | (v', b', none) => (v' :: (writeFields w call k ts vs b').1, (writeFields w call k ts vs b').2) := by
        rw [writeFields.eq_2]
        intro lt fac key ts' v2 vs' h1 h2 h3
        exact hne lt fac key ts' h1 h2
      rw [hw]
      rcases writeField w call k t v b with ⟨v', b', _ | e⟩
      · simp only
        obtain ⟨loc2, h2⟩ := ih (done ++ [v']) vs b' loc (by simp) (by simpa using hl)
        exact ⟨loc2, by simpa using h2⟩
      · exact ⟨_, rfl⟩

/-- `encode` of an object with the right number of fields. -/
theorem encode_form (w : World) (n : Nat) (c : Cls) (fs : List Val) (b : WBuf) (hl : fs.length = (wire c).length) :
    encode w (n + 1) (.obj c fs) b =
      (.obj c (writeFields w (encode w n) (conv c.mod) (wire c) fs b).1, (writeFields w (encode w n) (conv c.mod) (wire c) fs b).2) := by
  obtain ⟨loc', h⟩ := writeFields_form w (encode w n) (conv c.mod) (wire c) 0 [] fs b (fun _ => none) rfl hl
  simp only [encode, enc_table]
  simp only [List.nil_append] at h
  rw [h]

end FinProto
