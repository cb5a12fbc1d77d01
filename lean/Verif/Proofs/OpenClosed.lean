import Verif.Proofs.Open
/-
Helper lemmas: when the application supplies messages of the repository, `oencode`/`odecode` are `encode`/`decode`.
-/
namespace FinProto

/-- Field a statement reads or writes. -/
def EncStmt.avoids (p : Nat) : EncStmt → Bool
  | .num f _ _ | .fixed f _ _ _ | .dyn f _ _ _ | .list f _ _ _ _ | .obj f | .setLen f _ _ | .patch _ f _ _ | .checksum f _ => f != p
  | .objOpt _ => false
  | .save _ | .zero _ _ => true

theorem encStmt_avoids (w : World) (call : EncCall) (p : Nat) (v : Val) (s : EncStmt) (hs : s.avoids p = true) (fs : List Val) (b : WBuf)
    (loc : Nat → Option Nat) :
    encStmt w call s ⟨fs.set p v, b, loc⟩ =
      (⟨(encStmt w call s ⟨fs, b, loc⟩).1.fs.set p v, (encStmt w call s ⟨fs, b, loc⟩).1.buf, (encStmt w call s ⟨fs, b, loc⟩).1.loc⟩,
        (encStmt w call s ⟨fs, b, loc⟩).2) := by
  cases s <;> simp only [EncStmt.avoids, bne_iff_ne, ne_eq, Bool.false_eq_true] at hs
  case num f t e =>
    simp only [encStmt, List.getElem?_set_ne (Ne.symm hs)]
    split <;> rfl
  case fixed f n pad left =>
    simp only [encStmt, List.getElem?_set_ne (Ne.symm hs)]
    split <;> rfl
  case dyn f zt t e =>
    simp only [encStmt, List.getElem?_set_ne (Ne.symm hs)]
    split <;> rfl
  case list f zt t e el =>
    simp only [encStmt, List.getElem?_set_ne (Ne.symm hs)]
    split
    · rfl
    · rfl
    · split
      · rfl
      · simp only [List.set_comm _ _ hs]
    · rfl
  case obj f =>
    simp only [encStmt, List.getElem?_set_ne (Ne.symm hs)]
    split
    · simp only [List.set_comm _ _ hs]
    · rfl
  case save => rfl
  case zero => rfl
  case setLen f x y =>
    simp only [encStmt]
    split
    · simp only [List.set_comm _ _ hs]
    · rfl
  case patch x f t e =>
    simp only [encStmt, List.getElem?_set_ne (Ne.symm hs)]
    split
    · split <;> rfl
    · rfl
  case checksum f alg =>
    simp only [encStmt]
    split
    · simp only [List.set_comm _ _ hs]
    · rfl

/-- The only statement that touches field `p` is `if (null != this.p) this.p.encode(byteBuf)`. -/
def encPartOk (p : Nat) (s : EncStmt) : Bool := s == .objOpt p || s.avoids p

theorem encode_ne_null (w : World) (n : Nat) (v : Val) (b : WBuf) (h : v ≠ .null) : (encode w n v b).1 ≠ .null := by
  cases v with
  | null => exact absurd rfl h
  | _ => cases n <;> simp [encode]

theorem oencStmt_closed (w : World) (n p : Nat) (s : EncStmt) (hs : encPartOk p s = true) (fs : List Val) (part : Option Val) (b : WBuf)
    (loc : Nat → Option Nat) (hp : p < fs.length) (hn : part ≠ some .null) :
    let o := oencStmt (closedApp w n) n s ⟨fs, part, b, loc⟩;
    encStmt w (encode w n) s ⟨fs.set p (part.getD .null), b, loc⟩ =
        (⟨o.1.fs.set p (o.1.part.getD .null), o.1.buf, o.1.loc⟩, o.2.bind fun | .java e => some e | _ => none) ∧
      o.2 = (encStmt w (encode w n) s ⟨fs.set p (part.getD .null), b, loc⟩).2.map .java ∧ o.1.fs.length = fs.length ∧
      o.1.part ≠ some .null := by
  simp only [encPartOk, Bool.or_eq_true, beq_iff_eq] at hs
  rcases hs with rfl | hs
  · cases part with
    | none => simp [oencStmt, encStmt, hp]
    | some v =>
      have hv : v ≠ .null := fun h => hn (by rw [h])
      have hg : (fs.set p v)[p]? = some v := by simp [hp]
      have he := encode_ne_null w n v b hv
      cases v with
      | null => exact absurd rfl hv
      | _ =>
        simp only [oencStmt, encStmt, Option.getD_some, hg, closedApp]
        refine ⟨?_, trivial, trivial, by simpa using he⟩
        rw [List.set_set]
        cases (encode w n _ b).2.2 <;> rfl
  · have h := encStmt_avoids w (encode w n) p (part.getD .null) s hs fs b loc
    have key : (∀ f alg, s = .checksum f alg →
        let o := oencStmt (closedApp w n) n s ⟨fs, part, b, loc⟩;
        o.1 = ⟨(encStmt w (encode w n) s ⟨fs, b, loc⟩).1.fs, part, (encStmt w (encode w n) s ⟨fs, b, loc⟩).1.buf,
          (encStmt w (encode w n) s ⟨fs, b, loc⟩).1.loc⟩ ∧ o.2 = (encStmt w (encode w n) s ⟨fs, b, loc⟩).2.map .java) := by
      rintro f alg rfl
      simp only [oencStmt, encStmt, closedApp]
      cases w.svc.getService alg <;> exact ⟨rfl, rfl⟩
    have key2 : let o := oencStmt (closedApp w n) n s ⟨fs, part, b, loc⟩;
        o.1 = ⟨(encStmt w (encode w n) s ⟨fs, b, loc⟩).1.fs, part, (encStmt w (encode w n) s ⟨fs, b, loc⟩).1.buf,
          (encStmt w (encode w n) s ⟨fs, b, loc⟩).1.loc⟩ ∧ o.2 = (encStmt w (encode w n) s ⟨fs, b, loc⟩).2.map .java := by
      cases s with
      | checksum f alg => exact key f alg rfl
      | objOpt f => simp [EncStmt.avoids] at hs
      | _ => exact ⟨rfl, rfl⟩
    have hlen : (encStmt w (encode w n) s ⟨fs, b, loc⟩).1.fs.length = fs.length := by
      cases s <;> simp only [encStmt] <;> (repeat' split) <;> simp
    obtain ⟨k1, k2⟩ := key2
    dsimp only at k1 k2 ⊢
    rw [k1, k2, h]
    refine ⟨?_, rfl, hlen, hn⟩
    cases (encStmt w (encode w n) s ⟨fs, b, loc⟩).2 <;> rfl

theorem oencStmts_closed (w : World) (n p : Nat) : ∀ (ss : List EncStmt), ss.all (encPartOk p) = true → ∀ (fs : List Val)
    (part : Option Val) (b : WBuf) (loc : Nat → Option Nat), p < fs.length → part ≠ some .null →
    let o := oencStmts (closedApp w n) n ss ⟨fs, part, b, loc⟩;
    let r := encStmts w (encode w n) ss ⟨fs.set p (part.getD .null), b, loc⟩;
    r.1.fs = o.1.fs.set p (o.1.part.getD .null) ∧ r.1.buf = o.1.buf ∧ o.2 = r.2.map .java
  | [], _, fs, part, b, loc, hp, hn => ⟨rfl, rfl, rfl⟩
  | s :: ss, h, fs, part, b, loc, hp, hn => by
    simp only [List.all_cons, Bool.and_eq_true] at h
    have h1 := oencStmt_closed w n p s h.1 fs part b loc hp hn
    simp only [oencStmts, encStmts]
    revert h1
    obtain ⟨o1, o2⟩ := oencStmt (closedApp w n) n s ⟨fs, part, b, loc⟩
    rintro ⟨e1, e2, e3, e4⟩
    dsimp only at e1 e2 e3 e4
    rw [e1] at e2 ⊢
    cases o2 with
    | none =>
      obtain ⟨ofs, opart, obuf, oloc⟩ := o1
      exact oencStmts_closed w n p ss h.2 ofs opart obuf oloc (by rw [e3]; exact hp) e4
    | some t =>
      cases t with
      | java e => exact ⟨rfl, rfl, rfl⟩
      | app k => simp at e2

theorem encParts_table : allCls.all (fun c => match partField c with
    | some p => (decl c).enc.all (encPartOk p) && decide (p < (decl c).fields.length)
    | none => true) = true := by decide +kernel

/-! ### decode -/

/-- The statements that touch field `p` are the two that create and decode the part. -/
def decPartOk (p : Nat) : DecStmt → Bool
  | .num f _ _ | .fixed f _ _ _ | .dyn f _ _ | .list f _ _ _ | .obj f _ => f != p
  | .create f _ key => f == p && key != p
  | .call f => f == p

theorem decStmt_avoids (w : World) (call : DecCall) (tys : List FTy) (p : Nat) (v : Val) (s : DecStmt) (hs : decPartOk p s = true)
    (hc : ∀ f fac key, s ≠ .create f fac key) (hk : ∀ f, s ≠ .call f) (fs : List Val) (b : RBuf) :
    decStmt w call tys s ⟨fs.set p v, b⟩ =
      (⟨(decStmt w call tys s ⟨fs, b⟩).1.fs.set p v, (decStmt w call tys s ⟨fs, b⟩).1.buf⟩, (decStmt w call tys s ⟨fs, b⟩).2) := by
  cases s <;> simp only [decPartOk, bne_iff_ne, ne_eq] at hs
  case num f t e =>
    simp only [decStmt]
    split
    · rfl
    · split
      · simp only [List.set_comm _ _ hs]
      · rfl
  case fixed f n pad left =>
    simp only [decStmt]
    split
    · simp only [List.set_comm _ _ hs]
    · rfl
  case dyn f t e =>
    simp only [decStmt]
    split
    · simp only [List.set_comm _ _ hs]
    · rfl
    · rfl
  case list f t e el =>
    simp only [decStmt]
    split
    · rfl
    · split
      · simp only [List.set_comm _ _ hs]
      · rfl
  case obj f c =>
    simp only [decStmt, List.getElem?_set_ne (Ne.symm hs)]
    split
    · simp only [List.set_comm _ _ hs]
    · simp only [List.set_comm _ _ hs]
    · rfl
  case create f fac key => exact absurd rfl (hc _ _ _)
  case call f => exact absurd rfl (hk _)

/-- Null or a message. -/
def codecVal : Option Val → Prop
  | none => True
  | some (.obj _ _) => True
  | some _ => False

theorem odecStmt_closed (w : World) (n p : Nat) (tys : List FTy) (s : DecStmt) (hs : decPartOk p s = true) (fs : List Val)
    (part : Option Val) (b : RBuf) (hp : p < fs.length) (hn : codecVal part)
    (hw : ∀ f k v, w.fac f k = some v → v = .null ∨ ∃ c fs, v = .obj c fs) :
    let o := odecStmt (closedApp w n) n tys s ⟨fs, part, b⟩;
    let r := decStmt w (decode w n) tys s ⟨fs.set p (part.getD .null), b⟩;
    r.1 = ⟨o.1.fs.set p (o.1.part.getD .null), o.1.buf⟩ ∧ o.2 = r.2.map .java ∧ o.1.fs.length = fs.length ∧ codecVal o.1.part := by
  by_cases hc : ∃ f fac key, s = .create f fac key
  · obtain ⟨f, fac, key, rfl⟩ := hc
    simp only [decPartOk, Bool.and_eq_true, beq_iff_eq, bne_iff_ne] at hs
    obtain ⟨rfl, hk⟩ := hs
    simp only [odecStmt, decStmt, List.getElem?_set_ne (Ne.symm hk)]
    cases fs[key]? with
    | none => exact ⟨rfl, rfl, rfl, hn⟩
    | some k =>
      cases hf : w.fac fac (keyOf k) with
      | none => simp [closedApp, hf, hn]
      | some v =>
        rcases hw _ _ _ hf with rfl | ⟨c, gs, rfl⟩
        · simp [closedApp, hf, codecVal]
        · simp [closedApp, hf, codecVal]
  · by_cases hk : ∃ f, s = .call f
    · obtain ⟨f, rfl⟩ := hk
      simp only [decPartOk, beq_iff_eq] at hs
      subst hs
      cases part with
      | none => simp [odecStmt, decStmt, hp, codecVal]
      | some v =>
        cases v with
        | obj c gs => simp [odecStmt, decStmt, hp, codecVal, closedApp]
        | _ => exact hn.elim
    · have h := decStmt_avoids w (decode w n) tys p (part.getD .null) s hs (fun f fac key h => hc ⟨f, fac, key, h⟩)
        (fun f h => hk ⟨f, h⟩) fs b
      have key2 : odecStmt (closedApp w n) n tys s ⟨fs, part, b⟩ =
          (⟨(decStmt w (decode w n) tys s ⟨fs, b⟩).1.fs, part, (decStmt w (decode w n) tys s ⟨fs, b⟩).1.buf⟩,
            (decStmt w (decode w n) tys s ⟨fs, b⟩).2.map .java) := by
        cases s with
        | create f fac key => exact absurd ⟨_, _, _, rfl⟩ hc
        | call f => exact absurd ⟨_, rfl⟩ hk
        | _ => rfl
      have hlen : (decStmt w (decode w n) tys s ⟨fs, b⟩).1.fs.length = fs.length := by
        cases s <;> simp only [decStmt] <;> (repeat' split) <;> simp
      rw [key2, h]
      exact ⟨rfl, rfl, hlen, hn⟩

theorem odecStmts_closed (w : World) (n p : Nat) (tys : List FTy)
    (hw : ∀ f k v, w.fac f k = some v → v = .null ∨ ∃ c fs, v = .obj c fs) : ∀ (ss : List DecStmt),
    ss.all (decPartOk p) = true → ∀ (fs : List Val) (part : Option Val) (b : RBuf), p < fs.length → codecVal part →
    let o := odecStmts (closedApp w n) n tys ss ⟨fs, part, b⟩;
    let r := decStmts w (decode w n) tys ss ⟨fs.set p (part.getD .null), b⟩;
    r.1.fs = o.1.fs.set p (o.1.part.getD .null) ∧ r.1.buf = o.1.buf ∧ o.2 = r.2.map .java
  | [], _, fs, part, b, hp, hn => ⟨rfl, rfl, rfl⟩
  | s :: ss, h, fs, part, b, hp, hn => by
    simp only [List.all_cons, Bool.and_eq_true] at h
    have h1 := odecStmt_closed w n p tys s h.1 fs part b hp hn hw
    simp only [odecStmts, decStmts]
    revert h1
    obtain ⟨o1, o2⟩ := odecStmt (closedApp w n) n tys s ⟨fs, part, b⟩
    obtain ⟨r1, r2⟩ := decStmt w (decode w n) tys s ⟨fs.set p (part.getD .null), b⟩
    rintro ⟨e1, e2, e3, e4⟩
    dsimp only at e1 e2 e3 e4
    subst e1 e2
    cases r2 with
    | none =>
      obtain ⟨ofs, opart, obuf⟩ := o1
      exact odecStmts_closed w n p tys hw ss h.2 ofs opart obuf (by rw [e3]; exact hp) e4
    | some t => exact ⟨rfl, rfl, rfl⟩

theorem decParts_table : allCls.all (fun c => match partField c with
    | some p => (decl c).dec.all (decPartOk p)
    | none => true) = true := by decide +kernel

end FinProto
