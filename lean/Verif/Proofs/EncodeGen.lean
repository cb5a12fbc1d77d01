import Verif.Proofs.Encode
/-
Helper lemmas about `encode` on arbitrary values: it only appends to the buffer, and a smaller maximum
capacity either changes nothing or leads to an index-out-of-bounds failure.
-/
namespace FinProto

/-- `b'` is `b` with something appended. -/
def Ext (b b' : WBuf) : Prop := b'.rd = b.rd ∧ b'.maxCap = b.maxCap ∧ b.data <+: b'.data

theorem Ext.refl (b : WBuf) : Ext b b := ⟨rfl, rfl, List.prefix_refl _⟩
theorem Ext.trans {a b c : WBuf} (h1 : Ext a b) (h2 : Ext b c) : Ext a c :=
  ⟨h2.1.trans h1.1, h2.2.1.trans h1.2.1, h1.2.2.trans h2.2.2⟩
theorem Ext.len {a b : WBuf} (h : Ext a b) : a.data.length ≤ b.data.length := h.2.2.length_le

/-- The buffer with another maximum capacity. -/
def WBuf.cap (b : WBuf) (M : Nat) : WBuf := { b with maxCap := M }

/-- Outcome `(b', e')` under capacity `M` versus outcome `(b, e)` under a larger one. -/
def Sim (M : Nat) (b : WBuf) (e : Option JErr) (b' : WBuf) (e' : Option JErr) : Prop :=
  (e' = e ∧ b' = b.cap M ∧ b.data.length ≤ M) ∨ (e' = some .indexOutOfBounds ∧ M < b.data.length)

/-- A buffer operation that only appends and behaves well under a smaller capacity. -/
structure Good (f : WBuf → WBuf × Option JErr) : Prop where
  ext : ∀ b, Ext b (f b).1
  sim : ∀ M b, b.data.length ≤ M → M ≤ b.maxCap → Sim M (f b).1 (f b).2 (f (b.cap M)).1 (f (b.cap M)).2

theorem Good.skip : Good fun b => (b, none) :=
  ⟨fun b => Ext.refl b, fun _ _ h1 _ => .inl ⟨rfl, rfl, h1⟩⟩

theorem Good.fail (e : JErr) : Good fun b => (b, some e) :=
  ⟨fun b => Ext.refl b, fun _ _ h1 _ => .inl ⟨rfl, rfl, h1⟩⟩

theorem WBuf.cap_write (b : WBuf) (M : Nat) (bs : List Byte) : (b.cap M).write bs =
    if b.data.length + bs.length ≤ M then ((b.app bs).cap M, none) else (b.cap M, some .indexOutOfBounds) := rfl

theorem WBuf.cap_set (b : WBuf) (M i : Nat) (bs : List Byte) : (b.cap M).set i bs =
    if i + bs.length ≤ b.data.length then (({ b with data := overwrite b.data i bs } : WBuf).cap M, none)
    else (b.cap M, some .indexOutOfBounds) := rfl

theorem Good.write (bs : List Byte) : Good fun b => b.write bs := by
  constructor
  · intro b
    simp only [WBuf.write]
    split
    · exact ⟨rfl, rfl, List.prefix_append _ _⟩
    · exact Ext.refl b
  · intro M b h1 h2
    simp only [WBuf.cap_write]
    simp only [WBuf.write]
    by_cases h : b.data.length + bs.length ≤ M
    · rw [if_pos (by omega), if_pos h]
      exact .inl ⟨rfl, rfl, by simpa using h⟩
    · rw [if_neg h]
      by_cases h' : b.data.length + bs.length ≤ b.maxCap
      · rw [if_pos h']
        exact .inr ⟨rfl, by simp; omega⟩
      · rw [if_neg h']
        exact .inl ⟨rfl, rfl, h1⟩

/-- Sequencing. -/
def seqW (f g : WBuf → WBuf × Option JErr) (b : WBuf) : WBuf × Option JErr :=
  match f b with
  | (b', none) => g b'
  | (b', some e) => (b', some e)

theorem Good.seq {f g : WBuf → WBuf × Option JErr} (hf : Good f) (hg : Good g) : Good (seqW f g) := by
  constructor
  · intro b
    have h := hf.ext b
    simp only [seqW]
    cases hfb : f b with
    | mk b' e =>
      rw [hfb] at h
      cases e with
      | none => exact h.trans (hg.ext b')
      | some e => exact h
  · intro M b h1 h2
    have h := hf.sim M b h1 h2
    have hx := hf.ext b
    simp only [seqW]
    cases hfb : f b with
    | mk b' e =>
      rw [hfb] at h hx
      cases hfb' : f (b.cap M) with
      | mk b'' e' =>
        rw [hfb'] at h
        simp only [Sim] at h
        rcases h with ⟨rfl, rfl, h3⟩ | ⟨rfl, h3⟩
        · cases e' with
          | none => exact hg.sim M b' h3 (by rw [hx.2.1]; exact h2)
          | some e => exact .inl ⟨rfl, rfl, h3⟩
        · cases e with
          | none => exact .inr ⟨rfl, Nat.lt_of_lt_of_le h3 (hg.ext b').len⟩
          | some e => exact .inr ⟨rfl, h3⟩

theorem Good.padChar (n : Nat) (c : JChar) : Good fun b => padChar b n c := by
  induction n with
  | zero => exact Good.skip
  | succ n ih => exact Good.seq (Good.write [c.setWidth 8]) ih

theorem Good.ite {p : Prop} [Decidable p] {f g : WBuf → WBuf × Option JErr} (hf : Good f) (hg : Good g) :
    Good fun b => if p then f b else g b := by
  by_cases h : p
  · simpa [h] using hf
  · simpa [h] using hg

theorem writeFixedString_seq (b : WBuf) (c : JChar) (cs : JStr) (n : Nat) (pad : JChar) (left : Bool) :
    writeFixedString b (some (c :: cs)) n pad left =
      seqW (fun b => if (left && decide (min (utf8Enc (c :: cs)).length n < n)) = true
          then FinProto.padChar b (n - min (utf8Enc (c :: cs)).length n) pad else (b, none))
        (seqW (fun b => b.write ((utf8Enc (c :: cs)).take (min (utf8Enc (c :: cs)).length n)))
          (fun b => if (!left && decide (min (utf8Enc (c :: cs)).length n < n)) = true
            then FinProto.padChar b (n - min (utf8Enc (c :: cs)).length n) pad else (b, none))) b := by
  unfold writeFixedString seqW
  simp only
  split <;> rename_i h1
  · rw [h1]
  · rw [h1]
    simp only
    split <;> rename_i h2 <;> rw [h2]

theorem Good.writeFixedString (v : Option JStr) (n : Nat) (pad : JChar) (left : Bool) :
    Good fun b => writeFixedString b v n pad left := by
  match v with
  | some (c :: cs) =>
    have := funext fun b => writeFixedString_seq b c cs n pad left
    rw [this]
    exact Good.seq (Good.ite (Good.padChar _ _) Good.skip)
      (Good.seq (Good.write _) (Good.ite (Good.padChar _ _) Good.skip))
  | some [] => exact Good.ite (Good.padChar _ _) Good.skip
  | none => exact Good.ite (Good.padChar _ _) Good.skip

theorem Good.writeVal (t : PTy) (e : Endian) (v : Val) : Good fun b => writeVal b t e v := by
  cases v with
  | num n =>
    simp only [FinProto.writeVal]
    cases n.convert t with
    | none => exact Good.fail _
    | some m => exact Good.write _
  | null => exact Good.fail _
  | str | list | obj => exact Good.fail _

theorem Good.writeInt (t : PTy) (e : Endian) (k : Nat) : Good fun b => writeInt b t e k := Good.writeVal _ _ _

theorem Good.writeDyn (zt t : PTy) (e : Endian) (s : Option JStr) : Good fun b => writeDyn b zt t e s := by
  match s with
  | some (c :: cs) =>
    have : (fun b => FinProto.writeDyn b zt t e (some (c :: cs))) =
        seqW (fun b => FinProto.writeInt b t e (utf8Enc (c :: cs)).length) (fun b => b.write (utf8Enc (c :: cs))) := by
      funext b
      simp only [FinProto.writeDyn, seqW]
      cases FinProto.writeInt b t e (utf8Enc (c :: cs)).length with
      | mk b' r => cases r <;> rfl
    rw [this]
    exact Good.seq (Good.writeInt _ _ _) (Good.write _)
  | some [] => exact Good.writeInt _ _ _
  | none => exact Good.writeInt _ _ _

theorem Good.writeFixedVal (v : Val) (n : Nat) (pad : JChar) (left : Bool) : Good fun b => writeFixedVal b v n pad left := by
  simp only [FinProto.writeFixedVal]
  cases v.asStr with
  | none => exact Good.fail _
  | some s => exact Good.writeFixedString _ _ _ _

theorem Good.writeDynVal (v : Val) (zt t : PTy) (e : Endian) : Good fun b => writeDynVal b v zt t e := by
  simp only [FinProto.writeDynVal]
  cases v.asStr with
  | none => exact Good.fail _
  | some s => exact Good.writeDyn _ _ _ _

/-! ### operations that also return a value -/

/-- Like `Good` for operations that also produce a value. -/
structure GoodV {α : Type} (f : WBuf → α × WBuf × Option JErr) : Prop where
  ext : ∀ b, Ext b (f b).2.1
  sim : ∀ M b, b.data.length ≤ M → M ≤ b.maxCap →
    ((f (b.cap M)).1 = (f b).1 ∧ (f (b.cap M)).2.2 = (f b).2.2 ∧ (f (b.cap M)).2.1 = (f b).2.1.cap M ∧
        (f b).2.1.data.length ≤ M) ∨
      ((f (b.cap M)).2.2 = some .indexOutOfBounds ∧ M < (f b).2.1.data.length)

theorem GoodV.of {α : Type} {f : WBuf → WBuf × Option JErr} (hf : Good f) (v : α) : GoodV fun b => (v, f b) := by
  constructor
  · exact hf.ext
  · intro M b h1 h2
    rcases hf.sim M b h1 h2 with ⟨h3, h4, h5⟩ | h3
    · exact .inl ⟨rfl, h3, h4, h5⟩
    · exact .inr h3

/-- Sequencing with values. -/
def bindV {α β : Type} (f : WBuf → α × WBuf × Option JErr) (err : α → β) (g : α → WBuf → β × WBuf × Option JErr)
    (b : WBuf) : β × WBuf × Option JErr :=
  match f b with
  | (a, b', some e) => (err a, b', some e)
  | (a, b', none) => g a b'

theorem GoodV.bind {α β : Type} {f : WBuf → α × WBuf × Option JErr} {err : α → β} {g : α → WBuf → β × WBuf × Option JErr}
    (hf : GoodV f) (hg : ∀ a, GoodV (g a)) : GoodV (bindV f err g) := by
  constructor
  · intro b
    have h := hf.ext b
    simp only [bindV]
    rcases hfb : f b with ⟨a, b', e⟩
    rw [hfb] at h
    cases e with
    | none => exact h.trans ((hg a).ext b')
    | some e => exact h
  · intro M b h1 h2
    have h := hf.sim M b h1 h2
    have hx := hf.ext b
    simp only [bindV]
    rcases hfb : f b with ⟨a, b', e⟩
    rcases hfb' : f (b.cap M) with ⟨a', b'', e'⟩
    rw [hfb] at h hx
    rw [hfb'] at h
    simp only at h hx
    rcases h with ⟨rfl, rfl, rfl, h3⟩ | ⟨rfl, h3⟩
    · cases e' with
      | none => exact (hg a').sim M b' h3 (by rw [hx.2.1]; exact h2)
      | some e => exact .inl ⟨rfl, rfl, rfl, h3⟩
    · cases e with
      | none => exact .inr ⟨rfl, Nat.lt_of_lt_of_le h3 ((hg a).ext b').len⟩
      | some e => exact .inr ⟨rfl, h3⟩

theorem GoodV.map {α β : Type} {f : WBuf → α × WBuf × Option JErr} (hf : GoodV f) (g : α → β) :
    GoodV fun b => (g (f b).1, (f b).2) := by
  constructor
  · exact hf.ext
  · intro M b h1 h2
    rcases hf.sim M b h1 h2 with ⟨h3, h4⟩ | h3
    · exact .inl ⟨congrArg g h3, h4⟩
    · exact .inr h3

theorem GoodV.encElem (call : EncCall) (hc : ∀ v, GoodV (call v)) (el : EncElem) (v : Val) :
    GoodV fun b => encElem call el v b := by
  cases el with
  | num t e => exact GoodV.of (Good.writeVal _ _ _) v
  | fixed n pad left => exact GoodV.of (Good.writeFixedVal _ _ _ _) v
  | dyn zt t e => exact GoodV.of (Good.writeDynVal _ _ _ _) v
  | obj => exact hc v

theorem GoodV.encElems (call : EncCall) (hc : ∀ v, GoodV (call v)) (el : EncElem) (vs : List Val) :
    GoodV fun b => encElems call el vs b := by
  induction vs with
  | nil => exact GoodV.of Good.skip []
  | cons v vs ih =>
    have : (fun b => FinProto.encElems call el (v :: vs) b) =
        bindV (fun b => FinProto.encElem call el v b) (fun v' => v' :: vs)
          (fun v' b => (v' :: (FinProto.encElems call el vs b).1, (FinProto.encElems call el vs b).2)) := by
      funext b
      simp only [FinProto.encElems, bindV]
      rcases FinProto.encElem call el v b with ⟨v', b', e⟩
      cases e <;> rfl
    rw [this]
    exact GoodV.bind (GoodV.encElem call hc el v) (fun v' => ih.map _)

/-! ### statements -/

/-- The state with another maximum capacity. -/
def EncSt.cap (st : EncSt) (M : Nat) : EncSt := { st with buf := st.buf.cap M }

/-- Saved positions lie behind the original content. -/
def LocOk (b0 : WBuf) (st : EncSt) : Prop := Ext b0 st.buf ∧ ∀ x p, st.loc x = some p → b0.data.length ≤ p

/-- Like `Sim`, for statement outcomes. -/
def StSim (M : Nat) (r r' : EncSt × Option JErr) : Prop :=
  (r' = (r.1.cap M, r.2) ∧ r.1.buf.data.length ≤ M) ∨ (r'.2 = some .indexOutOfBounds ∧ M < r.1.buf.data.length)

theorem overwrite_length (d : List Byte) (i : Nat) (bs : List Byte) (h : i + bs.length ≤ d.length) :
    (overwrite d i bs).length = d.length := by
  simp [overwrite]; omega

theorem overwrite_prefix (d0 d : List Byte) (i : Nat) (bs : List Byte) (h : d0 <+: d) (hi : d0.length ≤ i) :
    d0 <+: overwrite d i bs := by
  obtain ⟨r, rfl⟩ := h
  unfold overwrite
  rw [List.take_append]
  rw [List.take_of_length_le hi, List.append_assoc, List.append_assoc]
  exact List.prefix_append _ _

/-- A statement that is a good buffer operation followed by a change of fields. -/
theorem stmt_of_good {α : Type} (b0 : WBuf) (st : EncSt) (f : WBuf → α × WBuf × Option JErr) (hf : GoodV f) (g : α → List Val)
    (M : Nat) (hl : LocOk b0 st) :
    LocOk b0 { st with fs := g (f st.buf).1, buf := (f st.buf).2.1 } ∧
    st.buf.data.length ≤ (f st.buf).2.1.data.length ∧
    (st.buf.data.length ≤ M → M ≤ st.buf.maxCap →
      StSim M ({ st with fs := g (f st.buf).1, buf := (f st.buf).2.1 }, (f st.buf).2.2)
        ({ st.cap M with fs := g (f (st.buf.cap M)).1, buf := (f (st.buf.cap M)).2.1 }, (f (st.buf.cap M)).2.2)) := by
  refine ⟨⟨hl.1.trans (hf.ext _), hl.2⟩, (hf.ext _).len, ?_⟩
  intro h1 h2
  rcases hf.sim M st.buf h1 h2 with ⟨h3, h4, h5, h6⟩ | h3
  · left
    simp only [EncSt.cap]
    rw [h3, h4, h5]
    exact ⟨rfl, h6⟩
  · exact .inr h3

/-- What is shown about one statement. -/
def StmtGood (w : World) (call : EncCall) (s : EncStmt) : Prop :=
  ∀ (b0 : WBuf) (st : EncSt), LocOk b0 st →
    LocOk b0 (encStmt w call s st).1 ∧ st.buf.data.length ≤ (encStmt w call s st).1.buf.data.length ∧
    ∀ M, st.buf.data.length ≤ M → M ≤ st.buf.maxCap →
      StSim M (encStmt w call s st) (encStmt w call s (st.cap M))

theorem stmtGood (w : World) (call : EncCall) (hc : ∀ v, GoodV (call v)) (s : EncStmt) : StmtGood w call s := by
  intro b0 st hl
  have stay : ∀ e, LocOk b0 st ∧ st.buf.data.length ≤ st.buf.data.length ∧
      ∀ M, st.buf.data.length ≤ M → M ≤ st.buf.maxCap → StSim M (st, e) (st.cap M, e) :=
    fun e => ⟨hl, Nat.le_refl _, fun M h1 _ => .inl ⟨rfl, h1⟩⟩
  have capfs : ∀ M, (st.cap M).fs = st.fs := fun _ => rfl
  have caploc : ∀ M, (st.cap M).loc = st.loc := fun _ => rfl
  have simple : ∀ (f : WBuf → WBuf × Option JErr), Good f →
      LocOk b0 { st with buf := (f st.buf).1 } ∧ st.buf.data.length ≤ (f st.buf).1.data.length ∧
      ∀ M, st.buf.data.length ≤ M → M ≤ st.buf.maxCap →
        StSim M ({ st with buf := (f st.buf).1 }, (f st.buf).2)
          ({ st.cap M with buf := (f (st.buf.cap M)).1 }, (f (st.buf.cap M)).2) := by
    intro f hf
    have h := fun M => stmt_of_good b0 st (fun b => (st.fs, f b)) (GoodV.of hf st.fs) id M hl
    exact ⟨(h 0).1, (h 0).2.1, fun M => (h M).2.2⟩
  have valued : ∀ (f : WBuf → Val × WBuf × Option JErr) (i : Nat), GoodV f →
      LocOk b0 { st with fs := st.fs.set i (f st.buf).1, buf := (f st.buf).2.1 } ∧
        st.buf.data.length ≤ (f st.buf).2.1.data.length ∧
      ∀ M, st.buf.data.length ≤ M → M ≤ st.buf.maxCap →
        StSim M ({ st with fs := st.fs.set i (f st.buf).1, buf := (f st.buf).2.1 }, (f st.buf).2.2)
          ({ st.cap M with fs := st.fs.set i (f (st.buf.cap M)).1, buf := (f (st.buf.cap M)).2.1 }, (f (st.buf.cap M)).2.2) := by
    intro f i hf
    have h := fun M => stmt_of_good b0 st f hf (fun v => st.fs.set i v) M hl
    exact ⟨(h 0).1, (h 0).2.1, fun M => (h M).2.2⟩
  cases s with
  | num f t e =>
    simp only [encStmt, capfs]
    split
    · next n _ => exact simple _ (Good.writeVal t e (.num n))
    · exact stay _
  | fixed f n pad left =>
    simp only [encStmt, capfs]
    split
    · next v _ => exact simple _ (Good.writeFixedVal v n pad left)
    · exact stay _
  | dyn f zt t e =>
    simp only [encStmt, capfs]
    split
    · next v _ => exact simple _ (Good.writeDynVal v zt t e)
    · exact stay _
  | list f zt t e el =>
    simp only [encStmt, capfs]
    split
    · exact simple _ (Good.writeInt zt .be 0)
    · exact simple _ (Good.writeInt zt .be 0)
    · next x xs hf =>
      let F := bindV (fun b => ((), writeInt b t e (x :: xs).length)) (fun _ => Val.list (x :: xs))
          (fun _ b => (Val.list (encElems call el (x :: xs) b).1, (encElems call el (x :: xs) b).2))
      have hF : GoodV F := GoodV.bind (GoodV.of (Good.writeInt _ _ _) ()) (fun _ => (GoodV.encElems call hc el _).map _)
      have h := valued F f hF
      have eqn : ∀ s' : EncSt, s'.fs = st.fs → encStmt w call (.list f zt t e el) s' =
          ({ s' with fs := st.fs.set f (F s'.buf).1, buf := (F s'.buf).2.1 }, (F s'.buf).2.2) := by
        intro s' hs'
        simp only [F, bindV, encStmt, hs', hf]
        rcases writeInt s'.buf t e (x :: xs).length with ⟨b'', r⟩
        cases r with
        | none => rfl
        | some err => simp [set_same _ _ _ hf]
      have e1 := eqn st rfl
      have e2 := fun M => eqn (st.cap M) rfl
      simp only [encStmt, hf, capfs] at e1 e2
      rw [e1]
      refine ⟨h.1, h.2.1, fun M => ?_⟩
      rw [e2 M]
      exact h.2.2 M
    · exact stay _
  | obj f =>
    simp only [encStmt, capfs]
    split
    · next v _ => exact valued _ f (hc v)
    · exact stay _
  | objOpt f =>
    simp only [encStmt, capfs]
    split
    · exact stay _
    · next v _ _ => exact valued _ f (hc v)
    · exact stay _
  | save x =>
    simp only [encStmt]
    refine ⟨⟨hl.1, ?_⟩, Nat.le_refl _, fun M h1 _ => .inl ⟨rfl, h1⟩⟩
    intro y p hy
    simp only [setLoc] at hy
    split at hy
    · injection hy with hy
      subst hy
      exact hl.1.len
    · exact hl.2 y p hy
  | zero t e =>
    simp only [encStmt]
    exact simple _ (Good.writeInt t e 0)
  | setLen f x y =>
    simp only [encStmt, caploc]
    split
    · exact ⟨hl, Nat.le_refl _, fun M h1 _ => .inl ⟨rfl, h1⟩⟩
    · exact stay _
  | patch x f t e =>
    simp only [encStmt, caploc, capfs]
    split
    · next p n hx hf =>
      split
      · next m hm =>
        simp only [EncSt.cap, WBuf.cap_set]
        simp only [WBuf.set]
        by_cases h : p + (m.bytes e).length ≤ st.buf.data.length
        · simp only [if_pos h]
          have hlen := overwrite_length st.buf.data p (m.bytes e) h
          refine ⟨⟨⟨hl.1.1, hl.1.2.1, overwrite_prefix _ _ _ _ hl.1.2.2 (hl.2 _ _ hx)⟩, hl.2⟩, by simp [hlen], ?_⟩
          intro M h1 _
          exact .inl ⟨rfl, by simpa [hlen] using h1⟩
        · simp only [if_neg h]
          exact stay _
      · exact stay _
    · exact stay _
  | checksum f alg =>
    simp only [encStmt]
    split
    · refine ⟨hl, Nat.le_refl _, fun M h1 _ => .inl ⟨rfl, h1⟩⟩
    · exact stay _

theorem stmtsGood (w : World) (call : EncCall) (hc : ∀ v, GoodV (call v)) (ss : List EncStmt) (b0 : WBuf) (st : EncSt)
    (hl : LocOk b0 st) :
    LocOk b0 (encStmts w call ss st).1 ∧ st.buf.data.length ≤ (encStmts w call ss st).1.buf.data.length ∧
    ∀ M, st.buf.data.length ≤ M → M ≤ st.buf.maxCap →
      StSim M (encStmts w call ss st) (encStmts w call ss (st.cap M)) := by
  induction ss generalizing st with
  | nil => exact ⟨hl, Nat.le_refl _, fun M h1 _ => .inl ⟨rfl, h1⟩⟩
  | cons s ss ih =>
    obtain ⟨g1, g2, g3⟩ := stmtGood w call hc s b0 st hl
    simp only [encStmts]
    rcases hs : encStmt w call s st with ⟨st', e⟩
    rw [hs] at g1 g2 g3
    cases e with
    | some e =>
      refine ⟨g1, g2, fun M h1 h2 => ?_⟩
      rcases g3 M h1 h2 with ⟨h3, h4⟩ | h3
      · rw [h3]; exact .inl ⟨rfl, h4⟩
      · rcases hs' : encStmt w call s (st.cap M) with ⟨st'', e'⟩
        rw [hs'] at h3
        obtain ⟨rfl, h4⟩ := h3
        exact .inr ⟨rfl, h4⟩
    | none =>
      obtain ⟨k1, k2, k3⟩ := ih st' g1
      refine ⟨k1, Nat.le_trans g2 k2, fun M h1 h2 => ?_⟩
      rcases g3 M h1 h2 with ⟨h3, h4⟩ | h3
      · rw [h3]
        exact k3 M h4 (by
          have := g1.1.2.1
          have := hl.1.2.1
          simp only at *
          omega)
      · rcases hs' : encStmt w call s (st.cap M) with ⟨st'', e'⟩
        rw [hs'] at h3
        obtain ⟨rfl, h4⟩ := h3
        exact .inr ⟨rfl, Nat.lt_of_lt_of_le h4 k2⟩

theorem encode_good (w : World) (n : Nat) (v : Val) : GoodV (encode w n v) := by
  induction n generalizing v with
  | zero =>
    cases v with
    | null => exact GoodV.of (Good.fail _) Val.null
    | num m => exact GoodV.of (Good.fail _) (Val.num m)
    | str s => exact GoodV.of (Good.fail _) (Val.str s)
    | list xs => exact GoodV.of (Good.fail _) (Val.list xs)
    | obj c fs => exact GoodV.of (Good.fail _) (Val.obj c fs)
  | succ n ih =>
    cases v with
    | obj c fs =>
      have h := fun b => stmtsGood w (encode w n) ih (decl c).enc b ⟨fs, b, fun _ => none⟩
        ⟨Ext.refl b, by intro x p h; simp at h⟩
      constructor
      · intro b; exact (h b).1.1
      · intro M b h1 h2
        rcases (h b).2.2 M h1 h2 with ⟨h3, h4⟩ | h3
        · left
          simp only [encode]
          simp only [EncSt.cap] at h3
          rw [h3]
          exact ⟨rfl, rfl, rfl, h4⟩
        · exact .inr h3
    | null => exact GoodV.of (Good.fail _) Val.null
    | num m => exact GoodV.of (Good.fail _) (Val.num m)
    | str s => exact GoodV.of (Good.fail _) (Val.str s)
    | list xs => exact GoodV.of (Good.fail _) (Val.list xs)

end FinProto
