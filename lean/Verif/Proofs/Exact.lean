import Verif.Spec.Everywhere
import Verif.Spec.Suppliers
import Verif.Proofs.RoundTrip
/-
Helper lemmas: if a message is read back unchanged then all its counts fit their prefixes and exactly its image was consumed.
-/
namespace FinProto

/-! ### UTF-8 prefixes -/

theorem utf8Scalar_length_le (u : Nat) : (utf8Scalar u).length ≤ 4 := by
  unfold utf8Scalar
  split
  · simp
  · split
    · simp
    · split <;> simp

theorem utf16Scalar_length_pos (u : Nat) : 0 < (utf16Scalar u).length := by
  unfold utf16Scalar; split <;> simp

theorem scalars_bound (us : List Nat) : (us.flatMap utf8Scalar).length ≤ 4 * (us.flatMap utf16Scalar).length := by
  induction us with
  | nil => simp
  | cons u us ih =>
    have h1 := utf8Scalar_length_le u
    have h2 := utf16Scalar_length_pos u
    simp only [List.flatMap_cons, List.length_append]
    omega

/-- The first `c` bytes of an encoding: whole characters and at most three more bytes. -/
theorem split_scalars (us : List Nat) (c : Nat) (h : c < (us.flatMap utf8Scalar).length) :
    ∃ a b p, us = a ++ b ∧ (us.flatMap utf8Scalar).take c = a.flatMap utf8Scalar ++ p ∧ p.length ≤ 3 := by
  induction us generalizing c with
  | nil => simp at h
  | cons u us ih =>
    by_cases hc : c < (utf8Scalar u).length
    · refine ⟨[], u :: us, (utf8Scalar u).take c, rfl, ?_, ?_⟩
      · simp only [List.flatMap_cons, List.flatMap_nil, List.nil_append]
        rw [List.take_append_of_le_length (by omega)]
      · have := utf8Scalar_length_le u
        simp only [List.length_take]
        omega
    · simp only [List.flatMap_cons, List.length_append] at h
      obtain ⟨a, b, p, h1, h2, h3⟩ := ih (c - (utf8Scalar u).length) (by omega)
      refine ⟨u :: a, b, p, by rw [h1]; rfl, ?_, h3⟩
      simp only [List.flatMap_cons, List.append_assoc]
      rw [List.take_append, List.take_of_length_le (by omega), h2]

theorem sanitize_length (s : JStr) : (sanitize s).length = s.length := by
  unfold sanitize
  fun_induction scalars s with
  | case1 => rfl
  | case2 c =>
    have := c.isLt
    simp only [List.flatMap_cons, List.flatMap_nil, List.append_nil, utf16Scalar]
    rw [if_pos (by split <;> omega)]; rfl
  | case3 c d t h1 h2 ih =>
    simp only [List.flatMap_cons, List.length_append, ih, utf16Scalar]
    rw [if_neg (by omega)]
    simp only [List.length_cons, List.length_nil]
    omega
  | case4 c d t h1 h2 ih =>
    simp only [List.flatMap_cons, List.length_append, ih, utf16Scalar]
    simp only [List.length_cons]
    rw [if_pos (by decide)]
    simp only [List.length_cons, List.length_nil]
    omega
  | case5 c d t h1 ih =>
    have := c.isLt
    simp only [List.flatMap_cons, List.length_append, ih, utf16Scalar]
    rw [if_pos (by split <;> omega)]
    simp only [List.length_cons, List.length_nil]
    omega

/-- Dropping many bytes of the encoding loses characters. -/
theorem utf8Dec_take_ne (s : JStr) (c : Nat) (h : c + 13 ≤ (utf8Enc s).length) : utf8Dec ((utf8Enc s).take c) ≠ s := by
  intro he
  obtain ⟨a, b, p, h1, h2, h3⟩ := split_scalars (scalars s) c (by unfold utf8Enc at h; omega)
  have hl := congrArg List.length he
  have ha : ∀ u ∈ a, isScalar u := fun u hu => scalars_isScalar s u (by rw [h1]; simp [hu])
  have hd : utf8Dec ((utf8Enc s).take c) = a.flatMap utf16Scalar ++ utf8Dec p := by
    rw [utf8Enc, h2]
    exact utf8DecGo_flatMap a ha p
  have hp := utf8Dec_length p
  have hs := sanitize_length s
  rw [hd, List.length_append] at hl
  rw [sanitize, h1, List.flatMap_append, List.length_append] at hs
  have hb := scalars_bound b
  have hlen : (utf8Enc s).length = (a.flatMap utf8Scalar).length + (b.flatMap utf8Scalar).length := by
    rw [utf8Enc, h1, List.flatMap_append, List.length_append]
  have htl := congrArg List.length h2
  rw [List.length_take, List.length_append] at htl
  have : (scalars s).flatMap utf8Scalar = utf8Enc s := rfl
  rw [this] at htl
  omega

/-! ### counts -/

theorem reads_count_any (k : Conv) (t : PTy) (m : Nat) (ht : t.isCount = true) :
    Reads (toReader fun b => b.readNum k.order t) (countImage k t m) (some ⟨t, BitVec.ofNat t.bits m⟩) := by
  have hbytes : (⟨t, BitVec.ofNat t.bits m⟩ : Num).bytes k.order = countImage k t m := by
    simp only [Num.bytes, countImage, BitVec.toNat_ofNat]
    rw [← pow_size]
    exact toBytes_mod' _ _ _ _ (Nat.le_refl _)
  have hord : ordOf k t = k.order := by
    cases t <;> simp [PTy.isCount] at ht <;> rfl
  have := reads_num k ⟨t, BitVec.ofNat t.bits m⟩
  rw [hbytes] at this
  rw [← hord]
  exact this

/-- A positive count that was read is the count that was written, or the latter does not fit and is larger by at least 2^16. -/
theorem count_pos (t : PTy) (m : Nat) (ht : t.isCount = true) (h : 0 < (BitVec.ofNat t.bits m).toInt) :
    ((BitVec.ofNat t.bits m).toNat = m ∧ countFits t m) ∨ (BitVec.ofNat t.bits m).toNat + 65536 ≤ m := by
  have e : (BitVec.ofNat t.bits m).toNat = m % 2 ^ t.bits := BitVec.toNat_ofNat ..
  have h' : 2 * (m % 2 ^ t.bits) < 2 ^ t.bits ∧ 0 < m % 2 ^ t.bits := by
    have hlt : m % 2 ^ t.bits < 2 ^ t.bits := Nat.mod_lt _ (Nat.pow_pos (by decide))
    rw [BitVec.toInt_eq_toNat_cond, e] at h
    by_cases hc : 2 * (m % 2 ^ t.bits) < 2 ^ t.bits
    · rw [if_pos hc] at h; omega
    · rw [if_neg hc] at h; omega
  clear h
  rw [e]
  unfold countFits
  cases t <;> simp [PTy.isCount] at ht
  · simp only [PTy.bits, PTy.size] at h' ⊢
    simp only [Nat.reduceMul, Nat.reducePow, Nat.reduceSub] at h' ⊢
    omega
  · simp only [PTy.bits, PTy.size] at h' ⊢
    simp only [Nat.reduceMul, Nat.reducePow, Nat.reduceSub] at h' ⊢
    omega

/-! ### fields -/

/-- The value read where `v` was written is `v`, and exactly the image of `v` was consumed. -/
def Got (X : List Byte) (pre post sp : List Byte) (b' : RBuf) : Prop := b' = ⟨pre ++ X ++ post, sp, pre.length + X.length⟩

/-- If the call returns the fields that were written, then their counts fit and it consumed exactly their image. -/
def CallExact (call : DecCall) : Prop :=
  ∀ c fs pre post sp b', fieldsHaveType (javaTypes c) fs = true → everyFields leftFilled (conv c.mod) (wire c) fs →
    call c (freshFields c) ⟨pre ++ imageFields (conv c.mod) (wire c) fs ++ post, sp, pre.length⟩ = (fs, b', none) →
    everyFields fitsPrefix (conv c.mod) (wire c) fs ∧ Got (imageFields (conv c.mod) (wire c) fs) pre post sp b'

theorem exact_dyn (k : Conv) (hk : k.strLen.isCount = true) (s : JStr) (pre post sp : List Byte) (b' : RBuf)
    (h : readDyn ⟨pre ++ vstrImage k s ++ post, sp, pre.length⟩ k.strLen k.order = (b', .ok (some s))) :
    countFits k.strLen (utf8Enc s).length ∧ Got (vstrImage k s) pre post sp b' := by
  have hc := reads_count_any k k.strLen (utf8Enc s).length hk pre (utf8Enc s ++ post) sp
  simp only [toReader] at hc
  simp only [readDyn, vstrImage, List.append_assoc] at h
  rw [List.append_assoc] at hc
  revert hc h
  rcases RBuf.readNum ⟨pre ++ (countImage k k.strLen (utf8Enc s).length ++ (utf8Enc s ++ post)), sp, pre.length⟩ k.order k.strLen
    with ⟨b1, e | n⟩
  · intro hc h; simp at hc
  · intro hc h
    simp only [Prod.mk.injEq, Option.some.injEq, and_true] at hc
    obtain ⟨rfl, rfl⟩ := hc
    dsimp only at h
    by_cases hp : 0 < (BitVec.ofNat k.strLen.bits (utf8Enc s).length).toInt
    · rw [if_pos hp] at h
      have hle : (BitVec.ofNat k.strLen.bits (utf8Enc s).length).toNat ≤ (utf8Enc s).length := by
        rw [BitVec.toNat_ofNat]; exact Nat.mod_le _ _
      rw [readText_within _ _ (by simp only [List.length_append]; omega)] at h
      simp only [Prod.mk.injEq, Except.ok.injEq, Option.some.injEq] at h
      obtain ⟨h1, h2⟩ := h
      have h2' : utf8Dec ((utf8Enc s).take (BitVec.ofNat k.strLen.bits (utf8Enc s).length).toNat) = s := by
        refine Eq.trans (congrArg utf8Dec ?_) h2
        simp only [← List.append_assoc]
        rw [List.append_assoc, ← List.length_append, List.drop_left, List.take_append_of_le_length hle]
      rcases count_pos _ _ hk hp with ⟨h3, h4⟩ | h3
      · refine ⟨h4, ?_⟩
        rw [← h1, h3]
        simp only [Got, vstrImage, List.append_assoc, List.length_append, RBuf.mk.injEq, true_and, countImage_length]
        omega
      · exact absurd h2' (utf8Dec_take_ne s _ (by omega))
    · rw [if_neg hp] at h
      simp at h

theorem imageElem_eq (k : Conv) (e : EWTy) (v : Val) (h : elemHasType e.java v = true) : imageElem k e v = imageField k e.toWTy v := by
  cases v <;> cases e <;> first | rfl | simp [elemHasType] at h

theorem everyElem_eq (P : Conv → WTy → Val → Prop) (k : Conv) (e : EWTy) (v : Val) (h : elemHasType e.java v = true) :
    everyElem P k e v ↔ everyField P k e.toWTy v := by
  cases v <;> first | exact Iff.rfl | simp [elemHasType] at h

theorem elemHasType_eq (e : EWTy) (v : Val) (h : elemHasType e.java v = true) (hn : v ≠ .null) : hasType e.toWTy.java v = true := by
  cases v with
  | null => exact absurd rfl hn
  | num n => cases e <;> simp_all [elemHasType, EWTy.java, hasType, EWTy.toWTy, WTy.java]
  | str s => cases e <;> simp_all [elemHasType, EWTy.java, hasType, EWTy.toWTy, WTy.java]
  | list xs => simp [elemHasType] at h
  | obj c fs =>
    cases e <;> simp only [elemHasType, EWTy.java, Bool.false_and, Bool.and_eq_true, Bool.false_eq_true, decide_eq_true_eq] at h
    simp only [hasType, EWTy.toWTy, WTy.java, h.1, decide_true, Bool.true_and]
    rw [← h.1]; exact h.2

/-- Reading a list element that is added is reading a field that holds null. -/
theorem decElem_readField (w : World) (call : DecCall) (k : Conv) (e : EWTy) (b b' : RBuf) (v : Val)
    (h : decElem call (decElOf k e) b = (b', .ok (some v))) :
    readField w call k [] e.toWTy .null b = (v, b', none) ∧ v ≠ .null := by
  cases e with
  | num p =>
    simp only [decElem, decElOf] at h
    simp only [readField, EWTy.toWTy]
    revert h
    rcases b.readNum (ordOf k p) p with ⟨b1, e | n⟩ <;> intro h <;> simp at h
    obtain ⟨rfl, rfl⟩ := h
    exact ⟨rfl, by simp⟩
  | text n pad left =>
    simp only [decElem, decElOf] at h
    simp only [readField, EWTy.toWTy]
    revert h
    rcases readFixedString b n pad left with ⟨b1, e | n⟩ <;> intro h <;> simp at h
    obtain ⟨rfl, rfl⟩ := h
    exact ⟨rfl, by simp⟩
  | vstr =>
    simp only [decElem, decElOf] at h
    simp only [readField, EWTy.toWTy]
    revert h
    rcases readDyn b k.strLen k.order with ⟨b1, e | _ | s⟩ <;> intro h <;> simp at h
    obtain ⟨rfl, rfl⟩ := h
    exact ⟨rfl, by simp⟩
  | sub c =>
    simp only [decElem, decElOf] at h
    simp only [readField, EWTy.toWTy]
    revert h
    rcases call c (freshFields c) b with ⟨fs, b1, _ | e⟩ <;> intro h <;> simp at h
    obtain ⟨rfl, rfl⟩ := h
    exact ⟨rfl, by simp⟩

/-- At most one element per iteration. -/
theorem decElems_length (call : DecCall) (el : DecElem) (n : Nat) (acc : List Val) (b : RBuf) :
    (decElems call el n acc b).1.length ≤ acc.length + n ∧ acc <+: (decElems call el n acc b).1 := by
  induction n generalizing acc b with
  | zero => exact ⟨by simp [decElems], by simp [decElems]⟩
  | succ n ih =>
    simp only [decElems]
    rcases decElem call el b with ⟨b', e | _ | v⟩
    · exact ⟨by simp, by simp⟩
    · have := ih acc b'
      exact ⟨Nat.le_trans this.1 (by omega), this.2⟩
    · have := ih (acc ++ [v]) b'
      refine ⟨Nat.le_trans this.1 (by simp; omega), ?_⟩
      exact (List.prefix_append acc [v]).trans this.2

/-- One field of any kind except lists; `old` is the value in a new object, or null. -/
theorem exact_plain (w : World) (hw : FreshSuppliers w) (call : DecCall) (hc : CallExact call) (k : Conv) (hk : k.strLen.isCount = true)
    (done : List Val) (t : WTy) (hl : ∀ e, t ≠ .list e) (v old : Val) (hold : old = .null ∨ t.java.default = old)
    (pre post sp : List Byte) (b' : RBuf)
    (ht : hasType t.java v = true) (hf : everyField leftFilled k t v)
    (h : readField w call k done t old ⟨pre ++ imageField k t v ++ post, sp, pre.length⟩ = (v, b', none)) :
    everyField fitsPrefix k t v ∧ Got (imageField k t v) pre post sp b' := by
  have hnum : ∀ (p : PTy) (m : Num), m.ty = p →
      (match RBuf.readNum ⟨pre ++ m.bytes k.order ++ post, sp, pre.length⟩ (ordOf k p) p with
        | (b', .ok n) => (.num n, b', none)
        | (b', .error e) => (old, b', some e)) = (Val.num m, b', (none : Option JErr)) → Got (m.bytes k.order) pre post sp b' := by
    intro p m hp h
    subst hp
    have := reads_num k m pre post sp
    simp only [toReader] at this
    revert this h
    rcases RBuf.readNum ⟨pre ++ m.bytes k.order ++ post, sp, pre.length⟩ (ordOf k m.ty) m.ty with ⟨b1, e | n⟩ <;> intro h1 h2
    · simp at h2
    · simp only [Prod.mk.injEq, Option.some.injEq, and_true] at h1 h2
      unfold Got
      rw [← h1.2]; exact h2.2
  cases t with
  | num p =>
    cases v <;> simp [WTy.java, hasType] at ht
    exact ⟨trivial, hnum p _ ht h⟩
  | len p =>
    cases v <;> simp [WTy.java, hasType] at ht
    exact ⟨trivial, hnum p _ ht h⟩
  | cksum p alg =>
    cases v <;> simp [WTy.java, hasType] at ht
    exact ⟨trivial, hnum p _ ht h⟩
  | text n pad left =>
    cases v with
    | str s =>
      have hs : left = true → s ≠ [] := by
        intro hl
        subst hl
        exact hf
      have := reads_fixed n pad left s hs pre post sp
      simp only [toReader] at this
      simp only [readField, imageField] at h
      revert this h
      rcases readFixedString ⟨pre ++ textImage n pad left s ++ post, sp, pre.length⟩ n pad left with ⟨b1, e | x⟩ <;> intro h1 h2
      · simp at h2
      · simp only [Prod.mk.injEq, Option.some.injEq, and_true] at h1 h2
        refine ⟨trivial, ?_⟩
        unfold Got
        rw [← h1.2]; exact h2.2
    | null =>
      simp only [readField, imageField] at h
      revert h
      rcases readFixedString _ n pad left with ⟨b1, e | x⟩ <;> intro h <;> simp at h
    | _ => simp [WTy.java, hasType] at ht
  | vstr =>
    have hold' : old = .null := by rcases hold with h | h; exact h; exact h.symm
    subst hold'
    cases v with
    | str s =>
      simp only [readField, imageField] at h
      have hx : readDyn ⟨pre ++ vstrImage k s ++ post, sp, pre.length⟩ k.strLen k.order = (b', .ok (some s)) := by
        revert h
        rcases readDyn ⟨pre ++ vstrImage k s ++ post, sp, pre.length⟩ k.strLen k.order with ⟨b1, e | _ | x⟩ <;> intro h <;> simp at h
        obtain ⟨rfl, rfl⟩ := h
        rfl
      exact exact_dyn k hk s pre post sp b' hx
    | null =>
      simp only [readField, imageField] at h
      have hx := reads_dyn k [] hk (Nat.pow_pos (by decide)) pre post sp
      simp only [toReader] at hx
      refine ⟨trivial, ?_⟩
      revert hx h
      rcases readDyn ⟨pre ++ vstrImage k [] ++ post, sp, pre.length⟩ k.strLen k.order with ⟨b1, e | _ | x⟩ <;> intro h1 h2
      · simp at h2
      · simp only [Prod.mk.injEq, and_true] at h1 h2
        unfold Got
        simp only [imageField]
        rw [← h1.2]; exact h2.2
      · simp at h2
    | _ => simp [WTy.java, hasType] at ht
  | list e => exact absurd rfl (hl e)
  | sub c =>
    have hold' : old = .null := by rcases hold with h | h; exact h; exact h.symm
    subst hold'
    cases v with
    | obj c' fs =>
      simp only [WTy.java, hasType, Bool.and_eq_true, decide_eq_true_eq] at ht
      obtain ⟨rfl, ht⟩ := ht
      simp only [readField, imageField, Prod.mk.injEq, Val.obj.injEq, true_and] at h
      exact ⟨⟨trivial, (hc c' fs pre post sp b' ht hf.2 (Prod.ext h.1 h.2)).1⟩,
        (hc c' fs pre post sp b' ht hf.2 (Prod.ext h.1 h.2)).2⟩
    | null => simp [readField] at h
    | _ => simp [WTy.java, hasType] at ht
  | ext fac key =>
    have hold' : old = .null := by rcases hold with h | h; exact h; exact h.symm
    subst hold'
    simp only [readField] at h
    revert h
    cases done[key]? with
    | none => intro h; simp at h
    | some kv =>
      dsimp only
      cases hfac : w.fac fac (keyOf kv) with
      | none => intro h; simp at h
      | some x =>
        obtain ⟨c', rfl⟩ := hw _ _ _ hfac
        intro h
        simp only [fresh] at h
        cases v with
        | obj c2 fs =>
          simp only [imageField, Prod.mk.injEq, Val.obj.injEq] at h
          obtain ⟨⟨rfl, h1⟩, h2⟩ := h
          simp only [WTy.java, hasType, Bool.and_eq_true] at ht
          have := hc c' fs pre post sp b' ht.2 hf.2 (Prod.ext h1 h2)
          exact ⟨⟨trivial, this.1⟩, this.2⟩
        | _ => simp at h

theorem exact_elems (w : World) (hw : FreshSuppliers w) (call : DecCall) (hc : CallExact call) (k : Conv) (hk : k.strLen.isCount = true)
    (e : EWTy) (xs : List Val) : ∀ (n : Nat) (acc : List Val) (pre post sp : List Byte) (b' : RBuf),
      elemsHaveType e.java xs = true → everyElems leftFilled k e xs → n ≤ xs.length →
      decElems call (decElOf k e) n acc ⟨pre ++ imageElems k e xs ++ post, sp, pre.length⟩ = (acc ++ xs, b', none) →
      n = xs.length ∧ everyElems fitsPrefix k e xs ∧ Got (imageElems k e xs) pre post sp b' := by
  induction xs with
  | nil =>
    intro n acc pre post sp b' _ _ hn h
    have : n = 0 := by simpa using hn
    subst this
    simp only [decElems, Prod.mk.injEq, and_true] at h
    refine ⟨rfl, trivial, ?_⟩
    rw [Got, ← h.2]
    simp [imageElems]
  | cons v vs ih =>
    intro n acc pre post sp b' ht hf hn h
    simp only [elemsHaveType, Bool.and_eq_true] at ht
    simp only [everyElems] at hf
    cases n with
    | zero => simp [decElems] at h
    | succ n =>
      simp only [decElems, imageElems] at h
      simp only [List.length_cons] at hn
      have hassoc : pre ++ (imageElem k e v ++ imageElems k e vs) ++ post = pre ++ imageElem k e v ++ (imageElems k e vs ++ post) := by simp
      rw [hassoc] at h
      revert h
      rcases hd : decElem call (decElOf k e) ⟨pre ++ imageElem k e v ++ (imageElems k e vs ++ post), sp, pre.length⟩ with ⟨b1, e1 | _ | v'⟩
      · intro h; simp at h
      · intro h
        dsimp only at h
        have := (decElems_length call (decElOf k e) n acc b1).1
        rw [h] at this
        simp at this
        omega
      · intro h
        dsimp only at h
        have hp := (decElems_length call (decElOf k e) n (acc ++ [v']) b1).2
        rw [h] at hp
        have hv : v' = v := by
          obtain ⟨t, ht⟩ := hp
          simp only [List.append_assoc, List.cons_append, List.nil_append] at ht
          have := List.append_cancel_left ht
          simp only [List.cons.injEq] at this
          exact this.1
        subst hv
        obtain ⟨hr, hnn⟩ := decElem_readField w call k e _ b1 v' hd
        rw [imageElem_eq k e v' ht.1] at hr
        have h1 := exact_plain w hw call hc k hk [] e.toWTy (by cases e <;> simp [EWTy.toWTy]) v' .null (.inl rfl) pre
          (imageElems k e vs ++ post) sp b1 (elemHasType_eq e v' ht.1 hnn) ((everyElem_eq _ k e v' ht.1).mp hf.1) hr
        have hb := h1.2
        rw [Got] at hb
        rw [hb, ← imageElem_eq k e v' ht.1, ← List.append_assoc, ← List.length_append] at h
        have h2 := ih n (acc ++ [v']) (pre ++ imageElem k e v') post sp b' ht.2 hf.2 (by omega) (by
          rw [h]; simp)
        refine ⟨by simp [h2.1], ⟨(everyElem_eq _ k e v' ht.1).mpr h1.1, h2.2.1⟩, ?_⟩
        have := h2.2.2
        simp only [Got, List.append_assoc, List.length_append, imageElems] at this ⊢
        rw [this, Nat.add_assoc]

theorem exact_field (w : World) (hw : FreshSuppliers w) (call : DecCall) (hc : CallExact call) (k : Conv) (hk : k.strLen.isCount = true)
    (hk' : k.listLen.isCount = true) (done : List Val) (t : WTy) (v : Val)
    (pre post sp : List Byte) (b' : RBuf)
    (ht : hasType t.java v = true) (hf : everyField leftFilled k t v)
    (h : readField w call k done t t.blankValue ⟨pre ++ imageField k t v ++ post, sp, pre.length⟩ = (v, b', none)) :
    everyField fitsPrefix k t v ∧ Got (imageField k t v) pre post sp b' := by
  by_cases hl : ∀ e, t ≠ .list e
  · exact exact_plain w hw call hc k hk done t hl v _ (.inr rfl) pre post sp b' ht hf h
  · obtain ⟨e, rfl⟩ : ∃ e, t = .list e := Classical.byContradiction fun hn => hl fun e he => hn ⟨e, he⟩
    have hcnt : ∀ (m : Nat) (rest : List Byte), RBuf.readNum ⟨pre ++ countImage k k.listLen m ++ rest, sp, pre.length⟩ k.order k.listLen
        = (⟨pre ++ countImage k k.listLen m ++ rest, sp, pre.length + (countImage k k.listLen m).length⟩, .ok ⟨k.listLen, BitVec.ofNat k.listLen.bits m⟩) := by
      intro m rest
      have := reads_count_any k k.listLen m hk' pre rest sp
      simp only [toReader] at this
      revert this
      rcases RBuf.readNum ⟨pre ++ countImage k k.listLen m ++ rest, sp, pre.length⟩ k.order k.listLen with ⟨b1, e | n⟩ <;> intro h
      · simp at h
      · simp only [Prod.mk.injEq, Option.some.injEq, and_true] at h
        obtain ⟨rfl, rfl⟩ := h
        rfl
    cases v with
    | null =>
      simp only [readField, imageField, hcnt] at h
      refine ⟨trivial, ?_⟩
      rw [if_neg (by
        have : ∀ t : PTy, t.isCount = true → ¬ 0 < (BitVec.ofNat t.bits 0).toInt := by
          intro t ht; cases t <;> simp [PTy.isCount] at ht <;> decide
        exact this _ hk')] at h
      simp only [Prod.mk.injEq, and_true] at h
      exact h.2.symm
    | list xs =>
      simp only [WTy.java, hasType] at ht
      have hf' := hf.2
      dsimp only at hf'
      have hassoc : pre ++ (countImage k k.listLen xs.length ++ imageElems k e xs) ++ post
          = pre ++ countImage k k.listLen xs.length ++ (imageElems k e xs ++ post) := by simp
      simp only [readField, imageField] at h
      rw [hassoc] at h
      simp only [hcnt] at h
      by_cases hp : 0 < (BitVec.ofNat k.listLen.bits xs.length).toInt
      · rw [if_pos hp] at h
        simp only [Prod.mk.injEq, Val.list.injEq] at h
        have hle : (BitVec.ofNat k.listLen.bits xs.length).toNat ≤ xs.length := by
          rw [BitVec.toNat_ofNat]; exact Nat.mod_le _ _
        rw [← List.append_assoc, ← List.length_append] at h
        have h2 := exact_elems w hw call hc k hk e xs _ [] _ post sp b' ht hf' hle (Prod.ext h.1 h.2)
        refine ⟨⟨?_, h2.2.1⟩, ?_⟩
        · rcases count_pos _ _ hk' hp with ⟨_, h4⟩ | h3
          · exact h4
          · omega
        · have := h2.2.2
          simp only [Got, List.append_assoc, List.length_append, imageField] at this ⊢
          rw [this, Nat.add_assoc]
      · rw [if_neg hp] at h
        simp [WTy.blankValue, WTy.java, FTy.default] at h
    | _ => simp [WTy.java, hasType] at ht

theorem exact_fields (w : World) (hw : FreshSuppliers w) (call : DecCall) (hc : CallExact call) (k : Conv) (hk : k.strLen.isCount = true)
    (hk' : k.listLen.isCount = true) (ts : List WTy) : ∀ (done fs : List Val) (pre post sp : List Byte) (b' : RBuf),
      fieldsHaveType (ts.map WTy.java) fs = true → everyFields leftFilled k ts fs →
      readFields w call k done ts (ts.map WTy.blankValue) ⟨pre ++ imageFields k ts fs ++ post, sp, pre.length⟩ = (done ++ fs, b', none) →
      everyFields fitsPrefix k ts fs ∧ Got (imageFields k ts fs) pre post sp b' := by
  induction ts with
  | nil =>
    intro done fs pre post sp b' ht _ h
    cases fs with
    | nil =>
      simp only [List.map_nil, readFields, Prod.mk.injEq, and_true] at h
      refine ⟨trivial, ?_⟩
      rw [Got, ← h.2]
      simp [imageFields]
    | cons v vs => simp [fieldsHaveType] at ht
  | cons t ts ih =>
    intro done fs pre post sp b' ht hf h
    cases fs with
    | nil => simp [fieldsHaveType] at ht
    | cons v vs =>
      simp only [List.map_cons, fieldsHaveType, Bool.and_eq_true] at ht
      simp only [everyFields] at hf
      simp only [List.map_cons, readFields, imageFields] at h
      have hassoc : pre ++ (imageField k t v ++ imageFields k ts vs) ++ post = pre ++ imageField k t v ++ (imageFields k ts vs ++ post) := by simp
      rw [hassoc] at h
      revert h
      rcases hr : readField w call k done t t.blankValue ⟨pre ++ imageField k t v ++ (imageFields k ts vs ++ post), sp, pre.length⟩
        with ⟨v', b1, _ | e⟩
      · intro h
        dsimp only at h
        have hp := readFields_prefix w call k ts (done ++ [v']) (ts.map WTy.blankValue) b1
        rw [h] at hp
        have hv : v' = v := by
          obtain ⟨t, ht⟩ := hp
          simp only [List.append_assoc, List.cons_append, List.nil_append] at ht
          have := List.append_cancel_left ht
          simp only [List.cons.injEq] at this
          exact this.1
        subst hv
        have h1 := exact_field w hw call hc k hk hk' done t v' pre (imageFields k ts vs ++ post) sp b1 ht.1 hf.1 hr
        have hb := h1.2
        rw [Got] at hb
        rw [hb, ← List.append_assoc, ← List.length_append] at h
        have h2 := ih (done ++ [v']) vs (pre ++ imageField k t v') post sp b' ht.2 hf.2 (by rw [h]; simp)
        refine ⟨⟨h1.1, h2.1⟩, ?_⟩
        have := h2.2
        simp only [Got, List.append_assoc, List.length_append, imageFields] at this ⊢
        rw [this, Nat.add_assoc]
      · intro h
        simp at h

theorem decode_exact (w : World) (hw : FreshSuppliers w) (n : Nat) : CallExact (decode w n) := by
  induction n with
  | zero =>
    intro c fs pre post sp b' ht hf h
    simp [decode] at h
  | succ n ih =>
    intro c fs pre post sp b' ht hf h
    rw [decode_eq w n c _ _ (by simp [freshFields_eq]), freshFields_eq] at h
    exact exact_fields w hw (decode w n) ih (conv c.mod) (conv_counts c.mod).1 (conv_counts c.mod).2 (wire c) [] fs pre post sp b'
      (by rw [← type_table]; exact ht) hf h

end FinProto
