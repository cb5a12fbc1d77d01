import Verif.Spec.Stable
import Verif.Proofs.Utf8Valid
import Verif.Proofs.Exact
import Verif.Proofs.Canonical
/-
Helper lemmas: what `decode` puts into a new object is canonical unless bytes were replaced or dropped.
-/
namespace FinProto

theorem utf8Dec_ne_nil (bs : List Byte) (h : bs ≠ []) : utf8Dec bs ≠ [] := by
  cases bs with
  | nil => exact absurd rfl h
  | cons b t =>
    rw [utf8Dec_cons]
    rcases utf8Step_cases b t with h | ⟨u, _, h, _⟩
    · rw [h]; simp
    · rw [h]
      have := utf16Scalar_length_pos u
      intro hn
      rw [List.append_eq_nil_iff] at hn
      rw [hn.1] at this
      simp at this

/-- A text that was read is the decoding of as many bytes as were asked for. -/
theorem readText_bytes {b b' : RBuf} {n : Nat} {s : JStr} (h : b.readText n = (b', .ok s)) :
    ∃ bs : List Byte, bs.length = n ∧ s = utf8Dec bs := by
  unfold RBuf.readText at h
  by_cases h0 : n = 0
  · rw [if_pos h0] at h
    simp only [Prod.mk.injEq, Except.ok.injEq] at h
    exact ⟨[], by simp [h0], h.2.symm⟩
  · rw [if_neg h0] at h
    by_cases h1 : b.rd + n ≤ (b.data ++ b.spare).length
    · rw [if_pos h1] at h
      simp only [Prod.mk.injEq, Except.ok.injEq] at h
      exact ⟨_, by simp only [List.length_take, List.length_drop]; omega, h.2.symm⟩
    · rw [if_neg h1] at h
      simp at h

theorem count_read (t : PTy) (ht : t.isCount = true) (x : BitVec t.bits) (h : 0 < x.toInt) : countFits t x.toNat ∧ x.toNat ≠ 0 := by
  have e : BitVec.ofNat t.bits x.toNat = x := by simp
  rcases count_pos t x.toNat ht (by rw [e]; exact h) with h1 | h1
  · refine ⟨h1.2, ?_⟩
    intro h0
    have : x = 0 := by apply BitVec.eq_of_toNat_eq; simpa using h0
    rw [this] at h
    simp at h
  · rw [e] at h1; omega

/-- What one call of `decode` on a new object gives. -/
def CallCanon (w : World) (n : Nat) (call : DecCall) : Prop :=
  ∀ c b fs b', call c (freshFields c) b = (fs, b', none) → everyFields intact (conv c.mod) (wire c) fs →
    canonicalFields w (conv c.mod) fs (wire c) fs ∧ depthList fs + 1 ≤ n

theorem canon_plain (w : World) (hw : FreshSuppliers w) (n : Nat) (call : DecCall) (hc : CallCanon w n call) (k : Conv)
    (hk : k.strLen.isCount = true) (done all : List Val) (hd : done <+: all) (t : WTy) (hp : padsOk [t] = true) (hl : ∀ e, t ≠ .list e)
    (old v : Val) (hold : old = .null ∨ t.java.default = old) (b b' : RBuf)
    (h : readField w call k done t old b = (v, b', none)) (hi : everyField intact k t v) :
    canonicalField w k all t v ∧ depth v ≤ n := by
  have hnum : ∀ (p : PTy), (match b.readNum (ordOf k p) p with
        | (b', .ok n) => (.num n, b', none)
        | (b', .error e) => (old, b', some e)) = (v, b', (none : Option JErr)) → ∃ m, v = .num m := by
    intro p
    rcases b.readNum (ordOf k p) p with ⟨b1, e | m⟩ <;> intro h <;> simp at h
    exact ⟨m, h.1.symm⟩
  cases t with
  | num p => obtain ⟨m, rfl⟩ := hnum p h; exact ⟨trivial, Nat.zero_le _⟩
  | len p => obtain ⟨m, rfl⟩ := hnum p h; exact ⟨trivial, Nat.zero_le _⟩
  | cksum p a => obtain ⟨m, rfl⟩ := hnum p h; exact ⟨trivial, Nat.zero_le _⟩
  | text m pad left =>
    simp only [padsOk, Bool.and_true, decide_eq_true_eq] at hp
    simp only [readField, readFixedString] at h
    revert h
    rcases hr : b.readText m with ⟨b1, e | s⟩ <;> intro h
    · simp at h
    · obtain ⟨bs, h1, rfl⟩ := readText_bytes hr
      have hv : v = .str (stripPad pad left (utf8Dec bs)) := by
        rw [← trimByChar_eq]
        cases left <;> simp at h <;> exact h.1.symm
      subst hv
      refine ⟨?_, Nat.zero_le _⟩
      have hf := stripPad_facts pad left hp (utf8Dec bs) (utf8Dec_valid bs)
      refine ⟨hf.1, ?_, hf.2.2, ?_⟩
      · rw [← h1]
        exact strip_dec_canonical pad left hp bs hi.1
      · intro hleft
        subst hleft
        exact hi.2.1
  | vstr =>
    have hold' : old = .null := by rcases hold with h | h; exact h; exact h.symm
    subst hold'
    simp only [readField, readDyn] at h
    revert h
    rcases hr : b.readNum k.order k.strLen with ⟨b1, e | m⟩ <;> intro h
    · simp at h
    · dsimp only at h
      have hty := readNum_ty hr
      by_cases hpos : 0 < m.bits.toInt
      · rw [if_pos hpos] at h
        revert h
        rcases ht : b1.readText m.bits.toNat with ⟨b2, e2 | s⟩ <;> intro h
        · simp at h
        · simp only [Prod.mk.injEq, and_true] at h
          obtain ⟨rfl, rfl⟩ := h
          obtain ⟨bs, h1, rfl⟩ := readText_bytes ht
          refine ⟨?_, Nat.zero_le _⟩
          obtain ⟨mt, mb⟩ := m
          dsimp only at hty
          subst hty
          have hcr := count_read k.strLen hk mb hpos
          rw [← h1] at hcr
          refine ⟨utf8Dec_ne_nil bs (by intro h0; rw [h0] at hcr; exact hcr.2 rfl), utf8Dec_valid bs, ?_⟩
          rw [utf8Enc_dec bs hi.1]
          exact hcr.1
      · rw [if_neg hpos] at h
        simp only [Prod.mk.injEq, and_true] at h
        obtain ⟨rfl, rfl⟩ := h
        exact ⟨trivial, Nat.zero_le _⟩
  | list e => exact absurd rfl (hl e)
  | sub c =>
    have hold' : old = .null := by rcases hold with h | h; exact h; exact h.symm
    subst hold'
    simp only [readField, Prod.mk.injEq] at h
    obtain ⟨rfl, h2⟩ := h
    have := hc c b _ b' (Prod.ext rfl h2) hi.2
    exact ⟨⟨trivial, this.1⟩, this.2⟩
  | ext fac key =>
    simp only [readField] at h
    revert h
    cases hkey : done[key]? with
    | none => intro h; simp at h
    | some kv =>
      dsimp only
      cases hfac : w.fac fac (keyOf kv) with
      | none => intro h; simp at h
      | some x =>
        obtain ⟨c', rfl⟩ := hw _ _ _ hfac
        intro h
        simp only [fresh, Prod.mk.injEq] at h
        obtain ⟨rfl, h2⟩ := h
        have := hc c' b _ b' (Prod.ext rfl h2) hi.2
        refine ⟨⟨⟨kv, ?_, hfac⟩, this.1⟩, this.2⟩
        obtain ⟨r, rfl⟩ := hd
        rw [List.getElem?_append_left (List.getElem?_eq_some_iff.mp hkey).1]
        exact hkey

theorem depthList_le (n : Nat) (xs : List Val) (h : ∀ x ∈ xs, depth x ≤ n) : depthList xs ≤ n := by
  induction xs with
  | nil => exact Nat.zero_le _
  | cons x xs ih =>
    simp only [depthList]
    have h1 := h x (by simp)
    have h2 := ih (fun y hy => h y (by simp [hy]))
    omega

theorem everyElem_toWTy (P : Conv → WTy → Val → Prop) (k : Conv) (e : EWTy) (v : Val) (h : everyElem P k e v) :
    everyField P k e.toWTy v := by
  cases v <;> first | exact h | exact ⟨h, by cases e <;> trivial⟩

theorem canonicalElem_of (w : World) (k : Conv) (all : List Val) (e : EWTy) (v : Val) (hn : v ≠ .null)
    (h : canonicalField w k all e.toWTy v) : canonicalElem w k e v := by
  cases v with
  | null => exact absurd rfl hn
  | num n => trivial
  | str s => cases e <;> exact h
  | list xs => cases e <;> exact h
  | obj c fs => cases e <;> exact h.2

/-- Reading an element that is not a length-prefixed string adds it to the list. -/
theorem decElems_length_eq (call : DecCall) (k : Conv) (e : EWTy) (he : e ≠ .vstr) (m : Nat) : ∀ (acc : List Val) (b : RBuf),
    (decElems call (decElOf k e) m acc b).2.2 = none → (decElems call (decElOf k e) m acc b).1.length = acc.length + m := by
  induction m with
  | zero => intro acc b _; rfl
  | succ m ih =>
    intro acc b h
    simp only [decElems] at h ⊢
    revert h
    rcases hd : decElem call (decElOf k e) b with ⟨b1, e1 | _ | v⟩ <;> intro h
    · simp at h
    · exfalso
      cases e with
      | num p =>
        simp only [decElem, decElOf] at hd
        revert hd
        rcases b.readNum (ordOf k p) p with ⟨b1, e | n⟩ <;> intro h <;> simp at h
      | text n pad left =>
        simp only [decElem, decElOf] at hd
        revert hd
        rcases readFixedString b n pad left with ⟨b1, e | n⟩ <;> intro h <;> simp at h
      | vstr => exact he rfl
      | sub c =>
        simp only [decElem, decElOf] at hd
        revert hd
        rcases call c (freshFields c) b with ⟨fs, b1, _ | e⟩ <;> intro h <;> simp at h
    · dsimp only at h ⊢
      rw [ih _ b1 h]
      simp; omega

theorem canon_elems (w : World) (hw : FreshSuppliers w) (n : Nat) (call : DecCall) (hc : CallCanon w n call) (k : Conv)
    (hk : k.strLen.isCount = true) (e : EWTy) (hp : padsOk [.list e] = true) : ∀ (m : Nat) (acc xs : List Val) (b b' : RBuf),
      decElems call (decElOf k e) m acc b = (acc ++ xs, b', none) → everyElems intact k e xs →
      canonicalElems w k e xs ∧ ∀ x ∈ xs, depth x ≤ n := by
  intro m
  induction m with
  | zero =>
    intro acc xs b b' h _
    simp only [decElems, Prod.mk.injEq, and_true] at h
    have : xs = [] := by
      have := h.1
      exact (List.append_right_eq_self.mp this.symm)
    subst this
    exact ⟨trivial, by simp⟩
  | succ m ih =>
    intro acc xs b b' h hi
    simp only [decElems] at h
    revert h
    rcases hd : decElem call (decElOf k e) b with ⟨b1, e1 | _ | v⟩ <;> intro h
    · simp at h
    · exact ih acc xs b1 b' h hi
    · dsimp only at h
      have hpre := (decElems_length call (decElOf k e) m (acc ++ [v]) b1).2
      rw [h] at hpre
      obtain ⟨r, hr⟩ := hpre
      simp only [List.append_assoc, List.cons_append, List.nil_append] at hr
      have := List.append_cancel_left hr
      subst this
      obtain ⟨h1, hnn⟩ := decElem_readField w call k e b b1 v hd
      have h2 := canon_plain w hw n call hc k hk [] [] (List.prefix_refl _) e.toWTy (by cases e <;> simp_all [padsOk, EWTy.toWTy])
        (by cases e <;> simp [EWTy.toWTy]) .null v (.inl rfl) b b1 h1 (everyElem_toWTy _ k e v hi.1)
      have h3 := ih (acc ++ [v]) r b1 b' (by rw [h]; simp) hi.2
      refine ⟨⟨canonicalElem_of w k [] e v hnn h2.1, h3.1⟩, ?_⟩
      intro x hx
      rcases List.mem_cons.mp hx with rfl | hx
      · exact h2.2
      · exact h3.2 x hx

theorem canon_field (w : World) (hw : FreshSuppliers w) (n : Nat) (call : DecCall) (hc : CallCanon w n call) (k : Conv)
    (hk : k.strLen.isCount = true) (hk' : k.listLen.isCount = true) (done all : List Val) (hd : done <+: all) (t : WTy)
    (hp : padsOk [t] = true) (v : Val) (b b' : RBuf)
    (h : readField w call k done t t.blankValue b = (v, b', none)) (hi : everyField intact k t v) :
    canonicalField w k all t v ∧ depth v ≤ n := by
  by_cases hl : ∀ e, t ≠ .list e
  · exact canon_plain w hw n call hc k hk done all hd t hp hl _ v (.inr rfl) b b' h hi
  · obtain ⟨e, rfl⟩ : ∃ e, t = .list e := Classical.byContradiction fun hn => hl fun e he => hn ⟨e, he⟩
    simp only [readField] at h
    revert h
    rcases hr : b.readNum k.order k.listLen with ⟨b1, e1 | m⟩ <;> intro h
    · simp at h
    · dsimp only at h
      have hty := readNum_ty hr
      by_cases hpos : 0 < m.bits.toInt
      · rw [if_pos hpos] at h
        simp only [Prod.mk.injEq] at h
        obtain ⟨rfl, h2⟩ := h
        have hlen := (decElems_length call (decElOf k e) m.bits.toNat [] b1).1
        obtain ⟨mt, mb⟩ := m
        dsimp only at hty
        subst hty
        have hcr := count_read k.listLen hk' mb hpos
        have h3 := canon_elems w hw n call hc k hk e hp _ [] _ b1 b' (Prod.ext rfl h2) hi.2
        refine ⟨⟨?_, ?_, h3.1⟩, depthList_le n _ h3.2⟩
        · by_cases he : e = .vstr
          · subst he; exact hi.1.2.2
          · have := decElems_length_eq call k e he mb.toNat [] b1 (by rw [h2])
            intro h0
            rw [h0] at this
            simp only [List.length_nil, Nat.zero_add] at this
            exact hcr.2 this.symm
        have := hcr.1
        unfold countFits at this ⊢
        simp only [List.length_nil, Nat.zero_add] at hlen
        exact Nat.lt_of_le_of_lt hlen this
      · rw [if_neg hpos] at h
        simp only [Prod.mk.injEq, and_true] at h
        obtain ⟨rfl, rfl⟩ := h
        exact ⟨trivial, Nat.zero_le _⟩

theorem canon_fields (w : World) (hw : FreshSuppliers w) (n : Nat) (call : DecCall) (hc : CallCanon w n call) (k : Conv)
    (hk : k.strLen.isCount = true) (hk' : k.listLen.isCount = true) (all : List Val) (ts : List WTy) :
    ∀ (done fs : List Val) (b b' : RBuf), padsOk ts = true → all = done ++ fs →
      readFields w call k done ts (ts.map WTy.blankValue) b = (all, b', none) → everyFields intact k ts fs →
      canonicalFields w k all ts fs ∧ depthList fs ≤ n := by
  induction ts with
  | nil =>
    intro done fs b b' _ hall h _
    simp only [List.map_nil, readFields, Prod.mk.injEq, and_true, List.append_nil] at h
    have : fs = [] := by
      have h1 := h.1
      rw [hall] at h1
      exact List.append_right_eq_self.mp h1.symm
    subst this
    exact ⟨trivial, Nat.zero_le _⟩
  | cons t ts ih =>
    intro done fs b b' hp hall h hi
    simp only [List.map_cons, readFields] at h
    simp only [padsOk, Bool.and_eq_true] at hp
    revert h
    rcases hr : readField w call k done t t.blankValue b with ⟨v, b1, _ | e⟩ <;> intro h
    · dsimp only at h
      have hpre := readFields_prefix w call k ts (done ++ [v]) (ts.map WTy.blankValue) b1
      rw [h] at hpre
      obtain ⟨r, hr'⟩ := hpre
      have : fs = v :: r := by
        rw [hall] at hr'
        simp only [List.append_assoc, List.cons_append, List.nil_append] at hr'
        exact (List.append_cancel_left hr').symm
      subst this
      have h1 := canon_field w hw n call hc k hk hk' done all ⟨v :: r, hall.symm⟩ t (by simpa [padsOk] using hp.1) v b b1 hr hi.1
      have h2 := ih (done ++ [v]) r b1 b' hp.2 hr'.symm h hi.2
      refine ⟨⟨h1.1, h2.1⟩, ?_⟩
      simp only [depthList]
      omega
    · simp at h

/-- **Decoded messages are canonical.** -/
theorem decode_canon (w : World) (hw : FreshSuppliers w) (n : Nat) : CallCanon w n (decode w n) := by
  induction n with
  | zero =>
    intro c b fs b' h
    simp [decode] at h
  | succ n ih =>
    intro c b fs b' h hi
    rw [decode_eq w n c _ _ (by simp [freshFields_eq]), freshFields_eq] at h
    have := canon_fields w hw n (decode w n) ih (conv c.mod) (conv_counts c.mod).1 (conv_counts c.mod).2 fs (wire c) [] fs b b'
      (padsOk_table c) rfl h hi
    exact ⟨this.1, by omega⟩

end FinProto
