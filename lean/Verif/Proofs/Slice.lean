import Verif.Proofs.Stable
import Verif.Proofs.Fixed
/-
Helper lemmas: the image of a decoded message is what was consumed.
-/
namespace FinProto

theorem Consumed.append {b b1 b2 : RBuf} {X Y : List Byte} (h1 : Consumed b b1 X) (h2 : Consumed b1 b2 Y) : Consumed b b2 (X ++ Y) := by
  obtain ⟨rfl, p1⟩ := h1
  obtain ⟨rfl, p2⟩ := h2
  dsimp only at p2
  refine ⟨by simp [Nat.add_assoc], ?_⟩
  obtain ⟨r, hr⟩ := p1
  rw [← List.drop_drop, ← hr, List.drop_left] at p2
  rw [← hr]
  exact (List.prefix_append_right_inj X).mpr p2

theorem Consumed.nil (b : RBuf) : Consumed b b [] := ⟨rfl, by simp⟩

theorem readNum_consumed {b b' : RBuf} {k : Conv} {p : PTy} {n : Num} (h : b.readNum (ordOf k p) p = (b', .ok n)) :
    Consumed b b' (n.bytes k.order) := by
  unfold RBuf.readNum at h
  by_cases hc : b.rd + p.size ≤ b.data.length
  · rw [if_pos hc] at h
    simp only [Prod.mk.injEq, Except.ok.injEq] at h
    obtain ⟨rfl, rfl⟩ := h
    have hl : ((b.data.drop b.rd).take p.size).length = p.size := by simp; omega
    have e : (Num.ofBytes (ordOf k p) p ((b.data.drop b.rd).take p.size)).bytes k.order = (b.data.drop b.rd).take p.size := by
      have h1 := bytes_ordOf k (Num.ofBytes (ordOf k p) p ((b.data.drop b.rd).take p.size))
      rw [← h1]
      exact Num.bytes_ofBytes _ p _ hl
    rw [e]
    refine ⟨by rw [hl], ?_⟩
    rw [List.drop_append_of_le_length (by omega)]
    exact (List.take_prefix _ _).trans (List.prefix_append _ _)
  · rw [if_neg hc] at h
    simp at h

theorem readText_consumed {b b' : RBuf} {n : Nat} {s : JStr} (h : b.readText n = (b', .ok s)) :
    ∃ bs : List Byte, bs.length = n ∧ s = utf8Dec bs ∧ Consumed b b' bs := by
  unfold RBuf.readText at h
  by_cases h0 : n = 0
  · rw [if_pos h0] at h
    simp only [Prod.mk.injEq, Except.ok.injEq] at h
    obtain ⟨rfl, rfl⟩ := h
    exact ⟨[], by simp [h0], rfl, .nil b⟩
  · rw [if_neg h0] at h
    by_cases h1 : b.rd + n ≤ (b.data ++ b.spare).length
    · rw [if_pos h1] at h
      simp only [Prod.mk.injEq, Except.ok.injEq] at h
      obtain ⟨rfl, rfl⟩ := h
      have hl : (((b.data ++ b.spare).drop b.rd).take n).length = n := by
        simp only [List.length_take, List.length_drop]; omega
      exact ⟨_, hl, rfl, by rw [hl], List.take_prefix _ _⟩
    · rw [if_neg h1] at h
      simp at h

theorem count_image (k : Conv) (t : PTy) (x : BitVec t.bits) : (Num.mk t x).bytes k.order = countImage k t x.toNat := by
  simp only [Num.bytes, countImage]

theorem ordOf_count (k : Conv) (t : PTy) (h : t.isCount = true) : ordOf k t = k.order := by
  cases t <;> simp [PTy.isCount] at h <;> rfl

/-- All conditions. -/
def explicit (k : Conv) (t : WTy) (v : Val) : Prop := intact k t v ∧ present k t v

def CallSlice (call : DecCall) : Prop :=
  ∀ c b fs b', call c (freshFields c) b = (fs, b', none) → everyFields explicit (conv c.mod) (wire c) fs →
    Consumed b b' (imageFields (conv c.mod) (wire c) fs)

theorem slice_plain (w : World) (hw : FreshSuppliers w) (call : DecCall) (hc : CallSlice call) (k : Conv)
    (hk : k.strLen.isCount = true) (done : List Val) (t : WTy) (hp : padsOk [t] = true) (hl : ∀ e, t ≠ .list e)
    (old v : Val) (hold : old = .null ∨ t.java.default = old) (b b' : RBuf)
    (h : readField w call k done t old b = (v, b', none)) (hi : everyField explicit k t v) :
    Consumed b b' (imageField k t v) := by
  have hnum : ∀ (p : PTy), (match b.readNum (ordOf k p) p with
        | (b', .ok n) => (.num n, b', none)
        | (b', .error e) => (old, b', some e)) = (v, b', (none : Option JErr)) → ∃ m, v = .num m ∧ Consumed b b' (m.bytes k.order) := by
    intro p
    rcases hr : b.readNum (ordOf k p) p with ⟨b1, e | m⟩ <;> intro h <;> simp at h
    obtain ⟨rfl, rfl⟩ := h
    exact ⟨m, rfl, readNum_consumed hr⟩
  cases t with
  | num p => obtain ⟨m, rfl, h'⟩ := hnum p h; exact h'
  | len p => obtain ⟨m, rfl, h'⟩ := hnum p h; exact h'
  | cksum p a => obtain ⟨m, rfl, h'⟩ := hnum p h; exact h'
  | text m pad left =>
    simp only [padsOk, Bool.and_true, decide_eq_true_eq] at hp
    simp only [readField, readFixedString] at h
    revert h
    rcases hr : b.readText m with ⟨b1, e | s⟩ <;> intro h
    · simp at h
    · obtain ⟨bs, h1, rfl, h2⟩ := readText_consumed hr
      have hv : v = .str (stripPad pad left (utf8Dec bs)) ∧ b' = b1 := by
        rw [← trimByChar_eq]
        cases left <;> simp at h <;> exact ⟨h.1.symm, h.2.symm⟩
      obtain ⟨rfl, rfl⟩ := hv
      have hr2 : repl ∉ stripPad pad left (utf8Dec bs) := hi.1.1
      have hval : validUtf8 bs := by
        refine ⟨utf8Dec bs, utf8Dec_valid bs, ?_⟩
        rw [utf8Enc_dec bs (not_repl_of_strip pad left hp bs hr2)]
      have himg : textImage m pad left (stripPad pad left (utf8Dec bs)) = bs := by
        unfold textImage
        rw [if_neg]
        · rw [← h1]; exact fixedField_read pad hp left bs hval
        · intro hh
          simp only [Bool.and_eq_true, List.isEmpty_iff] at hh
          obtain ⟨rfl, h4⟩ := hh
          exact hi.1.2.1 h4
      simp only [imageField, himg]
      exact h2
  | vstr =>
    have hold' : old = .null := by rcases hold with h | h; exact h; exact h.symm
    subst hold'
    simp only [readField, readDyn] at h
    revert h
    rcases hr : b.readNum k.order k.strLen with ⟨b1, e | m⟩ <;> intro h
    · simp at h
    · dsimp only at h
      have hty := readNum_ty hr
      by_cases hpos : 0 < m.bits.toInt
      · rw [if_pos hpos] at h
        revert h
        rcases ht : b1.readText m.bits.toNat with ⟨b2, e2 | s⟩ <;> intro h
        · simp at h
        · simp only [Prod.mk.injEq, and_true] at h
          obtain ⟨rfl, rfl⟩ := h
          obtain ⟨bs, h1, rfl, h2⟩ := readText_consumed ht
          rw [← ordOf_count k _ hk] at hr
          have h3 := readNum_consumed hr
          obtain ⟨mt, mb⟩ := m
          dsimp only at hty
          subst hty
          simp only [imageField, vstrImage]
          rw [utf8Enc_dec bs hi.1.1, h1, ← count_image]
          exact h3.append h2
      · rw [if_neg hpos] at h
        simp only [Prod.mk.injEq, and_true] at h
        obtain ⟨rfl, rfl⟩ := h
        exact absurd rfl hi.2
  | list e => exact absurd rfl (hl e)
  | sub c =>
    have hold' : old = .null := by rcases hold with h | h; exact h; exact h.symm
    subst hold'
    simp only [readField, Prod.mk.injEq] at h
    obtain ⟨rfl, h2⟩ := h
    exact hc c b _ b' (Prod.ext rfl h2) hi.2
  | ext fac key =>
    simp only [readField] at h
    revert h
    cases hkey : done[key]? with
    | none => intro h; simp at h
    | some kv =>
      dsimp only
      cases hfac : w.fac fac (keyOf kv) with
      | none => intro h; simp at h
      | some x =>
        obtain ⟨c', rfl⟩ := hw _ _ _ hfac
        intro h
        simp only [fresh, Prod.mk.injEq] at h
        obtain ⟨rfl, h2⟩ := h
        exact hc c' b _ b' (Prod.ext rfl h2) hi.2

theorem decElem_not_list (call : DecCall) (k : Conv) (e : EWTy) (b b' : RBuf) (v : Val)
    (h : decElem call (decElOf k e) b = (b', .ok (some v))) (xs : List Val) : v ≠ .list xs := by
  cases e with
  | num p =>
    simp only [decElem, decElOf] at h
    revert h
    rcases b.readNum (ordOf k p) p with ⟨b1, e | n⟩ <;> intro h <;> simp at h
    rw [← h.2]; simp
  | text n pad left =>
    simp only [decElem, decElOf] at h
    revert h
    rcases readFixedString b n pad left with ⟨b1, e | n⟩ <;> intro h <;> simp at h
    rw [← h.2]; simp
  | vstr =>
    simp only [decElem, decElOf] at h
    revert h
    rcases readDyn b k.strLen k.order with ⟨b1, e | _ | s⟩ <;> intro h <;> simp at h
    rw [← h.2]; simp
  | sub c =>
    simp only [decElem, decElOf] at h
    revert h
    rcases call c (freshFields c) b with ⟨fs, b1, _ | e⟩ <;> intro h <;> simp at h
    rw [← h.2]; simp

theorem imageElem_toWTy (k : Conv) (e : EWTy) (v : Val) (hn : v ≠ .null) (hl : ∀ xs, v ≠ .list xs) :
    imageElem k e v = imageField k e.toWTy v := by
  cases v with
  | null => exact absurd rfl hn
  | list xs => exact absurd rfl (hl xs)
  | _ => cases e <;> rfl

theorem slice_elems (w : World) (hw : FreshSuppliers w) (call : DecCall) (hc : CallSlice call) (k : Conv)
    (hk : k.strLen.isCount = true) (e : EWTy) (he : e ≠ .vstr) (hp : padsOk [.list e] = true) : ∀ (m : Nat) (acc xs : List Val) (b b' : RBuf),
      decElems call (decElOf k e) m acc b = (acc ++ xs, b', none) → everyElems explicit k e xs →
      Consumed b b' (imageElems k e xs) := by
  intro m
  induction m with
  | zero =>
    intro acc xs b b' h _
    simp only [decElems, Prod.mk.injEq, and_true] at h
    have : xs = [] := List.append_right_eq_self.mp h.1.symm
    subst this
    rw [← h.2]
    exact .nil b
  | succ m ih =>
    intro acc xs b b' h hi
    have hlen := decElems_length_eq call k e he (m + 1) acc b (by rw [h])
    simp only [decElems] at h
    revert h
    rcases hd : decElem call (decElOf k e) b with ⟨b1, e1 | _ | v⟩ <;> intro h
    · simp at h
    · exfalso
      have h2 := (decElems_length call (decElOf k e) m acc b1).1
      dsimp only at h
      simp only [decElems, hd] at hlen
      omega
    · dsimp only at h
      have hpre := (decElems_length call (decElOf k e) m (acc ++ [v]) b1).2
      rw [h] at hpre
      obtain ⟨r, hr⟩ := hpre
      simp only [List.append_assoc, List.cons_append, List.nil_append] at hr
      have := List.append_cancel_left hr
      subst this
      obtain ⟨h1, hnn⟩ := decElem_readField w call k e b b1 v hd
      have h2 := slice_plain w hw call hc k hk [] e.toWTy (by cases e <;> simp_all [padsOk, EWTy.toWTy])
        (by cases e <;> simp [EWTy.toWTy]) .null v (.inl rfl) b b1 h1 (everyElem_toWTy _ k e v hi.1)
      have h3 := ih (acc ++ [v]) r b1 b' (by rw [h]; simp) hi.2
      simp only [imageElems]
      rw [imageElem_toWTy k e v hnn (decElem_not_list call k e b b1 v hd)]
      exact h2.append h3

theorem slice_field (w : World) (hw : FreshSuppliers w) (call : DecCall) (hc : CallSlice call) (k : Conv)
    (hk : k.strLen.isCount = true) (hk' : k.listLen.isCount = true) (done : List Val) (t : WTy)
    (hp : padsOk [t] = true) (v : Val) (b b' : RBuf)
    (h : readField w call k done t t.blankValue b = (v, b', none)) (hi : everyField explicit k t v) :
    Consumed b b' (imageField k t v) := by
  by_cases hl : ∀ e, t ≠ .list e
  · exact slice_plain w hw call hc k hk done t hp hl _ v (.inr rfl) b b' h hi
  · obtain ⟨e, rfl⟩ : ∃ e, t = .list e := Classical.byContradiction fun hn => hl fun e he => hn ⟨e, he⟩
    simp only [readField] at h
    revert h
    rcases hr : b.readNum k.order k.listLen with ⟨b1, e1 | m⟩ <;> intro h
    · simp at h
    · dsimp only at h
      have hty := readNum_ty hr
      rw [← ordOf_count k _ hk'] at hr
      have h4 := readNum_consumed hr
      by_cases hpos : 0 < m.bits.toInt
      · rw [if_pos hpos] at h
        simp only [Prod.mk.injEq] at h
        obtain ⟨rfl, h2⟩ := h
        obtain ⟨mt, mb⟩ := m
        dsimp only at hty
        subst hty
        have he : e ≠ .vstr := hi.1.2.2
        have hlen := decElems_length_eq call k e he mb.toNat [] b1 (by rw [h2])
        have h3 := slice_elems w hw call hc k hk e he hp _ [] _ b1 b' (Prod.ext rfl h2) hi.2
        simp only [List.length_nil, Nat.zero_add] at hlen
        simp only [imageField]
        rw [hlen, ← count_image]
        exact h4.append h3
      · rw [if_neg hpos] at h
        simp only [Prod.mk.injEq, and_true] at h
        obtain ⟨rfl, rfl⟩ := h
        exact absurd rfl hi.2.1

theorem slice_fields (w : World) (hw : FreshSuppliers w) (call : DecCall) (hc : CallSlice call) (k : Conv)
    (hk : k.strLen.isCount = true) (hk' : k.listLen.isCount = true) (ts : List WTy) :
    ∀ (done fs : List Val) (b b' : RBuf), padsOk ts = true →
      readFields w call k done ts (ts.map WTy.blankValue) b = (done ++ fs, b', none) → everyFields explicit k ts fs →
      Consumed b b' (imageFields k ts fs) := by
  induction ts with
  | nil =>
    intro done fs b b' _ h _
    simp only [List.map_nil, readFields, Prod.mk.injEq, and_true, List.append_nil] at h
    have : fs = [] := List.append_right_eq_self.mp h.1.symm
    subst this
    rw [← h.2]
    exact .nil b
  | cons t ts ih =>
    intro done fs b b' hp h hi
    simp only [List.map_cons, readFields] at h
    simp only [padsOk, Bool.and_eq_true] at hp
    revert h
    rcases hr : readField w call k done t t.blankValue b with ⟨v, b1, _ | e⟩ <;> intro h
    · dsimp only at h
      have hpre := readFields_prefix w call k ts (done ++ [v]) (ts.map WTy.blankValue) b1
      rw [h] at hpre
      obtain ⟨r, hr'⟩ := hpre
      have : fs = v :: r := by
        simp only [List.append_assoc, List.cons_append, List.nil_append] at hr'
        exact (List.append_cancel_left hr').symm
      subst this
      have h1 := slice_field w hw call hc k hk hk' done t (by simpa [padsOk] using hp.1) v b b1 hr hi.1
      have h2 := ih (done ++ [v]) r b1 b' hp.2 (by rw [h]; simp) hi.2
      exact h1.append h2
    · simp at h

theorem decode_slice (w : World) (hw : FreshSuppliers w) (n : Nat) : CallSlice (decode w n) := by
  induction n with
  | zero =>
    intro c b fs b' h
    simp [decode] at h
  | succ n ih =>
    intro c b fs b' h hi
    rw [decode_eq w n c _ _ (by simp [freshFields_eq]), freshFields_eq] at h
    exact slice_fields w hw (decode w n) ih (conv c.mod) (conv_counts c.mod).1 (conv_counts c.mod).2 (wire c) [] fs b b'
      (padsOk_table c) h hi

end FinProto
