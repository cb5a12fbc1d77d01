import Verif.Proofs.Hop
import Verif.Proofs.Stable
import Verif.Proofs.DecodeErrors
/-
Helper lemmas: what `decode` gives can be followed by the next receiver.
-/
namespace FinProto

/-- What one call of `decode` on a new object gives. -/
def CallLeg (w : World) (call : DecCall) : Prop :=
  ∀ c b fs b', call c (freshFields c) b = (fs, b', none) → everyFields resendable (conv c.mod) (wire c) fs →
    legibleFields w (conv c.mod) (receivedFields (wire c) fs) (wire c) fs

/-- The fields read so far keep their keys on the way to the next receiver. -/
def KeysKept (w : World) (done got : List Val) : Prop :=
  ∀ (key : Nat) kv f x, done[key]? = some kv → w.fac f (keyOf kv) = some x → got[key]?.map keyOf = some (keyOf kv)

theorem leg_plain (w : World) (hw : FreshSuppliers w) (call : DecCall) (hc : CallLeg w call) (k : Conv)
    (done got : List Val) (hd : KeysKept w done got) (t : WTy) (hp : padsOk [t] = true) (hl : ∀ e, t ≠ .list e)
    (old v : Val) (hold : old = .null ∨ t.java.default = old) (b b' : RBuf)
    (h : readField w call k done t old b = (v, b', none)) (hi : everyField resendable k t v) :
    legibleField w k got t v := by
  have hnum : ∀ (p : PTy), (match b.readNum (ordOf k p) p with
        | (b', .ok n) => (.num n, b', none)
        | (b', .error e) => (old, b', some e)) = (v, b', (none : Option JErr)) → ∃ m, v = .num m := by
    intro p
    rcases b.readNum (ordOf k p) p with ⟨b1, e | m⟩ <;> intro h <;> simp at h
    exact ⟨m, h.1.symm⟩
  cases t with
  | num p => obtain ⟨m, rfl⟩ := hnum p h; trivial
  | len p => obtain ⟨m, rfl⟩ := hnum p h; trivial
  | cksum p a => obtain ⟨m, rfl⟩ := hnum p h; trivial
  | text m pad left =>
    simp only [readField] at h
    revert h
    rcases readFixedString b m pad left with ⟨b1, e | s⟩ <;> intro h
    · simp at h
    · simp only [Prod.mk.injEq] at h
      obtain ⟨rfl, _⟩ := h
      intro hleft h0
      subst hleft h0
      simp only [padsOk, Bool.and_true, decide_eq_true_eq] at hp
      exact hi.2 (textReceived_fits m pad true [] hp rfl (Nat.zero_le _) rfl)
  | vstr =>
    have hold' : old = .null := by rcases hold with h | h; exact h; exact h.symm
    subst hold'
    simp only [readField] at h
    revert h
    rcases readDyn b k.strLen k.order with ⟨b1, e | _ | s⟩ <;> intro h
    · simp at h
    · simp only [Prod.mk.injEq] at h
      obtain ⟨rfl, _⟩ := h
      trivial
    · simp only [Prod.mk.injEq] at h
      obtain ⟨rfl, _⟩ := h
      exact hi.1
  | list e => exact absurd rfl (hl e)
  | sub c =>
    have hold' : old = .null := by rcases hold with h | h; exact h; exact h.symm
    subst hold'
    simp only [readField, Prod.mk.injEq] at h
    obtain ⟨rfl, h2⟩ := h
    exact ⟨trivial, hc c b _ b' (Prod.ext rfl h2) hi.2⟩
  | ext fac key =>
    simp only [readField] at h
    revert h
    cases hkey : done[key]? with
    | none => intro h; simp at h
    | some kv =>
      dsimp only
      cases hfac : w.fac fac (keyOf kv) with
      | none => intro h; simp at h
      | some x =>
        obtain ⟨c', rfl⟩ := hw _ _ _ hfac
        intro h
        simp only [fresh, Prod.mk.injEq] at h
        obtain ⟨rfl, h2⟩ := h
        refine ⟨?_, hc c' b _ b' (Prod.ext rfl h2) hi.2⟩
        have hk := hd key kv fac _ hkey hfac
        cases hg : got[key]? with
        | none => rw [hg] at hk; simp at hk
        | some g =>
          rw [hg] at hk
          simp only [Option.map_some, Option.some.injEq] at hk
          exact ⟨g, hg, by rw [hk]; exact hfac⟩

theorem legibleElem_of (w : World) (k : Conv) (got : List Val) (e : EWTy) (v : Val) (hn : v ≠ .null)
    (h : legibleField w k got e.toWTy v) (ht : elemHasType e.java v = true) : legibleElem w k e v := by
  cases v with
  | null => exact absurd rfl hn
  | num n => trivial
  | str s => cases e <;> first | exact h | trivial
  | list xs => simp [elemHasType] at ht
  | obj c fs => cases e <;> exact h.2

theorem leg_elems (w : World) (hw : FreshSuppliers w) (call : DecCall) (hc : CallLeg w call) (k : Conv)
    (e : EWTy) (hp : padsOk [.list e] = true) : ∀ (m : Nat) (acc xs : List Val) (b b' : RBuf),
      decElems call (decElOf k e) m acc b = (acc ++ xs, b', none) → elemsHaveType e.java xs = true → everyElems resendable k e xs →
      legibleElems w k e xs := by
  intro m
  induction m with
  | zero =>
    intro acc xs b b' h _ _
    simp only [decElems, Prod.mk.injEq, and_true] at h
    have : xs = [] := List.append_right_eq_self.mp h.1.symm
    subst this
    trivial
  | succ m ih =>
    intro acc xs b b' h ht hi
    simp only [decElems] at h
    revert h
    rcases hd : decElem call (decElOf k e) b with ⟨b1, e1 | _ | v⟩ <;> intro h
    · simp at h
    · exact ih acc xs b1 b' h ht hi
    · dsimp only at h
      have hpre := (decElems_length call (decElOf k e) m (acc ++ [v]) b1).2
      rw [h] at hpre
      obtain ⟨r, hr⟩ := hpre
      simp only [List.append_assoc, List.cons_append, List.nil_append] at hr
      have := List.append_cancel_left hr
      subst this
      simp only [elemsHaveType, Bool.and_eq_true] at ht
      obtain ⟨h1, hnn⟩ := decElem_readField w call k e b b1 v hd
      have h2 := leg_plain w hw call hc k [] [] (by intro key kv f x h; simp at h) e.toWTy (by cases e <;> simp_all [padsOk, EWTy.toWTy])
        (by cases e <;> simp [EWTy.toWTy]) .null v (.inl rfl) b b1 h1 (everyElem_toWTy _ k e v hi.1)
      exact ⟨legibleElem_of w k [] e v hnn h2 ht.1, ih (acc ++ [v]) r b1 b' (by rw [h]; simp) ht.2 hi.2⟩

theorem leg_field (w : World) (hw : FreshSuppliers w) (call : DecCall) (hc : CallLeg w call) (k : Conv)
    (hk' : k.listLen.isCount = true) (done got : List Val) (hd : KeysKept w done got) (t : WTy)
    (hp : padsOk [t] = true) (v : Val) (b b' : RBuf) (ht : hasType t.java v = true)
    (h : readField w call k done t t.blankValue b = (v, b', none)) (hi : everyField resendable k t v) :
    legibleField w k got t v := by
  by_cases hl : ∀ e, t ≠ .list e
  · exact leg_plain w hw call hc k done got hd t hp hl _ v (.inr rfl) b b' h hi
  · obtain ⟨e, rfl⟩ : ∃ e, t = .list e := Classical.byContradiction fun hn => hl fun e he => hn ⟨e, he⟩
    simp only [readField] at h
    revert h
    rcases hr : b.readNum k.order k.listLen with ⟨b1, e1 | m⟩ <;> intro h
    · simp at h
    · dsimp only at h
      have hty := readNum_ty hr
      by_cases hpos : 0 < m.bits.toInt
      · rw [if_pos hpos] at h
        simp only [Prod.mk.injEq] at h
        obtain ⟨rfl, h2⟩ := h
        have hlen := (decElems_length call (decElOf k e) m.bits.toNat [] b1).1
        obtain ⟨mt, mb⟩ := m
        dsimp only at hty
        subst hty
        have hcr := count_read k.listLen hk' mb hpos
        have h3 := leg_elems w hw call hc k e hp _ [] _ b1 b' (Prod.ext rfl h2) (by simpa [hasType, WTy.java] using ht) hi.2
        refine ⟨?_, h3⟩
        have := hcr.1
        unfold countFits at this ⊢
        simp only [List.length_nil, Nat.zero_add] at hlen
        exact Nat.lt_of_le_of_lt hlen this
      · rw [if_neg hpos] at h
        simp only [Prod.mk.injEq, and_true] at h
        obtain ⟨rfl, rfl⟩ := h
        trivial

/-- The value of a field just read serves as the same key at the next receiver's, unless it contains U+FFFD. -/
theorem read_key (w : World) (hw : FreshSuppliers w) (call : DecCall) (k : Conv) (done : List Val) (t : WTy) (hp : padsOk [t] = true) (v : Val) (b b' : RBuf)
    (h : readField w call k done t t.blankValue b = (v, b', none)) (hr : ∀ s, keyOf v = .str s → repl ∉ s) :
    keyOf (receivedField t v) = keyOf v := by
  cases v with
  | null =>
    cases t with
    | text n pad left =>
      simp only [readField] at h
      revert h
      rcases readFixedString b n pad left with ⟨b1, e | s⟩ <;> intro h <;> simp at h
    | _ => rfl
  | num n => rfl
  | str s =>
    have hrs := hr s rfl
    cases t with
    | text n pad left =>
      simp only [padsOk, Bool.and_true, decide_eq_true_eq] at hp
      simp only [readField, readFixedString] at h
      revert h
      rcases hr : b.readText n with ⟨b1, e | s'⟩ <;> intro h
      · simp at h
      · obtain ⟨bs, h1, rfl⟩ := readText_bytes hr
        have hv : s = stripPad pad left (utf8Dec bs) := by
          rw [← trimByChar_eq]
          cases left <;> simp at h <;> exact h.1.symm
        subst hv
        have hf := stripPad_facts pad left hp (utf8Dec bs) (utf8Dec_valid bs)
        simp only [receivedField]
        rw [textReceived_fits n pad left _ hp hf.1 (by rw [← h1]; exact strip_dec_canonical pad left hp bs hrs) hf.2.2]
    | vstr =>
      simp only [readField, WTy.blankValue] at h
      revert h
      rcases hd : readDyn b k.strLen k.order with ⟨b1, e | _ | s'⟩ <;> intro h
      · simp at h
      · simp [WTy.java, FTy.default] at h
      · simp only [Prod.mk.injEq, Val.str.injEq] at h
        obtain ⟨rfl, _⟩ := h
        simp only [readDyn] at hd
        revert hd
        rcases b.readNum k.order k.strLen with ⟨b2, e | m⟩ <;> intro hd
        · simp at hd
        · dsimp only at hd
          by_cases hpos : 0 < m.bits.toInt
          · rw [if_pos hpos] at hd
            revert hd
            rcases ht : b2.readText m.bits.toNat with ⟨b3, e2 | s2⟩ <;> intro hd
            · simp at hd
            · simp only [Prod.mk.injEq, Except.ok.injEq, Option.some.injEq] at hd
              obtain ⟨_, rfl⟩ := hd
              obtain ⟨bs, hlen, rfl⟩ := readText_bytes ht
              simp only [receivedField]
              split
              · rename_i h0
                refine absurd h0 (utf8Dec_ne_nil bs ?_)
                intro hb
                rw [hb] at hlen
                simp only [List.length_nil] at hlen
                have := BitVec.eq_of_toNat_eq (x := m.bits) (y := 0) (by simpa using hlen.symm)
                rw [this] at hpos
                simp at hpos
              · rw [utf8Dec_enc, sanitize_eq _ (utf8Dec_valid bs)]
          · rw [if_neg hpos] at hd
            simp at hd
    | num p => simp only [readField] at h; revert h; rcases b.readNum (ordOf k p) p with ⟨b1, e | m⟩ <;> intro h <;> simp at h
    | len p => simp only [readField] at h; revert h; rcases b.readNum (ordOf k p) p with ⟨b1, e | m⟩ <;> intro h <;> simp at h
    | cksum p a => simp only [readField] at h; revert h; rcases b.readNum (ordOf k p) p with ⟨b1, e | m⟩ <;> intro h <;> simp at h
    | list e =>
      simp only [readField] at h
      revert h
      rcases b.readNum k.order k.listLen with ⟨b1, e1 | m⟩ <;> intro h
      · simp at h
      · dsimp only at h
        split at h <;> simp [WTy.blankValue, WTy.java, FTy.default] at h
    | sub c => simp [readField, WTy.blankValue, WTy.java, FTy.default] at h
    | ext fac key =>
      simp only [readField] at h
      revert h
      cases done[key]? with
      | none => intro h; simp at h
      | some kv =>
        dsimp only
        cases hfac : w.fac fac (keyOf kv) with
        | none => intro h; simp at h
        | some x =>
          obtain ⟨c', rfl⟩ := hw _ _ _ hfac
          intro h
          simp [fresh] at h
  | list xs => cases t <;> first | rfl | (simp only [receivedField]; split <;> rfl)
  | obj c fs => rfl

theorem leg_fields (w : World) (hw : FreshSuppliers w) (hpk : PlainKeys w) (call : DecCall) (hc : CallLeg w call) (k : Conv)
    (hk' : k.listLen.isCount = true) (got : List Val) (ts : List WTy) :
    ∀ (done fs : List Val) (b b' : RBuf), padsOk ts = true → KeysKept w done got → got.drop done.length = receivedFields ts fs →
      fieldsHaveType (ts.map WTy.java) fs = true →
      readFields w call k done ts (ts.map WTy.blankValue) b = (done ++ fs, b', none) → everyFields resendable k ts fs →
      legibleFields w k got ts fs := by
  induction ts with
  | nil =>
    intro done fs b b' _ _ _ ht _ _
    cases fs with
    | nil => trivial
    | cons v vs => simp [fieldsHaveType] at ht
  | cons t ts ih =>
    intro done fs b b' hp hkk hgot ht h hi
    simp only [List.map_cons, readFields] at h
    simp only [padsOk, Bool.and_eq_true] at hp
    revert h
    rcases hr : readField w call k done t t.blankValue b with ⟨v, b1, _ | e⟩ <;> intro h
    · dsimp only at h
      have hpre := readFields_prefix w call k ts (done ++ [v]) (ts.map WTy.blankValue) b1
      rw [h] at hpre
      obtain ⟨r, hr'⟩ := hpre
      have : fs = v :: r := by
        simp only [List.append_assoc, List.cons_append, List.nil_append] at hr'
        exact (List.append_cancel_left hr').symm
      subst this
      simp only [List.map_cons, fieldsHaveType, Bool.and_eq_true] at ht
      have hp1 : padsOk [t] = true := by simpa [padsOk] using hp.1
      have h1 := leg_field w hw call hc k hk' done got hkk t hp1 v b b1 ht.1 hr hi.1
      simp only [receivedFields] at hgot
      have hnext : got[done.length]? = some (receivedField t v) := by
        have := congrArg (·[0]?) hgot
        simpa using this
      refine ⟨h1, ih (done ++ [v]) r b1 b' hp.2 ?_ ?_ ht.2 (by rw [h, hr']) hi.2⟩
      · intro key kv f x hkv hfac
        by_cases hlt : key < done.length
        · rw [List.getElem?_append_left hlt] at hkv
          exact hkk key kv f x hkv hfac
        · have hkey : key = done.length := by
            have := (List.getElem?_eq_some_iff.mp hkv).1
            simp at this
            omega
          subst hkey
          simp at hkv
          subst hkv
          rw [hnext, Option.map_some, read_key w hw call k done t hp1 v b b1 hr ?_]
          intro s hs hmem
          rw [hs] at hfac
          exact hpk f s x hfac hmem
      · have := congrArg (List.drop 1) hgot
        simpa [List.drop_drop, Nat.add_comm] using this
    · simp at h

/-- **What `decode` gives is legible for the next receiver.** -/
theorem decode_leg (w : World) (hw : FreshSuppliers w) (hpk : PlainKeys w) (n : Nat) : CallLeg w (decode w n) := by
  induction n with
  | zero =>
    intro c b fs b' h
    simp [decode] at h
  | succ n ih =>
    intro c b fs b' h hi
    have ht := (decode_typed w hw.typed (n + 1) c (freshFields c) b (typed_fresh c)).1
    rw [h] at ht
    rw [decode_eq w n c _ _ (by simp [freshFields_eq]), freshFields_eq] at h
    exact leg_fields w hw hpk (decode w n) ih (conv c.mod) (conv_counts c.mod).2 (receivedFields (wire c) fs) (wire c) [] fs b b'
      (padsOk_table c) (by intro key kv f x h; simp at h) rfl (by rw [← type_table c]; exact ht) h hi

end FinProto
