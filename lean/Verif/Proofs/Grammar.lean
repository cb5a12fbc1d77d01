import Verif.Spec.Grammar
import Verif.Proofs.DecodeErrors
import Verif.Proofs.Slice
import Verif.Proofs.RoundTrip
/-
Helper lemmas: `decode` accepts exactly the byte strings of the grammar.
-/
namespace FinProto

open Grammar

theorem readNum_consumed_any {b b' : RBuf} {e : Endian} {p : PTy} {n : Num} (h : b.readNum e p = (b', .ok n)) :
    n.ty = p ∧ Consumed b b' (n.bytes e) := by
  refine ⟨readNum_ty h, ?_⟩
  unfold RBuf.readNum at h
  by_cases hc : b.rd + p.size ≤ b.data.length
  · rw [if_pos hc] at h
    simp only [Prod.mk.injEq, Except.ok.injEq] at h
    obtain ⟨rfl, rfl⟩ := h
    have hl : ((b.data.drop b.rd).take p.size).length = p.size := by simp; omega
    rw [Num.bytes_ofBytes _ p _ hl]
    refine ⟨by rw [hl], ?_⟩
    rw [List.drop_append_of_le_length (by omega)]
    exact (List.take_prefix _ _).trans (List.prefix_append _ _)
  · rw [if_neg hc] at h
    simp at h

theorem unpadded_trim (pad : JChar) (left : Bool) (bytes : List Byte) (s : JStr) :
    Unpadded pad left bytes s ↔ s = trimByChar (utf8Dec bytes) pad left := by
  have key : ∀ r : JStr, ∃ n, r = List.replicate n pad ++ r.dropWhile (· == pad) := by
    intro r
    induction r with
    | nil => exact ⟨0, rfl⟩
    | cons x xs ih =>
      by_cases hx : (x == pad) = true
      · obtain ⟨n, hn⟩ := ih
        refine ⟨n + 1, ?_⟩
        rw [List.dropWhile_cons_of_pos (p := (· == pad)) hx, List.replicate_succ, List.cons_append, ← hn, eq_of_beq hx]
      · exact ⟨0, by rw [List.dropWhile_cons_of_neg (p := (· == pad)) hx]; rfl⟩
  have head : ∀ r : JStr, ((r.dropWhile (· == pad)).head? == some pad) = false := by
    intro r
    induction r with
    | nil => rfl
    | cons x xs ih =>
      by_cases hx : (x == pad) = true
      · rw [List.dropWhile_cons_of_pos (p := (· == pad)) hx]; exact ih
      · rw [List.dropWhile_cons_of_neg (p := (· == pad)) hx]
        simpa using hx
  rw [trimByChar_eq]
  constructor
  · rintro ⟨⟨n, hn⟩, ht⟩
    rw [hn]
    cases left
    · simp only [Bool.false_eq_true, if_false]
      rw [stripPad_fill_right, stripPad_of_not_touches _ _ _ ht]
    · simp only [if_true]
      rw [stripPad_fill_left, stripPad_of_not_touches _ _ _ ht]
  · rintro rfl
    cases left
    · obtain ⟨n, hn⟩ := key (utf8Dec bytes).reverse
      refine ⟨⟨n, ?_⟩, ?_⟩
      · simp only [Bool.false_eq_true, if_false, stripPad]
        have := congrArg List.reverse hn
        rw [List.reverse_reverse, List.reverse_append, List.reverse_replicate] at this
        exact this
      · simp only [touchesPad, stripPad, Bool.false_eq_true, if_false, List.getLast?_reverse]
        exact head _
    · obtain ⟨n, hn⟩ := key (utf8Dec bytes)
      refine ⟨⟨n, ?_⟩, ?_⟩
      · simp only [if_true, stripPad]; exact hn
      · simp only [touchesPad, stripPad, if_true]; exact head _

theorem readFixed_consumed {b b' : RBuf} {n : Nat} {pad : JChar} {left : Bool} {s : JStr}
    (h : readFixedString b n pad left = (b', .ok s)) :
    ∃ X, X.length = n ∧ Unpadded pad left X s ∧ Consumed b b' X := by
  unfold readFixedString at h
  revert h
  rcases hr : b.readText n with ⟨b1, e | t⟩ <;> intro h
  · simp at h
  · obtain ⟨X, h1, h2, h3⟩ := readText_consumed hr
    have : (b', (Except.ok s : Except JErr JStr)) = (b1, .ok (trimByChar t pad left)) := by
      rw [← h]; cases left <;> rfl
    simp only [Prod.mk.injEq, Except.ok.injEq] at this
    obtain ⟨rfl, rfl⟩ := this
    exact ⟨X, h1, (unpadded_trim _ _ _ _).mpr (by rw [h2]), h3⟩

theorem toNat_of_pos {m : Nat} (x : BitVec m) (h : 0 < x.toInt) : (x.toNat : Int) = x.toInt := by
  rw [BitVec.toInt_eq_toNat_cond] at h ⊢
  split at h
  · next hc => rw [if_pos hc]
  · next hc => have := x.isLt; omega

theorem readDyn_consumed {b b' : RBuf} {k : Conv} {o : Option JStr} (h : readDyn b k.strLen k.order = (b', .ok o)) :
    (∃ p bytes, Count k k.strLen bytes.length p ∧ bytes ≠ [] ∧ o = some (utf8Dec bytes) ∧ Consumed b b' (p ++ bytes))
    ∨ ∃ p z, Count k k.strLen z p ∧ z ≤ 0 ∧ o = none ∧ Consumed b b' p := by
  unfold readDyn at h
  revert h
  rcases hr : b.readNum k.order k.strLen with ⟨b1, e | n⟩ <;> intro h
  · simp at h
  · obtain ⟨ht, hc⟩ := readNum_consumed_any hr
    dsimp only at h
    by_cases hz : 0 < n.bits.toInt
    · rw [if_pos hz] at h
      revert h
      rcases hx : b1.readText n.bits.toNat with ⟨b2, e | s⟩ <;> intro h
      · simp at h
      · simp only [Prod.mk.injEq, Except.ok.injEq] at h
        obtain ⟨rfl, rfl⟩ := h
        obtain ⟨X, h1, h2, h3⟩ := readText_consumed hx
        refine .inl ⟨n.bytes k.order, X, ⟨n, ht, ?_, rfl⟩, ?_, by rw [h2], hc.append h3⟩
        · rw [h1]; exact (toNat_of_pos _ hz).symm
        · rintro rfl
          have := toNat_of_pos _ hz
          simp only [List.length_nil] at h1
          omega
    · rw [if_neg hz] at h
      simp only [Prod.mk.injEq, Except.ok.injEq] at h
      obtain ⟨rfl, rfl⟩ := h
      exact .inr ⟨_, _, ⟨n, ht, rfl, rfl⟩, by omega, rfl, hc⟩

/-- What the call accepts is in the grammar, and so is where it meets an unknown key. -/
def CallSound (w : World) (call : DecCall) : Prop :=
  ∀ c olds b, fieldsHaveType (javaTypes c) olds = true →
    (∀ news b', call c olds b = (news, b', none) → ∃ X, Consumed b b' X ∧ Msg w c olds X news)
    ∧ (∀ gs b', call c olds b = (gs, b', some .illegalArgument) → ∃ X, Consumed b b' X ∧ MsgStuck w c olds X)

theorem decElem_sound (w : World) (call : DecCall) (hc : CallSound w call) (k : Conv) (e : EWTy) (b b' : RBuf) :
    (∀ v, decElem call (decElOf k e) b = (b', .ok (some v)) → ∃ X, Consumed b b' X ∧ Elem w k e X v)
    ∧ (decElem call (decElOf k e) b = (b', .ok none) → ∃ X z, Consumed b b' X ∧ e = .vstr ∧ Count k k.strLen z X ∧ z ≤ 0)
    ∧ (decElem call (decElOf k e) b = (b', .error .illegalArgument) →
        ∃ c X, e = .sub c ∧ Consumed b b' X ∧ MsgStuck w c (freshFields c) X) := by
  cases e with
  | num p =>
    simp only [decElem, decElOf]
    rcases hr : b.readNum (ordOf k p) p with ⟨b1, e | n⟩
    · refine ⟨fun v h => by simp at h, fun h => by simp at h, fun h => ?_⟩
      simp only [Prod.mk.injEq, Except.error.injEq] at h
      rw [readNum_err hr] at h; simp at h
    · refine ⟨fun v h => ?_, fun h => by simp at h, fun h => by simp at h⟩
      simp only [Prod.mk.injEq, Except.ok.injEq, Option.some.injEq] at h
      obtain ⟨rfl, rfl⟩ := h
      obtain ⟨rfl, h2⟩ := readNum_consumed_any hr
      rw [bytes_ordOf] at h2
      exact ⟨_, h2, .num n⟩
  | text n pad left =>
    simp only [decElem, decElOf]
    rcases hr : readFixedString b n pad left with ⟨b1, e | s⟩
    · refine ⟨fun v h => by simp at h, fun h => by simp at h, fun h => ?_⟩
      simp only [Prod.mk.injEq, Except.error.injEq] at h
      rw [readFixed_err hr] at h; simp at h
    · refine ⟨fun v h => ?_, fun h => by simp at h, fun h => by simp at h⟩
      simp only [Prod.mk.injEq, Except.ok.injEq, Option.some.injEq] at h
      obtain ⟨rfl, rfl⟩ := h
      obtain ⟨X, h1, h2, h3⟩ := readFixed_consumed hr
      exact ⟨X, h3, .text h1 h2⟩
  | vstr =>
    simp only [decElem, decElOf]
    rcases hr : readDyn b k.strLen k.order with ⟨b1, e | o⟩
    · refine ⟨fun v h => by simp at h, fun h => by simp at h, fun h => ?_⟩
      simp only [Prod.mk.injEq, Except.error.injEq] at h
      rw [readDyn_err hr] at h; simp at h
    · rcases readDyn_consumed hr with ⟨p, X, h1, h2, rfl, h3⟩ | ⟨p, z, h1, h2, rfl, h3⟩
      · refine ⟨fun v h => ?_, fun h => by simp at h, fun h => by simp at h⟩
        simp only [Prod.mk.injEq, Except.ok.injEq, Option.map_some, Option.some.injEq] at h
        obtain ⟨rfl, rfl⟩ := h
        exact ⟨_, h3, .str h1 h2⟩
      · refine ⟨fun v h => by simp at h, fun h => ?_, fun h => by simp at h⟩
        simp only [Prod.mk.injEq, Option.map_none, and_true] at h
        subst h
        exact ⟨p, z, h3, trivial, h1, h2⟩
  | sub c =>
    simp only [decElem, decElOf]
    have := hc c (freshFields c) b (typed_fresh c)
    revert this
    rcases call c (freshFields c) b with ⟨fs, b1, _ | e⟩ <;> intro this
    · refine ⟨fun v h => ?_, fun h => by simp at h, fun h => by simp at h⟩
      simp only [Prod.mk.injEq, Except.ok.injEq, Option.some.injEq] at h
      obtain ⟨rfl, rfl⟩ := h
      obtain ⟨X, h1, h2⟩ := this.1 _ _ rfl
      exact ⟨X, h1, .sub h2⟩
    · refine ⟨fun v h => by simp at h, fun h => by simp at h, fun h => ?_⟩
      simp only [Prod.mk.injEq, Except.error.injEq] at h
      obtain ⟨rfl, rfl⟩ := h
      obtain ⟨X, h1, h2⟩ := this.2 _ _ rfl
      exact ⟨c, X, rfl, h1, h2⟩

theorem decElems_sound (w : World) (call : DecCall) (hc : CallSound w call) (k : Conv) (e : EWTy) (m : Nat) :
    ∀ (acc : List Val) (b b' : RBuf) (ys : List Val),
      (decElems call (decElOf k e) m acc b = (ys, b', none) → ∃ X xs, ys = acc ++ xs ∧ Consumed b b' X ∧ Elems w k e m X xs)
      ∧ (decElems call (decElOf k e) m acc b = (ys, b', some .illegalArgument) →
          ∃ c i X X' xs, i < m ∧ e = .sub c ∧ Consumed b b' (X ++ X') ∧ Elems w k (.sub c) i X xs ∧ MsgStuck w c (freshFields c) X') := by
  induction m with
  | zero =>
    intro acc b b' ys
    refine ⟨fun h => ?_, fun h => by simp [decElems] at h⟩
    simp only [decElems, Prod.mk.injEq, and_true] at h
    obtain ⟨rfl, rfl⟩ := h
    exact ⟨[], [], by simp, .nil b, .nil⟩
  | succ m ih =>
    intro acc b b' ys
    simp only [decElems]
    have hs := fun b' => decElem_sound w call hc k e b b'
    revert hs
    rcases decElem call (decElOf k e) b with ⟨b1, er | _ | v⟩ <;> intro hs
    · refine ⟨fun h => by simp at h, fun h => ?_⟩
      simp only [Prod.mk.injEq, Option.some.injEq] at h
      obtain ⟨_, rfl, rfl⟩ := h
      obtain ⟨c, X, rfl, h1, h2⟩ := (hs b1).2.2 rfl
      exact ⟨c, 0, [], X, [], by omega, rfl, by simpa using h1, .nil, h2⟩
    · obtain ⟨X, z, h1, rfl, h3, h4⟩ := (hs b1).2.1 rfl
      refine ⟨fun h => ?_, fun h => ?_⟩
      · obtain ⟨Y, xs, rfl, h6, h7⟩ := (ih acc b1 b' ys).1 h
        exact ⟨X ++ Y, xs, rfl, h1.append h6, .skip h3 h4 h7⟩
      · obtain ⟨c, i, Y, Y', xs, _, h6, _⟩ := (ih acc b1 b' ys).2 h
        cases h6
    · obtain ⟨X, h1, h2⟩ := (hs b1).1 v rfl
      refine ⟨fun h => ?_, fun h => ?_⟩
      · obtain ⟨Y, xs, rfl, h6, h7⟩ := (ih (acc ++ [v]) b1 b' ys).1 h
        exact ⟨X ++ Y, v :: xs, by simp, h1.append h6, .cons h2 h7⟩
      · obtain ⟨c, i, Y, Y', xs, h5, rfl, h6, h7, h8⟩ := (ih (acc ++ [v]) b1 b' ys).2 h
        exact ⟨c, i + 1, X ++ Y, Y', v :: xs, by omega, rfl, by rw [List.append_assoc]; exact h1.append h6, .cons h2 h7, h8⟩

theorem readField_sound (w : World) (hw : TypedSuppliers w) (call : DecCall) (hc : CallSound w call) (k : Conv) (front : List Val) (t : WTy)
    (old : Val) (b : RBuf) (ho : hasType t.java old = true) :
    (∀ v b', readField w call k front t old b = (v, b', none) → ∃ X, Consumed b b' X ∧ Field w k front t old X v)
    ∧ (∀ v b', readField w call k front t old b = (v, b', some .illegalArgument) →
        ∃ X, Consumed b b' X ∧ FieldStuck w k front t old X) := by
  have num : ∀ p : PTy, ∀ v b', (match b.readNum (ordOf k p) p with
        | (b', .ok n) => (Val.num n, b', (none : Option JErr))
        | (b', .error e) => (old, b', some e)) = (v, b', none) →
      ∃ n : Num, n.ty = p ∧ v = .num n ∧ Consumed b b' (n.bytes k.order) := by
    intro p v b' h
    revert h
    rcases hr : b.readNum (ordOf k p) p with ⟨b1, e | n⟩ <;> intro h
    · simp at h
    · simp only [Prod.mk.injEq, and_true] at h
      obtain ⟨rfl, rfl⟩ := h
      obtain ⟨rfl, h2⟩ := readNum_consumed_any hr
      rw [bytes_ordOf] at h2
      exact ⟨n, rfl, rfl, h2⟩
  have numErr : ∀ p : PTy, ∀ v b', (match b.readNum (ordOf k p) p with
        | (b', .ok n) => (Val.num n, b', (none : Option JErr))
        | (b', .error e) => (old, b', some e)) ≠ (v, b', some .illegalArgument) := by
    intro p v b' h
    revert h
    rcases hr : b.readNum (ordOf k p) p with ⟨b1, e | n⟩ <;> intro h
    · simp only [Prod.mk.injEq, Option.some.injEq] at h
      rw [readNum_err hr] at h; simp at h
    · simp at h
  have obj : ∀ (d : Cls) (fs : List Val), fieldsHaveType (javaTypes d) fs = true →
      (∀ v b', (Val.obj d (call d fs b).1, (call d fs b).2) = (v, b', none) →
        ∃ X gs, Consumed b b' X ∧ v = .obj d gs ∧ Msg w d fs X gs)
      ∧ (∀ v b', (Val.obj d (call d fs b).1, (call d fs b).2) = (v, b', some .illegalArgument) →
        ∃ X, Consumed b b' X ∧ MsgStuck w d fs X) := by
    intro d fs hd
    have := hc d fs b hd
    revert this
    rcases call d fs b with ⟨gs, b1, _ | e⟩ <;> intro this
    · refine ⟨fun v b' h => ?_, fun v b' h => by simp at h⟩
      simp only [Prod.mk.injEq, and_true] at h
      obtain ⟨rfl, rfl⟩ := h
      obtain ⟨X, h1, h2⟩ := this.1 _ _ rfl
      exact ⟨X, gs, h1, rfl, h2⟩
    · refine ⟨fun v b' h => by simp at h, fun v b' h => ?_⟩
      simp only [Prod.mk.injEq, Option.some.injEq] at h
      obtain ⟨rfl, rfl, rfl⟩ := h
      exact this.2 _ _ rfl
  cases t with
  | num p =>
    refine ⟨fun v b' h => ?_, fun v b' h => absurd h (numErr p v b')⟩
    obtain ⟨n, rfl, rfl, h3⟩ := num p v b' h
    exact ⟨_, h3, .num n⟩
  | len p =>
    refine ⟨fun v b' h => ?_, fun v b' h => absurd h (numErr p v b')⟩
    obtain ⟨n, rfl, rfl, h3⟩ := num p v b' h
    exact ⟨_, h3, .len n⟩
  | cksum p alg =>
    refine ⟨fun v b' h => ?_, fun v b' h => absurd h (numErr p v b')⟩
    obtain ⟨n, rfl, rfl, h3⟩ := num p v b' h
    exact ⟨_, h3, .cksum n⟩
  | text n pad left =>
    simp only [readField]
    rcases hr : readFixedString b n pad left with ⟨b1, e | s⟩
    · refine ⟨fun v b' h => by simp at h, fun v b' h => ?_⟩
      simp only [Prod.mk.injEq, Option.some.injEq] at h
      rw [readFixed_err hr] at h; simp at h
    · refine ⟨fun v b' h => ?_, fun v b' h => by simp at h⟩
      simp only [Prod.mk.injEq, and_true] at h
      obtain ⟨rfl, rfl⟩ := h
      obtain ⟨X, h1, h2, h3⟩ := readFixed_consumed hr
      exact ⟨X, h3, .text h1 h2⟩
  | vstr =>
    simp only [readField]
    rcases hr : readDyn b k.strLen k.order with ⟨b1, e | o⟩
    · refine ⟨fun v b' h => by simp at h, fun v b' h => ?_⟩
      simp only [Prod.mk.injEq, Option.some.injEq] at h
      rw [readDyn_err hr] at h; simp at h
    · rcases readDyn_consumed hr with ⟨p, X, h1, h2, rfl, h3⟩ | ⟨p, z, h1, h2, rfl, h3⟩
      · refine ⟨fun v b' h => ?_, fun v b' h => by simp at h⟩
        simp only [Prod.mk.injEq, and_true] at h
        obtain ⟨rfl, rfl⟩ := h
        exact ⟨_, h3, .str h1 h2⟩
      · refine ⟨fun v b' h => ?_, fun v b' h => by simp at h⟩
        simp only [Prod.mk.injEq, and_true] at h
        obtain ⟨rfl, rfl⟩ := h
        exact ⟨p, h3, .strNone h1 h2⟩
  | list e =>
    simp only [readField]
    rcases hr : b.readNum k.order k.listLen with ⟨b1, er | n⟩
    · refine ⟨fun v b' h => by simp at h, fun v b' h => ?_⟩
      simp only [Prod.mk.injEq, Option.some.injEq] at h
      rw [readNum_err hr] at h; simp at h
    · obtain ⟨ht, hn⟩ := readNum_consumed_any hr
      dsimp only
      by_cases hz : 0 < n.bits.toInt
      · rw [if_pos hz]
        have hpos := toNat_of_pos _ hz
        have := fun b' ys => decElems_sound w call hc k e n.bits.toNat [] b1 b' ys
        revert this
        rcases decElems call (decElOf k e) n.bits.toNat [] b1 with ⟨ys, b2, r⟩
        intro this
        refine ⟨fun v b' h => ?_, fun v b' h => ?_⟩
        · simp only [Prod.mk.injEq] at h
          obtain ⟨rfl, rfl, rfl⟩ := h
          obtain ⟨X, xs, h1, h2, h3⟩ := (this b2 ys).1 rfl
          rw [List.nil_append] at h1
          subst h1
          exact ⟨_, hn.append h2, .list ⟨n, ht, hpos.symm, rfl⟩ (by omega) h3⟩
        · simp only [Prod.mk.injEq] at h
          obtain ⟨rfl, rfl, rfl⟩ := h
          obtain ⟨c, i, X, X', xs, h1, rfl, h2, h3, h4⟩ := (this b2 ys).2 rfl
          refine ⟨_, hn.append h2, ?_⟩
          rw [← List.append_assoc]
          exact .list ⟨n, ht, hpos.symm, rfl⟩ h1 h3 h4
      · rw [if_neg hz]
        refine ⟨fun v b' h => ?_, fun v b' h => by simp at h⟩
        simp only [Prod.mk.injEq, and_true] at h
        obtain ⟨rfl, rfl⟩ := h
        exact ⟨_, hn, .listNone ⟨n, ht, rfl, rfl⟩ (by omega)⟩
  | sub c =>
    cases old with
    | null =>
      have := obj c (freshFields c) (typed_fresh c)
      refine ⟨fun v b' h => ?_, fun v b' h => ?_⟩
      · obtain ⟨X, gs, h1, rfl, h2⟩ := this.1 v b' h
        exact ⟨X, h1, .subNew h2⟩
      · obtain ⟨X, h1, h2⟩ := this.2 v b' h
        exact ⟨X, h1, .subNew h2⟩
    | obj d fs =>
      have hd : fieldsHaveType (javaTypes d) fs = true := by
        simp only [hasType, Bool.and_eq_true] at ho; exact ho.2
      have := obj d fs hd
      refine ⟨fun v b' h => ?_, fun v b' h => ?_⟩
      · obtain ⟨X, gs, h1, rfl, h2⟩ := this.1 v b' h
        exact ⟨X, h1, .subOld h2⟩
      · obtain ⟨X, h1, h2⟩ := this.2 v b' h
        exact ⟨X, h1, .subOld h2⟩
    | num n => simp [hasType, WTy.java] at ho
    | str s => simp [hasType, WTy.java] at ho
    | list xs => simp [hasType, WTy.java] at ho
  | ext fac key =>
    simp only [readField]
    rcases hk : front[key]? with _ | kv
    · exact ⟨fun v b' h => by simp at h, fun v b' h => by simp at h⟩
    · dsimp only
      rcases hf : w.fac fac (keyOf kv) with _ | v0
      · refine ⟨fun v b' h => by simp at h, fun v b' h => ?_⟩
        simp only [Prod.mk.injEq, and_true] at h
        obtain ⟨rfl, rfl⟩ := h
        exact ⟨[], .nil b, .ext hk hf⟩
      · have hty := hw fac _ _ hf
        cases v0 with
        | obj d fs =>
          have hd : fieldsHaveType (javaTypes d) fs = true := by
            simpa only [wellTyped, hasType, Bool.true_and] using hty
          have := obj d fs hd
          refine ⟨fun v b' h => ?_, fun v b' h => ?_⟩
          · obtain ⟨X, gs, h1, rfl, h2⟩ := this.1 v b' h
            exact ⟨X, h1, .ext hk hf h2⟩
          · obtain ⟨X, h1, h2⟩ := this.2 v b' h
            exact ⟨X, h1, .extIn hk hf h2⟩
        | null => simp [wellTyped] at hty
        | num n => simp [wellTyped] at hty
        | str s => simp [wellTyped] at hty
        | list xs => simp [wellTyped] at hty

theorem readFields_sound (w : World) (hw : TypedSuppliers w) (call : DecCall) (hc : CallSound w call) (k : Conv) (ts : List WTy) :
    ∀ (front olds : List Val) (b : RBuf), fieldsHaveType (ts.map WTy.java) olds = true →
      (∀ gs b', readFields w call k front ts olds b = (gs, b', none) →
        ∃ X news, gs = front ++ news ∧ Consumed b b' X ∧ Fields w k front ts olds X news)
      ∧ (∀ gs b', readFields w call k front ts olds b = (gs, b', some .illegalArgument) →
        ∃ ts1 t ts2 olds1 old olds2 X X' news, ts = ts1 ++ t :: ts2 ∧ olds = olds1 ++ old :: olds2 ∧ olds2.length = ts2.length
          ∧ Consumed b b' (X ++ X') ∧ Fields w k front ts1 olds1 X news ∧ FieldStuck w k (front ++ news) t old X') := by
  induction ts with
  | nil =>
    intro front olds b ho
    have : olds = [] := by cases olds with | nil => rfl | cons => simp [fieldsHaveType] at ho
    subst this
    refine ⟨fun gs b' h => ?_, fun gs b' h => by simp [readFields] at h⟩
    simp only [readFields, Prod.mk.injEq, and_true, List.append_nil] at h
    obtain ⟨rfl, rfl⟩ := h
    exact ⟨[], [], by simp, .nil b, .nil⟩
  | cons t ts ih =>
    intro front olds b ho
    cases olds with
    | nil => simp [fieldsHaveType] at ho
    | cons old olds =>
      simp only [List.map_cons, fieldsHaveType, Bool.and_eq_true] at ho
      have hlen : olds.length = ts.length := by
        have := fieldsHaveType_length _ _ ho.2
        simpa using this
      have hf := readField_sound w hw call hc k front t old b ho.1
      simp only [readFields]
      revert hf
      rcases readField w call k front t old b with ⟨v, b1, _ | e⟩ <;> intro hf
      · obtain ⟨X, h1, h2⟩ := hf.1 _ _ rfl
        have := ih (front ++ [v]) olds b1 ho.2
        refine ⟨fun gs b' h => ?_, fun gs b' h => ?_⟩
        · obtain ⟨Y, news, rfl, h3, h4⟩ := this.1 gs b' h
          exact ⟨X ++ Y, v :: news, by simp, h1.append h3, .cons h2 h4⟩
        · obtain ⟨ts1, u, ts2, olds1, o, olds2, Y, Y', news, rfl, rfl, h5, h3, h4, h6⟩ := this.2 gs b' h
          refine ⟨t :: ts1, u, ts2, old :: olds1, o, olds2, X ++ Y, Y', v :: news, rfl, rfl, h5, ?_, .cons h2 h4, ?_⟩
          · rw [List.append_assoc]; exact h1.append h3
          · simpa using h6
      · refine ⟨fun gs b' h => by simp at h, fun gs b' h => ?_⟩
        simp only [Prod.mk.injEq, Option.some.injEq] at h
        obtain ⟨rfl, rfl, rfl⟩ := h
        obtain ⟨X, h1, h2⟩ := hf.2 _ _ rfl
        exact ⟨[], t, ts, [], old, olds, [], X, [], rfl, rfl, hlen, by simpa using h1, .nil, by simpa using h2⟩

theorem decode_sound (w : World) (hw : TypedSuppliers w) (n : Nat) : CallSound w (decode w n) := by
  induction n with
  | zero => intro c olds b _; exact ⟨fun _ _ h => by simp [decode] at h, fun _ _ h => by simp [decode] at h⟩
  | succ n ih =>
    intro c olds b ho
    rw [decode_eq w n c olds b (fields_length c olds ho)]
    have := readFields_sound w hw (decode w n) ih (conv c.mod) (wire c) [] olds b (by rw [← type_table]; exact ho)
    refine ⟨fun news b' h => ?_, fun gs b' h => ?_⟩
    · obtain ⟨X, ns, rfl, h1, h2⟩ := this.1 _ _ h
      exact ⟨X, h1, .mk h2⟩
    · obtain ⟨ts1, t, ts2, olds1, o, olds2, X, X', ns, h1, h2, h3, h4, h5, h6⟩ := this.2 _ _ h
      exact ⟨_, h4, .mk h1 h2 h3 h5 (by simpa using h6)⟩

end FinProto
