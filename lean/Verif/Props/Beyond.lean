import Verif.Props.DecodeLocal
import Verif.Props.DecodeErrors
import Verif.Spec.Beyond
/-
C52, exactly: the classes whose `decode` can read beyond the writer index.
-/
namespace FinProto

set_option maxRecDepth 100000 in
theorem endsInText_table : allCls.all (fun c => textLast endsInText (wire c).reverse == endsInText c) = true := by decide +kernel

theorem endsInText_eq (c : Cls) : textLast endsInText (wire c).reverse = endsInText c := by
  have := List.all_eq_true.mp endsInText_table c (mem_allCls c)
  simpa using this

/-- Reader and writer index are in order. -/
def RBuf.InOrder (b : RBuf) : Prop := b.rd ≤ b.data.length

theorem readNum_inOrder {b b' : RBuf} {e : Endian} {t : PTy} {n : Num} (h : b.readNum e t = (b', .ok n)) : b'.InOrder := by
  unfold RBuf.readNum at h
  split at h
  · next hle =>
    simp only [Prod.mk.injEq] at h
    rw [← h.1]
    exact hle
  · simp at h

/-- Calls on objects of the classes that cannot end with text leave the indices in order. -/
def CallInOrder (call : DecCall) : Prop :=
  ∀ c fs b, endsInText c = false → fieldsHaveType (javaTypes c) fs = true → b.InOrder → (call c fs b).2.2 = none → (call c fs b).2.1.InOrder

theorem decElems_inOrder (call : DecCall) (el : DecElem)
    (h1 : ∀ b b' v, b.InOrder → decElem call el b = (b', .ok v) → b'.InOrder) :
    ∀ (n : Nat) (acc : List Val) (b : RBuf), b.InOrder → (decElems call el n acc b).2.2 = none → (decElems call el n acc b).2.1.InOrder := by
  intro n
  induction n with
  | zero => intro acc b hb _; exact hb
  | succ n ih =>
    intro acc b hb
    have h := h1 b
    simp only [decElems]
    revert h
    rcases decElem call el b with ⟨b', e | _ | v⟩ <;> intro h hok
    · cases hok
    · exact ih _ _ (h b' none hb rfl) hok
    · exact ih _ _ (h b' (some v) hb rfl) hok

theorem readField_inOrder (w : World) (hw : TypedSuppliers w) (hd : DefaultClasses w) (call : DecCall) (hc : CallInOrder call) (k : Conv)
    (done : List Val) (t : WTy) (before : List WTy) (old : Val) (b : RBuf) (ht : hasType t.java old = true)
    (hlast : textLast endsInText (t :: before) = false) (hb : textLast endsInText before = false → b.InOrder)
    (hok : (readField w call k done t old b).2.2 = none) : (readField w call k done t old b).2.1.InOrder := by
  have hnum : ∀ p, (readField w call k done (.num p) old b).2.2 = none → (readField w call k done (.num p) old b).2.1.InOrder := by
    intro p hok
    simp only [readField] at hok ⊢
    revert hok
    rcases hr : b.readNum (ordOf k p) p with ⟨b', e | n⟩ <;> intro hok
    · cases hok
    · exact readNum_inOrder hr
  cases t with
  | num p => exact hnum p hok
  | len p => exact hnum p hok
  | cksum p a => exact hnum p hok
  | text n pad left => simp [textLast] at hlast
  | vstr => simp [textLast] at hlast
  | list e =>
    simp only [readField] at hok ⊢
    revert hok
    rcases hr : b.readNum k.order k.listLen with ⟨b', er | n⟩ <;> intro hok
    · cases hok
    · dsimp only at hok ⊢
      have hb' := readNum_inOrder hr
      by_cases hp : 0 < n.bits.toInt
      · rw [if_pos hp] at hok ⊢
        refine decElems_inOrder call _ ?_ _ _ _ hb' hok
        intro b1 b2 v h1 h2
        cases e with
        | num p =>
          simp only [decElOf, decElem] at h2
          revert h2
          rcases hr : b1.readNum (ordOf k p) p with ⟨b3, er | m⟩ <;> intro h2
          · simp at h2
          · simp only [Prod.mk.injEq] at h2
            rw [← h2.1]
            exact readNum_inOrder hr
        | text n pad left => simp [textLast] at hlast
        | vstr => simp [textLast] at hlast
        | sub c =>
          simp only [decElOf, decElem] at h2
          simp only [textLast] at hlast
          have := hc c (freshFields c) b1 hlast (typed_fresh c) h1
          revert h2 this
          rcases call c (freshFields c) b1 with ⟨fs, b3, _ | er⟩ <;> intro h2 this
          · simp only [Prod.mk.injEq] at h2
            rw [← h2.1]
            exact this rfl
          · simp at h2
      · rw [if_neg hp]
        exact hb'
  | sub c =>
    simp only [textLast, Bool.or_eq_false_iff] at hlast
    simp only [readField] at hok ⊢
    cases old with
    | null => exact hc c _ b hlast.1 (typed_fresh c) (hb hlast.2) hok
    | obj c' fs' =>
      simp only [WTy.java, hasType, Bool.and_eq_true, decide_eq_true_eq] at ht
      obtain ⟨rfl, ht⟩ := ht
      exact hc _ fs' b hlast.1 ht (hb hlast.2) hok
    | num _ => cases hok
    | str _ => cases hok
    | list _ => cases hok
  | ext fac key =>
    simp only [textLast, Bool.or_eq_false_iff] at hlast
    simp only [readField] at hok ⊢
    cases hk : done[key]? with
    | none => rw [hk] at hok; cases hok
    | some kv =>
      rw [hk] at hok
      dsimp only at hok ⊢
      cases hf : w.fac fac (keyOf kv) with
      | none => rw [hf] at hok; cases hok
      | some v =>
        rw [hf] at hok
        cases v with
        | obj c' fs' =>
          obtain ⟨r, hr1, hr2, hr3⟩ := hd _ _ _ _ hf
          have ht := hw _ _ _ hf
          have he : endsInText c' = false := by
            have := List.any_eq_false.mp hlast.1 r hr1
            simpa [hr2, hr3] using this
          simp only [wellTyped, hasType, Bool.and_eq_true] at ht
          exact hc c' fs' b he ht.2 (hb hlast.2) hok
        | null => cases hok
        | num _ => cases hok
        | str _ => cases hok
        | list _ => cases hok

theorem readFields_inOrder (w : World) (hw : TypedSuppliers w) (hd : DefaultClasses w) (call : DecCall) (hc : CallInOrder call) (k : Conv)
    (rs : List WTy) : ∀ (olds : List Val) (b : RBuf), fieldsHaveType (rs.reverse.map WTy.java) olds = true →
      textLast endsInText rs = false → b.InOrder → (readFields w call k [] rs.reverse olds b).2.2 = none →
      (readFields w call k [] rs.reverse olds b).2.1.InOrder := by
  induction rs with
  | nil =>
    intro olds b _ _ hb hok
    simpa [readFields] using hb
  | cons t rs ih =>
    intro olds b ht hl hb hok
    rw [List.reverse_cons] at ht hok ⊢
    have hlen := fieldsHaveType_length _ _ ht
    simp only [List.map_append, List.map_cons, List.map_nil, List.length_append, List.length_map, List.length_reverse, List.length_cons,
      List.length_nil] at hlen
    rcases List.eq_nil_or_concat olds with h | ⟨o1, o, h⟩
    · rw [h] at hlen; simp at hlen
    · rw [List.concat_eq_append] at h
      subst h
      have hl1 : o1.length = rs.reverse.length := by simp at hlen ⊢; omega
      have hsplit : ∀ (ts : List FTy) (vs : List Val) (a : FTy) (v : Val), vs.length = ts.length → fieldsHaveType (ts ++ [a]) (vs ++ [v]) = true →
          fieldsHaveType ts vs = true ∧ hasType a v = true := by
        intro ts
        induction ts with
        | nil =>
          intro vs a v h h'
          have : vs = [] := List.length_eq_zero_iff.mp h
          subst this
          simpa [fieldsHaveType] using h'
        | cons s ts ih =>
          intro vs a v h h'
          cases vs with
          | nil => simp at h
          | cons x vs =>
            simp only [List.cons_append, fieldsHaveType, Bool.and_eq_true] at h' ⊢
            obtain ⟨g1, g2⟩ := ih vs a v (by simpa using h) h'.2
            exact ⟨⟨h'.1, g1⟩, g2⟩
      rw [List.map_append] at ht
      obtain ⟨ht1, ht2⟩ := hsplit (rs.reverse.map WTy.java) o1 t.java o (by simp [hl1]) ht
      have ih := ih o1 b ht1
      rw [readFields_append w call k rs.reverse [t] [] o1 [o] b hl1] at hok ⊢
      revert ih hok
      rcases readFields w call k [] rs.reverse o1 b with ⟨gs, b', _ | e⟩ <;> intro hok ih
      · have key := readField_inOrder w hw hd call hc k gs t rs o b' ht2 hl (fun h => ih h hb rfl)
        simp only [readFields] at hok ⊢
        revert key hok
        rcases readField w call k gs t o b' with ⟨v, b2, _ | e⟩ <;> intro hok key
        · exact key rfl
        · cases hok
      · cases hok

theorem decode_inOrder (w : World) (hw : TypedSuppliers w) (hd : DefaultClasses w) (n : Nat) : CallInOrder (decode w n) := by
  induction n with
  | zero => intro c fs b _ _ _ hok; cases hok
  | succ n ih =>
    intro c fs b he ht hb hok
    rw [decode_eq w n c fs b (fields_length c fs ht)] at hok ⊢
    have := readFields_inOrder w hw hd (decode w n) ih (conv c.mod) (wire c).reverse fs b
    rw [List.reverse_reverse] at this
    exact this (by rw [← type_table]; exact ht) (by rw [endsInText_eq, he]) hb hok

/-- Bytes of a message of class `c` whose last byte belongs to a text, if there are any. -/
def textBytes : Nat → Cls → List Byte
  | 0, _ => []
  | n + 1, c =>
    let k := conv c.mod
    let el : EWTy → List Byte
      | .num t => List.replicate t.size 0
      | .text m _ _ => List.replicate m 0x41
      | .vstr => toBytes k.order k.strLen.size 1 ++ [0x41]
      | .sub c' => textBytes n c'
    let choice (fac : Fac) : Option Reg :=
      (defaultRegs.find? fun r => decide (r.fac = fac) && endsInText r.cls).or (defaultRegs.find? fun r => decide (r.fac = fac))
    let keyed (i : Nat) : Option Key :=
      (wire c).findSome? fun t => match t with | .ext fac key => if key = i then (choice fac).map (·.key) else none | _ => none
    ((List.range (wire c).length).zip (wire c)).flatMap fun p =>
      match p.2 with
      | .num t =>
        match keyed p.1 with
        | some (.int v) => toBytes k.order t.size v.toNat
        | some (.short v) => toBytes k.order t.size v.toNat
        | _ => List.replicate t.size 0
      | .len t | .cksum t _ => List.replicate t.size 0
      | .text m pad _ =>
        match keyed p.1 with
        | some (.str s) => s.map (fun c => BitVec.ofNat 8 c.toNat) ++ List.replicate (m - s.length) (BitVec.ofNat 8 pad.toNat)
        | _ => List.replicate m 0x41
      | .vstr => el .vstr
      | .list e => toBytes k.order k.listLen.size 1 ++ el e
      | .sub c' => textBytes n c'
      | .ext fac _ => match choice fac with | some r => textBytes n r.cls | none => []

set_option maxRecDepth 100000 in
theorem textBytes_table : allCls.all (fun c => !endsInText c ||
    (let r := decode World.initial 3 c (freshFields c) ⟨(textBytes 3 c).dropLast, (textBytes 3 c).drop ((textBytes 3 c).length - 1), 0⟩
     r.2.2.isNone && decide ((textBytes 3 c).dropLast.length < r.2.1.rd))) = true := by decide +kernel

/-- **C52 (exactly).** With the suppliers the classes start with, or any others that give typed objects of the classes registered by default:
a successful `decode` of an object of class `c` can end with the reader index beyond the writer index if and only if messages of class `c`
can end, on the wire, with text. -/
theorem C52_exact (c : Cls) :
    endsInText c = true ↔ ∃ (w : World) (n : Nat) (fs : List Val) (b : RBuf), TypedSuppliers w ∧ DefaultClasses w
      ∧ wellTyped (.obj c fs) = true ∧ b.rd ≤ b.data.length ∧ (decode w n c fs b).2.2 = none ∧ b.data.length < (decode w n c fs b).2.1.rd := by
  constructor
  · intro h
    have := List.all_eq_true.mp textBytes_table c (mem_allCls c)
    rw [h] at this
    simp only [Bool.not_true, Bool.false_or, Bool.and_eq_true, decide_eq_true_eq, Option.isNone_iff_eq_none] at this
    exact ⟨World.initial, 3, freshFields c, ⟨(textBytes 3 c).dropLast, (textBytes 3 c).drop ((textBytes 3 c).length - 1), 0⟩,
      C28_default_world.1, C28_default_world.2, by simp [wellTyped, hasType, typed_fresh c], Nat.zero_le _, this.1, this.2⟩
  · rintro ⟨w, n, fs, b, hw, hd, ht, hb, hok, hlt⟩
    rcases he : endsInText c with _ | _
    · simp only [wellTyped, hasType, Bool.and_eq_true] at ht
      have := decode_inOrder w hw hd n c fs b he ht.2 hb hok
      rw [RBuf.InOrder, (law_decode w n c fs).data b] at this
      omega
    · rfl

/-- **C52 (all other classes).** Which is to say: for the classes whose messages never end with text, a successful `decode` stays within the
bytes that have been received. -/
theorem C52_no_text_at_the_end_partial (w : World) (hw : TypedSuppliers w) (hd : DefaultClasses w) (n : Nat) (c : Cls)
    (hc : endsInText c = false) (fs : List Val) (ht : wellTyped (.obj c fs) = true) (b : RBuf) (hb : b.rd ≤ b.data.length)
    (hok : (decode w n c fs b).2.2 = none) : (decode w n c fs b).2.1.rd ≤ b.data.length := by
  apply Classical.byContradiction
  intro hn
  rw [(C52_exact c).mpr ⟨w, n, fs, b, hw, hd, ht, hb, hok, by omega⟩] at hc
  cases hc

/-- 111 classes can, 71 cannot; the frames with a checksum, the classes without fields and those that end with numbers or lists of numbers
are among the latter. -/
example : (allCls.filter endsInText).length = 111 ∧ (allCls.filter (! endsInText ·)).length = 71 := by decide +kernel

example : endsInText .sse_SseBinary = false ∧ endsInText .szse_SzseBinary = false ∧ endsInText .sample_RootPacket = false
    ∧ endsInText .risk_RcBinary = true ∧ endsInText .szse_NewOrder = true ∧ endsInText .sse_ExecRptInfo = false
    ∧ endsInText .bjse_Heartbeat = false ∧ endsInText .sse_Logout = true := by decide +kernel

end FinProto
