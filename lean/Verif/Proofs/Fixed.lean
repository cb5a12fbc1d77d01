import Verif.Spec.Fixed
import Verif.Spec.Everywhere
import Verif.Proofs.RoundTrip
import Verif.Proofs.Canonical
import Verif.Proofs.EncodeGen
/-
Helper lemmas about fixed-width fields.
-/
namespace FinProto

theorem ofBytes_ordOf (k : Conv) (p : PTy) (bs : List Byte) (h : bs.length = p.size) : ofBytes (ordOf k p) bs = ofBytes k.order bs := by
  cases p with
  | i8 =>
    match bs, h with
    | [x], _ => cases k.order <;> rfl
  | _ => rfl

/-- Reading one fixed-width field that is there. -/
theorem readField_fixed (w : World) (call : DecCall) (k : Conv) (done : List Val) (t : WTy) (old : Val) (b : RBuf) (n : Nat)
    (hn : t.width? = some n) (hb : b.rd + n ≤ b.data.length) :
    readField w call k done t old b = (fieldValue k t ((b.data.drop b.rd).take n), { b with rd := b.rd + n }, none) := by
  have hnum : ∀ p : PTy, b.rd + p.size ≤ b.data.length → b.readNum (ordOf k p) p =
      ({ b with rd := b.rd + p.size }, .ok ⟨p, BitVec.ofNat p.bits (ofBytes k.order ((b.data.drop b.rd).take p.size))⟩) := by
    intro p h
    rw [RBuf.readNum, if_pos h, Num.ofBytes, ofBytes_ordOf]
    simp; omega
  cases t with
  | num p =>
    simp only [WTy.width?, Option.some.injEq] at hn; subst hn
    simp only [readField, hnum p hb, fieldValue]
  | len p =>
    simp only [WTy.width?, Option.some.injEq] at hn; subst hn
    simp only [readField, hnum p hb, fieldValue]
  | cksum p alg =>
    simp only [WTy.width?, Option.some.injEq] at hn; subst hn
    simp only [readField, hnum p hb, fieldValue]
  | text m pad left =>
    simp only [WTy.width?, Option.some.injEq] at hn; subst hn
    simp only [readField, readFixedString_within b m pad left hb, fieldValue]
  | _ => simp [WTy.width?] at hn

/-- A successful read of a fixed-width field, wherever the bytes come from. -/
theorem readField_fixed_ok (w : World) (call : DecCall) (k : Conv) (done : List Val) (t : WTy) (old v : Val) (b b' : RBuf) (n : Nat)
    (hn : t.width? = some n) (h : readField w call k done t old b = (v, b', none)) :
    v = fieldValue k t (((b.data ++ b.spare).drop b.rd).take n) ∧ b' = { b with rd := b.rd + n } := by
  have hnum : ∀ p : PTy, (match b.readNum (ordOf k p) p with
        | (b', .ok n) => (.num n, b', none)
        | (b', .error e) => (old, b', some e)) = (v, b', (none : Option JErr)) →
      v = .num ⟨p, BitVec.ofNat p.bits (ofBytes k.order (((b.data ++ b.spare).drop b.rd).take p.size))⟩ ∧ b' = { b with rd := b.rd + p.size } := by
    intro p h
    rw [RBuf.readNum] at h
    by_cases hb : b.rd + p.size ≤ b.data.length
    · rw [if_pos hb] at h
      simp only [Prod.mk.injEq, and_true] at h
      obtain ⟨rfl, rfl⟩ := h
      rw [Num.ofBytes, ofBytes_ordOf _ _ _ (by simp; omega), List.drop_append_of_le_length (by omega),
        List.take_append_of_le_length (by simp; omega)]
      exact ⟨rfl, rfl⟩
    · rw [if_neg hb] at h
      simp at h
  cases t with
  | num p =>
    simp only [WTy.width?, Option.some.injEq] at hn; subst hn
    exact hnum p h
  | len p =>
    simp only [WTy.width?, Option.some.injEq] at hn; subst hn
    exact hnum p h
  | cksum p alg =>
    simp only [WTy.width?, Option.some.injEq] at hn; subst hn
    exact hnum p h
  | text m pad left =>
    simp only [WTy.width?, Option.some.injEq] at hn; subst hn
    simp only [readField, readFixedString, RBuf.readText] at h
    by_cases hm : m = 0
    · subst hm
      simp only [if_true] at h
      have : v = .str [] ∧ b' = b := by
        cases left <;> simp [trimByChar_eq] at h <;> (obtain ⟨rfl, rfl⟩ := h; simp [stripPad])
      obtain ⟨rfl, rfl⟩ := this
      refine ⟨?_, by simp⟩
      cases left <;> simp [fieldValue, stripPad]
    · rw [if_neg hm] at h
      by_cases hb : b.rd + m ≤ (b.data ++ b.spare).length
      · rw [if_pos hb] at h
        cases left <;>
        · simp only [trimByChar_eq, if_true, Bool.false_eq_true, if_false, Prod.mk.injEq, and_true] at h
          obtain ⟨rfl, rfl⟩ := h
          exact ⟨rfl, rfl⟩
      · rw [if_neg hb] at h
        simp at h
  | _ => simp [WTy.width?] at hn

/-- A failing read of a fixed-width field. -/
theorem readField_fixed_fail (w : World) (call : DecCall) (k : Conv) (done : List Val) (t : WTy) (old : Val) (b : RBuf) (n : Nat)
    (hn : t.width? = some n) (hs : b.spare = []) (hrd : b.rd ≤ b.data.length) (hb : ¬ b.rd + n ≤ b.data.length) :
    readField w call k done t old b = (old, b, some .indexOutOfBounds) := by
  cases t with
  | num p =>
    simp only [WTy.width?, Option.some.injEq] at hn; subst hn
    simp only [readField, RBuf.readNum, if_neg hb]
  | len p =>
    simp only [WTy.width?, Option.some.injEq] at hn; subst hn
    simp only [readField, RBuf.readNum, if_neg hb]
  | cksum p alg =>
    simp only [WTy.width?, Option.some.injEq] at hn; subst hn
    simp only [readField, RBuf.readNum, if_neg hb]
  | text m pad left =>
    simp only [WTy.width?, Option.some.injEq] at hn; subst hn
    have : m ≠ 0 := by intro h; subst h; omega
    simp only [readField, readFixedString, RBuf.readText, hs, List.append_nil, if_neg this, if_neg hb]
  | _ => simp [WTy.width?] at hn

theorem offset?_cons (t : WTy) (ts : List WTy) (i o : Nat) (h : offset? (t :: ts) (i + 1) = some o) :
    ∃ w o', t.width? = some w ∧ offset? ts i = some o' ∧ o = w + o' := by
  simp only [offset?] at h
  revert h
  cases t.width? <;> cases offset? ts i <;> intro h <;> simp at h
  exact ⟨_, _, rfl, rfl, h.symm⟩

/-- Reading a fixed-width header. -/
theorem readFields_head (w : World) (call : DecCall) (k : Conv) (ts : List WTy) : ∀ (i o : Nat) (done olds : List Val) (b : RBuf),
    offset? ts i = some o → olds.length = ts.length → b.rd + o ≤ b.data.length →
    readFields w call k done ts olds b =
      readFields w call k (done ++ headValues k (ts.take i) (b.data.drop b.rd)) (ts.drop i) (olds.drop i) { b with rd := b.rd + o } := by
  induction ts with
  | nil =>
    intro i o done olds b ho hl hb
    cases i with
    | zero =>
      simp only [offset?, Option.some.injEq] at ho
      subst ho
      simp [headValues]
    | succ i => simp [offset?] at ho
  | cons t ts ih =>
    intro i o done olds b ho hl hb
    cases i with
    | zero =>
      simp only [offset?, Option.some.injEq] at ho
      subst ho
      simp [headValues]
    | succ i =>
      obtain ⟨n, o', h1, h2, rfl⟩ := offset?_cons t ts i o ho
      cases olds with
      | nil => simp at hl
      | cons old olds =>
        simp only [readFields, readField_fixed w call k done t old b n h1 (by omega)]
        rw [ih i o' _ olds _ h2 (by simpa using hl) (by simp only; omega)]
        simp only [List.take_succ_cons, List.drop_succ_cons, headValues, h1, List.drop_drop, List.append_assoc, List.cons_append,
          List.nil_append, Nat.add_assoc]

/-- A header that is not complete. -/
theorem readFields_head_fail (w : World) (call : DecCall) (k : Conv) (ts : List WTy) : ∀ (i o : Nat) (done olds : List Val) (b : RBuf),
    offset? ts i = some o → olds.length = ts.length → b.rd ≤ b.data.length → ¬ b.rd + o ≤ b.data.length → b.spare = [] →
    (readFields w call k done ts olds b).2.2 = some .indexOutOfBounds := by
  induction ts with
  | nil =>
    intro i o done olds b ho hl hrd hb hs
    cases i with
    | zero =>
      simp only [offset?, Option.some.injEq] at ho
      omega
    | succ i => simp [offset?] at ho
  | cons t ts ih =>
    intro i o done olds b ho hl hrd hb hs
    cases i with
    | zero =>
      simp only [offset?, Option.some.injEq] at ho
      omega
    | succ i =>
      obtain ⟨n, o', h1, h2, rfl⟩ := offset?_cons t ts i o ho
      cases olds with
      | nil => simp at hl
      | cons old olds =>
        by_cases hb' : b.rd + n ≤ b.data.length
        · simp only [readFields, readField_fixed w call k done t old b n h1 hb']
          exact ih i o' _ olds _ h2 (by simpa using hl) hb' (by simp only; omega) hs
        · simp only [readFields, readField_fixed_fail w call k done t old b n h1 hs hrd hb']

theorem headValues_length (k : Conv) (ts : List WTy) : ∀ (i o : Nat) (bs : List Byte), offset? ts i = some o →
    (headValues k (ts.take i) bs).length = i := by
  induction ts with
  | nil => intro i o bs h; cases i <;> simp [offset?, headValues] at h ⊢
  | cons t ts ih =>
    intro i o bs h
    cases i with
    | zero => simp [headValues]
    | succ i =>
      obtain ⟨n, o', h1, h2, rfl⟩ := offset?_cons t ts i o h
      simp only [List.take_succ_cons, headValues, h1, List.length_cons, ih i o' _ h2]

/-- In a successful read, each field behind fixed-width fields comes from its offset. -/
theorem readFields_at (w : World) (call : DecCall) (k : Conv) (ts : List WTy) : ∀ (i o n : Nat) (t : WTy) (done olds : List Val) (b : RBuf),
    offset? ts i = some o → ts[i]? = some t → t.width? = some n → olds.length = ts.length →
    (readFields w call k done ts olds b).2.2 = none →
    (readFields w call k done ts olds b).1[done.length + i]? = some (fieldValue k t (((b.data ++ b.spare).drop (b.rd + o)).take n)) := by
  induction ts with
  | nil => intro i o n t done olds b ho ht; simp at ht
  | cons t0 ts ih =>
    intro i o n t done olds b ho ht hw hl hok
    cases olds with
    | nil => simp at hl
    | cons old olds =>
      simp only [readFields] at hok ⊢
      cases i with
      | zero =>
        simp only [offset?, Option.some.injEq] at ho
        simp only [List.getElem?_cons_zero, Option.some.injEq] at ht
        subst ho ht
        revert hok
        rcases hr : readField w call k done t0 old b with ⟨v, b', _ | e⟩ <;> intro hok
        · obtain ⟨rfl, rfl⟩ := readField_fixed_ok w call k done t0 old v b b' n hw hr
          obtain ⟨s, hs⟩ := readFields_prefix w call k ts (done ++ [fieldValue k t0 (((b.data ++ b.spare).drop b.rd).take n)]) olds { b with rd := b.rd + n }
          simp only [← hs, List.append_assoc, Nat.add_zero]
          simp
        · simp at hok
      | succ i =>
        obtain ⟨m, o', h1, h2, rfl⟩ := offset?_cons t0 ts i o ho
        revert hok
        rcases hr : readField w call k done t0 old b with ⟨v, b', _ | e⟩ <;> intro hok
        · obtain ⟨rfl, rfl⟩ := readField_fixed_ok w call k done t0 old v b b' m h1 hr
          have := ih i o' n t (done ++ [fieldValue k t0 (((b.data ++ b.spare).drop b.rd).take m)]) olds { b with rd := b.rd + m } h2
            (by simpa using ht) hw (by simpa using hl) hok
          simp only [List.length_append, List.length_cons, List.length_nil] at this
          rw [show done.length + (i + 1) = done.length + (0 + 1) + i by omega, this]
          simp only [Nat.add_assoc]
        · simp at hok

/-! ### writing back what was read -/

theorem scalars_append (a b : JStr) (h : ∀ c, b.head? = some c → isLow c = false) : scalars (a ++ b) = scalars a ++ scalars b := by
  fun_induction scalars a with
  | case1 => rfl
  | case2 c =>
    cases b with
    | nil => simp [scalars]
    | cons d t =>
      have hd := h d rfl
      simp only [List.cons_append, List.nil_append, scalars, hd, Bool.false_eq_true, if_false]
      cases hc : isHigh c <;> simp
  | case3 c d t h1 h2 ih => simp only [List.cons_append, scalars, h1, h2, if_true, ih]
  | case4 c d t h1 h2 ih =>
    have h2' : isLow d = false := by simpa using h2
    simp only [List.cons_append, scalars, h1, h2', if_true, Bool.false_eq_true, if_false]
    have := ih
    simp only [List.cons_append] at this
    rw [this]
  | case5 c d t h1 ih =>
    have h1' : isHigh c = false := by simpa using h1
    simp only [List.cons_append, scalars, h1', Bool.false_eq_true, if_false]
    have := ih
    simp only [List.cons_append] at this
    rw [this]

theorem utf8Enc_append (a b : JStr) (h : ∀ c, b.head? = some c → isLow c = false) : utf8Enc (a ++ b) = utf8Enc a ++ utf8Enc b := by
  simp only [utf8Enc, scalars_append a b h, List.flatMap_append]

theorem utf8Enc_pad (m : Nat) (pad : JChar) (hp : pad.toNat < 0x80) :
    utf8Enc (List.replicate m pad) = List.replicate m (pad.setWidth 8) := by
  rw [utf8Enc_ascii _ (fun c hc => by rw [List.eq_of_mem_replicate hc]; exact hp), List.map_replicate]

theorem ascii_not_low (c : JChar) (h : c.toNat < 0x80) : isLow c = false := by simp [isLow]; omega

theorem utf8Enc_pad_append (m : Nat) (pad : JChar) (hp : pad.toNat < 0x80) (s : JStr) :
    utf8Enc (List.replicate m pad ++ s) = List.replicate m (pad.setWidth 8) ++ utf8Enc s := by
  have hh : isHigh pad = false := by simp [isHigh]; omega
  have hl := ascii_not_low pad hp
  have one : ∀ s, utf8Enc (pad :: s) = pad.setWidth 8 :: utf8Enc s := by
    intro s
    have h1 : utf8Scalar pad.toNat = [pad.setWidth 8] := by
      simp only [utf8Scalar, hp, if_true, List.cons.injEq, and_true]
      apply BitVec.eq_of_toNat_eq; simp
    cases s with
    | nil => simp [utf8Enc, scalars, hh, hl, h1]
    | cons d t => simp [utf8Enc, scalars, hh, hl, h1]
  induction m with
  | zero => rfl
  | succ m ih => simp only [List.replicate_succ, List.cons_append, one, ih]

theorem stripPad_left_split (pad : JChar) (s : JStr) : ∃ m, s = List.replicate m pad ++ stripPad pad true s := by
  simp only [stripPad, if_true]
  induction s with
  | nil => exact ⟨0, rfl⟩
  | cons c s ih =>
    by_cases h : c = pad
    · subst h
      obtain ⟨m, hm⟩ := ih
      refine ⟨m + 1, ?_⟩
      rw [List.replicate_succ, List.cons_append]
      simp only [List.dropWhile_cons, beq_self_eq_true, if_true]
      rw [← hm]
    · refine ⟨0, ?_⟩
      have : (c == pad) = false := by simpa using h
      simp [this]

theorem stripPad_right_split (pad : JChar) (s : JStr) : ∃ m, s = stripPad pad false s ++ List.replicate m pad := by
  obtain ⟨m, hm⟩ := stripPad_left_split pad s.reverse
  refine ⟨m, ?_⟩
  have := congrArg List.reverse hm
  simp only [List.reverse_reverse, List.reverse_append, List.reverse_replicate, stripPad, if_true] at this
  simpa [stripPad] using this

/-- A valid text field is what its text is written as. -/
theorem fixedField_read (pad : JChar) (hp : pad.toNat < 0x80) (left : Bool) (bs : List Byte) (h : validUtf8 bs) :
    fixedField bs.length pad left (stripPad pad left (utf8Dec bs)) = bs := by
  obtain ⟨s, hv, rfl⟩ := h
  rw [utf8Dec_enc, sanitize_eq s hv]
  cases left with
  | true =>
    obtain ⟨m, hm⟩ := stripPad_left_split pad s
    have he : utf8Enc s = List.replicate m (pad.setWidth 8) ++ utf8Enc (stripPad pad true s) := by
      rw [← utf8Enc_pad_append m pad hp, ← hm]
    simp only [fixedField, if_true]
    rw [he, List.take_of_length_le (by simp)]
    simp
  | false =>
    obtain ⟨m, hm⟩ := stripPad_right_split pad s
    have he : utf8Enc s = utf8Enc (stripPad pad false s) ++ List.replicate m (pad.setWidth 8) := by
      rw [← utf8Enc_pad m pad hp, ← utf8Enc_append, ← hm]
      intro c hc
      cases m with
      | zero => simp at hc
      | succ m => simp [List.replicate_succ] at hc; subst hc; exact ascii_not_low _ hp
    simp only [fixedField, Bool.false_eq_true, if_false]
    rw [he, List.take_of_length_le (by simp)]
    simp

/-- Padding only. -/
theorem stripPad_left_nil (pad : JChar) (hp : pad.toNat < 0x80) (bs : List Byte) (h : validUtf8 bs)
    (hx : ∃ x ∈ bs, x ≠ pad.setWidth 8) : stripPad pad true (utf8Dec bs) ≠ [] := by
  intro he
  have := fixedField_read pad hp true bs h
  rw [he] at this
  obtain ⟨x, hx1, hx2⟩ := hx
  rw [← this] at hx1
  simp only [fixedField, utf8Enc_nil, if_true] at hx1
  simp at hx1
  exact hx2 hx1.2

theorem imageField_read (k : Conv) (t : WTy) (n : Nat) (bs : List Byte) (hl : bs.length = n) (hw : t.width? = some n)
    (ht : match t with
      | .text _ pad left => pad.toNat < 0x80 ∧ validUtf8 bs ∧ (left = true → ∃ x ∈ bs, x ≠ pad.setWidth 8)
      | _ => True) :
    imageField k t (fieldValue k t bs) = bs ∧ hasType t.java (fieldValue k t bs) = true := by
  have hnum : ∀ p : PTy, p.size = n → (⟨p, BitVec.ofNat p.bits (ofBytes k.order bs)⟩ : Num).bytes k.order = bs := by
    intro p hp
    exact Num.bytes_ofBytes k.order p bs (by omega)
  cases t with
  | num p =>
    simp only [WTy.width?, Option.some.injEq] at hw
    exact ⟨hnum p hw, by simp [fieldValue, hasType, WTy.java]⟩
  | len p =>
    simp only [WTy.width?, Option.some.injEq] at hw
    exact ⟨hnum p hw, by simp [fieldValue, hasType, WTy.java]⟩
  | cksum p alg =>
    simp only [WTy.width?, Option.some.injEq] at hw
    exact ⟨hnum p hw, by simp [fieldValue, hasType, WTy.java]⟩
  | text m pad left =>
    simp only [WTy.width?, Option.some.injEq] at hw
    subst hw
    obtain ⟨h1, h2, h3⟩ := ht
    refine ⟨?_, by simp [fieldValue, hasType, WTy.java]⟩
    simp only [fieldValue, imageField, textImage]
    rw [if_neg, ← hl, fixedField_read pad h1 left bs h2]
    intro hc
    simp only [Bool.and_eq_true, List.isEmpty_iff] at hc
    obtain ⟨rfl, hc⟩ := hc
    exact stripPad_left_nil pad h1 bs h2 (h3 rfl) hc
  | _ => simp [WTy.width?] at hw

/-- The record read from bytes in normal form. -/
theorem headValues_facts (k : Conv) (ts : List WTy) (hp : padsOk ts = true) : ∀ (o : Nat) (bs : List Byte),
    offset? ts ts.length = some o → o ≤ bs.length → textsNormal ts bs →
    imageFields k ts (headValues k ts bs) = bs.take o ∧ fieldsHaveType (ts.map WTy.java) (headValues k ts bs) = true
      ∧ completeFields ts (headValues k ts bs) = true ∧ depthList (headValues k ts bs) = 0
      ∧ framelessList (headValues k ts bs) = true := by
  induction ts with
  | nil =>
    intro o bs h1 h2 _
    simp only [List.length_nil, offset?, Option.some.injEq] at h1
    subst h1
    simp [headValues, imageFields, fieldsHaveType, completeFields, depthList, framelessList]
  | cons t ts ih =>
    intro o bs h1 h2 h3
    obtain ⟨n, o', hw, ho, rfl⟩ := offset?_cons t ts _ o h1
    simp only [padsOk, Bool.and_eq_true] at hp
    have hrest : textsNormal ts (bs.drop n) := by
      cases t with
      | text m pad left =>
        simp only [WTy.width?, Option.some.injEq] at hw; subst hw
        exact h3.2.2
      | num p =>
        simp only [WTy.width?, Option.some.injEq] at hw; subst hw
        exact h3
      | _ => exact h3.elim
    obtain ⟨g1, g2, g3, g4, g5⟩ := ih hp.2 o' (bs.drop n) ho (by simp; omega) hrest
    have hlen : (bs.take n).length = n := by simp; omega
    have hf := imageField_read k t n (bs.take n) hlen hw (by
      cases t with
      | text m pad left =>
        simp only [WTy.width?, Option.some.injEq] at hw; subst hw
        exact ⟨by simpa using hp.1, h3.1, h3.2.1⟩
      | _ => trivial)
    have hv : completeField t (fieldValue k t (bs.take n)) = true ∧ depth (fieldValue k t (bs.take n)) = 0
        ∧ frameless (fieldValue k t (bs.take n)) = true := by
      cases t with
      | text m pad left => exact ⟨rfl, rfl, rfl⟩
      | num p => exact ⟨rfl, rfl, rfl⟩
      | _ => exact h3.elim
    simp only [headValues, hw, imageFields, List.map_cons, fieldsHaveType, completeFields, depthList, framelessList, g1, g2, g3, g4, g5,
      hf.1, hf.2, hv.1, hv.2.1, hv.2.2]
    refine ⟨?_, rfl, rfl, rfl, rfl⟩
    rw [List.take_add]

theorem imageField_length (k : Conv) (t : WTy) (v : Val) (n : Nat) (hw : t.width? = some n) (ht : hasType t.java v = true)
    (hf : leftFilled k t v) : (imageField k t v).length = n := by
  cases t with
  | num p =>
    simp only [WTy.width?, Option.some.injEq] at hw; subst hw
    cases v <;> simp [WTy.java, hasType] at ht
    subst ht
    exact Num.bytes_length _ _
  | len p =>
    simp only [WTy.width?, Option.some.injEq] at hw; subst hw
    cases v <;> simp [WTy.java, hasType] at ht
    subst ht
    exact Num.bytes_length _ _
  | cksum p alg =>
    simp only [WTy.width?, Option.some.injEq] at hw; subst hw
    cases v <;> simp [WTy.java, hasType] at ht
    subst ht
    exact Num.bytes_length _ _
  | text m pad left =>
    simp only [WTy.width?, Option.some.injEq] at hw; subst hw
    have hi : imageField k (.text m pad left) v = textImage m pad left v.text := by
      cases v <;> simp [WTy.java, hasType] at ht <;> rfl
    rw [hi, textImage, if_neg, fixedField_length]
    intro hc
    simp only [Bool.and_eq_true, List.isEmpty_iff] at hc
    obtain ⟨rfl, hc⟩ := hc
    exact hf hc
  | _ => simp [WTy.width?] at hw

theorem everyField_self (P : Conv → WTy → Val → Prop) (k : Conv) (t : WTy) (v : Val) (h : everyField P k t v) : P k t v := by
  cases v with
  | obj c fs => exact h.1
  | list xs => exact h.1
  | _ => exact h

/-- Where a field starts in the image. -/
theorem imageFields_offset (k : Conv) (ts : List WTy) : ∀ (i o : Nat) (fs : List Val), offset? ts i = some o →
    fieldsHaveType (ts.map WTy.java) fs = true → everyFields leftFilled k ts fs →
    (imageFields k ts fs).drop o = imageFields k (ts.drop i) (fs.drop i) ∧ o ≤ (imageFields k ts fs).length := by
  induction ts with
  | nil =>
    intro i o fs h _ _
    cases i with
    | zero =>
      simp only [offset?, Option.some.injEq] at h
      subst h; simp
    | succ i => simp [offset?] at h
  | cons t ts ih =>
    intro i o fs h ht hf
    cases i with
    | zero =>
      simp only [offset?, Option.some.injEq] at h
      subst h; simp
    | succ i =>
      obtain ⟨n, o', hw, ho, rfl⟩ := offset?_cons t ts i o h
      cases fs with
      | nil => simp [fieldsHaveType] at ht
      | cons v vs =>
        simp only [List.map_cons, fieldsHaveType, Bool.and_eq_true] at ht
        have hl := imageField_length k t v n hw ht.1 (everyField_self _ _ _ _ hf.1)
        have := ih i o' vs ho ht.2 hf.2
        simp only [imageFields, List.drop_succ_cons, List.length_append]
        refine ⟨?_, by omega⟩
        rw [← this.1, List.drop_append, List.drop_of_length_le (by omega), hl]
        simp

/-- The whole record. -/
theorem imageFields_size (k : Conv) (ts : List WTy) (o : Nat) (fs : List Val) (h : offset? ts ts.length = some o)
    (ht : fieldsHaveType (ts.map WTy.java) fs = true) (hf : everyFields leftFilled k ts fs) :
    (imageFields k ts fs).length = o := by
  obtain ⟨h1, h2⟩ := imageFields_offset k ts ts.length o fs h ht hf
  have hl := fieldsHaveType_length _ _ ht
  have h3 := congrArg List.length h1
  simp only [List.length_map] at hl
  have e1 : fs.drop ts.length = [] := List.drop_of_length_le (by omega)
  rw [e1] at h3
  simp only [imageFields, List.length_drop, List.length_nil] at h3
  omega

theorem leBytes_get (k v j : Nat) (h : j < k) : (leBytes k v)[j]? = some (BitVec.ofNat 8 (v / 256 ^ j)) := by
  induction k generalizing v j with
  | zero => omega
  | succ k ih =>
    cases j with
    | zero =>
      simp only [leBytes, List.getElem?_cons_zero, Nat.pow_zero, Nat.div_one]
    | succ j =>
      simp only [leBytes, List.getElem?_cons_succ]
      rw [ih _ j (by omega), Nat.div_div_eq_div_mul, Nat.pow_succ, Nat.mul_comm]

theorem leVal_append (a : List Byte) (x : Byte) : leVal (a ++ [x]) = leVal a + x.toNat * 256 ^ a.length := by
  induction a with
  | nil => simp [leVal]
  | cons y a ih =>
    simp only [List.cons_append, leVal, ih, List.length_cons, Nat.pow_succ]
    rw [Nat.mul_add, Nat.add_assoc]
    congr 2
    rw [Nat.mul_left_comm, Nat.mul_comm 256]

end FinProto
