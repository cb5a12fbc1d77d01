import Verif.Proofs.EncodeForm
import Verif.Proofs.EncodeGen
import Verif.Proofs.Decode
/-
Helper lemmas: what `encode` of a message without computed fields leaves in the buffer, successful or not, is a prefix of the
message's image.
-/
namespace FinProto

/-- A prefix of `img` was appended, the whole of it unless an exception was thrown. -/
def Part (b : WBuf) (img : List Byte) (r : WBuf × Option JErr) : Prop :=
  ∃ p, r.1 = b.app p ∧ p <+: img ∧ (r.2 = none → p = img ∧ b.data.length + img.length ≤ b.maxCap)

theorem Part.write (b : WBuf) (bs : List Byte) : Part b bs (b.write bs) := by
  by_cases h : b.data.length + bs.length ≤ b.maxCap
  · rw [WBuf.write_app b bs h]
    exact ⟨bs, rfl, List.prefix_refl _, fun _ => ⟨rfl, h⟩⟩
  · rw [WBuf.write_full b bs h]
    exact ⟨[], by simp, List.nil_prefix, fun h => by simp at h⟩

theorem Part.skip (b : WBuf) (hb : b.data.length ≤ b.maxCap) : Part b [] (b, none) :=
  ⟨[], by simp, List.nil_prefix, fun _ => ⟨rfl, by simpa using hb⟩⟩

theorem Part.fail (b : WBuf) (img : List Byte) (e : JErr) : Part b img (b, some e) :=
  ⟨[], by simp, List.nil_prefix, fun h => by simp at h⟩

/-- The first part failed. -/
theorem Part.stop {b b1 : WBuf} {i1 : List Byte} {e : JErr} (h : Part b i1 (b1, some e)) (i2 : List Byte) :
    Part b (i1 ++ i2) (b1, some e) := by
  obtain ⟨p, h1, h2, _⟩ := h
  exact ⟨p, h1, h2.trans (List.prefix_append _ _), fun h => by simp at h⟩

/-- The first part succeeded. -/
theorem Part.next {b b1 : WBuf} {i1 i2 : List Byte} {r : WBuf × Option JErr} (h : Part b i1 (b1, none))
    (h' : b1.data.length ≤ b1.maxCap → Part b1 i2 r) : Part b (i1 ++ i2) r := by
  obtain ⟨p, h1, h2, h3⟩ := h
  obtain ⟨rfl, h4⟩ := h3 rfl
  simp only at h1
  subst h1
  obtain ⟨q, g1, g2, g3⟩ := h' (by simpa using h4)
  refine ⟨p ++ q, by rw [g1, WBuf.app_app], List.prefix_append_right_inj p |>.2 g2, fun h => ?_⟩
  obtain ⟨rfl, g4⟩ := g3 h
  refine ⟨rfl, ?_⟩
  simp only [WBuf.app_data, WBuf.app_maxCap, List.length_append] at g4 ⊢
  omega

theorem part_text (b : WBuf) (hb : b.data.length ≤ b.maxCap) (v : Val) (n : Nat) (pad : JChar) (left : Bool) (hv : v.isStr = true) :
    Part b (textImage n pad left v.text) (writeFixedVal b v n pad left) := by
  by_cases h : b.data.length + (textImage n pad left v.text).length ≤ b.maxCap
  · rw [writeFixedVal_ok b v n pad left hv h]
    exact ⟨_, rfl, List.prefix_refl _, fun _ => ⟨rfl, h⟩⟩
  · obtain ⟨s, h1, h2⟩ := asStr_of_isStr v hv
    have hq : left = false ∨ isNullOrEmpty s = false := by
      cases left
      · exact .inl rfl
      · right
        cases hs : isNullOrEmpty s
        · rfl
        · exfalso
          apply h
          have : v.text = [] := by
            rw [← h2]
            match s with
            | none => rfl
            | some [] => rfl
            | some (c :: cs) => simp [isNullOrEmpty] at hs
          simp [textImage, this]; exact hb
    have hi : textImage n pad left v.text = fixedField n pad left v.text := by
      unfold textImage
      rcases hq with rfl | hq
      · rfl
      · have : v.text.isEmpty = false := by
          rw [← h2]
          match s with
          | none => simp [isNullOrEmpty] at hq
          | some [] => simp [isNullOrEmpty] at hq
          | some (c :: cs) => rfl
        simp [this]
    rw [hi] at h ⊢
    obtain ⟨p, h3, h4⟩ := writeFixedString_full b s n pad left hb hq (by rwa [fixedField_length] at h)
    simp only [writeFixedVal, h1]
    rw [h3]
    rw [h2] at h4
    exact ⟨p, rfl, h4, fun h => by simp at h⟩

theorem part_vstr (b : WBuf) (k : Conv) (v : Val) (hk : k.strLen.isCount = true) (hv : v.isStr = true) :
    Part b (vstrImage k v.text) (writeDynVal b v k.strLen k.strLen k.order) := by
  have empty : Part b (vstrImage k []) (writeInt b k.strLen .be 0) := by
    rw [writeInt_zero b k _ hk]
    have : vstrImage k [] = countImage k k.strLen 0 := by simp [vstrImage, utf8Enc_nil]
    rw [this]
    exact Part.write _ _
  cases v with
  | num | list | obj => simp [Val.isStr] at hv
  | null => exact empty
  | str s =>
    cases s with
    | nil => exact empty
    | cons c cs =>
      simp only [writeDynVal, Val.asStr, writeDyn, Val.text, vstrImage]
      rw [writeInt_eq b _ _ _ hk]
      have h1 := Part.write b (toBytes k.order k.strLen.size (utf8Enc (c :: cs)).length)
      revert h1
      rcases b.write (toBytes k.order k.strLen.size (utf8Enc (c :: cs)).length) with ⟨b1, _ | e⟩
      · intro h1
        exact Part.next h1 (fun _ => Part.write _ _)
      · intro h1
        exact Part.stop h1 _

theorem part_num (b : WBuf) (k : Conv) (n : Num) : Part b (n.bytes k.order) (writeVal b n.ty (ordOf k n.ty) (.num n)) := by
  simp only [writeVal, Num.convert_self, bytes_ordOf]
  exact Part.write _ _

/-- `call` leaves an object without computed fields alone and writes a prefix of its image. -/
def CallPart (call : EncCall) : Prop :=
  (∀ b, call .null b = (.null, b, some .nullPointer)) ∧
  ∀ c fs b, fieldsHaveType (javaTypes c) fs = true → frameless (.obj c fs) = true → b.data.length ≤ b.maxCap →
    (call (.obj c fs) b).1 = .obj c fs ∧ Part b (imageFields (conv c.mod) (wire c) fs) (call (.obj c fs) b).2

theorem encElem_part (call : EncCall) (hc : CallPart call) (k : Conv) (hk : k.strLen.isCount = true) (e : EWTy) (v : Val) (b : WBuf)
    (hb : b.data.length ≤ b.maxCap) (ht : elemHasType e.java v = true) (hf : frameless v = true) :
    (encElem call (encElOf k e) v b).1 = v ∧ Part b (imageElem k e v) (encElem call (encElOf k e) v b).2 := by
  cases e with
  | num t =>
    refine ⟨rfl, ?_⟩
    cases v with
    | null => exact Part.fail _ _ _
    | num n =>
      simp only [elemHasType, EWTy.java, decide_eq_true_eq] at ht
      subst ht
      exact part_num b k n
    | str | list | obj => simp [elemHasType, EWTy.java] at ht
  | text n pad left =>
    refine ⟨rfl, ?_⟩
    cases v with
    | null => exact part_text b hb .null n pad left rfl
    | str s => exact part_text b hb (.str s) n pad left rfl
    | num | list | obj => simp [elemHasType, EWTy.java] at ht
  | vstr =>
    refine ⟨rfl, ?_⟩
    cases v with
    | null => exact part_vstr b k .null hk rfl
    | str s => exact part_vstr b k (.str s) hk rfl
    | num | list | obj => simp [elemHasType, EWTy.java] at ht
  | sub d =>
    simp only [encElem, encElOf]
    cases v with
    | null => rw [hc.1]; exact ⟨rfl, Part.fail _ _ _⟩
    | obj c fs =>
      simp only [elemHasType, EWTy.java, Bool.and_eq_true] at ht
      exact hc.2 c fs b ht.2 hf hb
    | num | str | list => simp [elemHasType, EWTy.java] at ht

theorem encElems_part (call : EncCall) (hc : CallPart call) (k : Conv) (hk : k.strLen.isCount = true) (e : EWTy) (vs : List Val)
    (b : WBuf) (hb : b.data.length ≤ b.maxCap) (ht : elemsHaveType e.java vs = true) (hf : framelessList vs = true) :
    (encElems call (encElOf k e) vs b).1 = vs ∧ Part b (imageElems k e vs) (encElems call (encElOf k e) vs b).2 := by
  induction vs generalizing b with
  | nil => exact ⟨rfl, Part.skip b hb⟩
  | cons v vs ih =>
    simp only [elemsHaveType, framelessList, Bool.and_eq_true] at ht hf
    have h1 := encElem_part call hc k hk e v b hb ht.1 hf.1
    simp only [encElems, imageElems]
    revert h1
    rcases encElem call (encElOf k e) v b with ⟨v', b', _ | er⟩
    · rintro ⟨rfl, h1⟩
      simp only
      have hb' : b'.data.length ≤ b'.maxCap := by
        obtain ⟨p, g1, g2, g3⟩ := h1
        simp only at g1 g3
        have := g3 trivial
        rw [g1]
        simp only [WBuf.app_data, WBuf.app_maxCap, List.length_append, this.1]
        omega
      have h2 := ih b' hb' ht.2 hf.2
      exact ⟨by rw [h2.1], Part.next h1 (fun _ => h2.2)⟩
    · rintro ⟨rfl, h1⟩
      exact ⟨rfl, Part.stop h1 _⟩

theorem writeField_part (w : World) (call : EncCall) (hc : CallPart call) (k : Conv) (hk : k.strLen.isCount = true)
    (hl : k.listLen.isCount = true) (t : WTy) (v : Val) (b : WBuf) (hb : b.data.length ≤ b.maxCap)
    (hlen : ∀ lt, t ≠ .len lt) (hck : ∀ ct alg, t ≠ .cksum ct alg) (ht : hasType t.java v = true) (hf : frameless v = true) :
    (writeField w call k t v b).1 = v ∧ Part b (imageField k t v) (writeField w call k t v b).2 := by
  cases t with
  | num p =>
    cases v with
    | num n =>
      simp only [hasType, WTy.java, decide_eq_true_eq] at ht
      subst ht
      exact ⟨rfl, part_num b k n⟩
    | null | str | list | obj => simp [hasType, WTy.java] at ht
  | text n pad left =>
    refine ⟨rfl, ?_⟩
    cases v with
    | null => exact part_text b hb .null n pad left rfl
    | str s => exact part_text b hb (.str s) n pad left rfl
    | num | list | obj => simp [hasType, WTy.java] at ht
  | vstr =>
    refine ⟨rfl, ?_⟩
    cases v with
    | null => exact part_vstr b k .null hk rfl
    | str s => exact part_vstr b k (.str s) hk rfl
    | num | list | obj => simp [hasType, WTy.java] at ht
  | list e =>
    have empty : Part b (countImage k k.listLen 0) (writeInt b k.listLen .be 0) := by
      rw [writeInt_zero b k _ hl]; exact Part.write _ _
    cases v with
    | null => exact ⟨rfl, empty⟩
    | list xs =>
      cases xs with
      | nil => exact ⟨rfl, by simpa [imageField, imageElems, writeField] using empty⟩
      | cons x xs =>
        simp only [writeField, imageField]
        rw [writeInt_eq _ _ _ _ hl]
        have h1 := Part.write b (toBytes k.order k.listLen.size (x :: xs).length)
        revert h1
        rcases b.write (toBytes k.order k.listLen.size (x :: xs).length) with ⟨b1, _ | e⟩
        · intro h1
          simp only
          have hb1 : b1.data.length ≤ b1.maxCap := by
            obtain ⟨p, g1, g2, g3⟩ := h1
            simp only at g1 g3
            have := g3 trivial
            rw [g1]
            simp only [WBuf.app_data, WBuf.app_maxCap, List.length_append, this.1]
            omega
          have h2 := encElems_part call hc k hk e (x :: xs) b1 hb1 (by simpa [hasType, WTy.java] using ht)
            (by simpa [frameless] using hf)
          exact ⟨by rw [h2.1], Part.next h1 (fun _ => h2.2)⟩
        · intro h1
          exact ⟨rfl, Part.stop h1 _⟩
    | num | str | obj => simp [hasType, WTy.java] at ht
  | sub d =>
    simp only [writeField]
    cases v with
    | null => rw [hc.1]; exact ⟨rfl, Part.fail _ _ _⟩
    | obj c fs =>
      simp only [hasType, WTy.java, Bool.and_eq_true] at ht
      exact hc.2 c fs b ht.2 hf hb
    | num | str | list => simp [hasType, WTy.java] at ht
  | ext fac key =>
    simp only [writeField]
    cases v with
    | null => exact ⟨rfl, Part.skip b hb⟩
    | obj c fs =>
      simp only [hasType, WTy.java, Bool.and_eq_true] at ht
      exact hc.2 c fs b ht.2 hf hb
    | num | str | list => simp [hasType, WTy.java] at ht
  | len lt => exact absurd rfl (hlen lt)
  | cksum ct alg => exact absurd rfl (hck ct alg)

/-- Is the field computed by the sender? -/
def isComputed : WTy → Bool
  | .len _ | .cksum _ _ => true
  | _ => false

theorem writeFields_part (w : World) (call : EncCall) (hc : CallPart call) (k : Conv) (hk : k.strLen.isCount = true)
    (hl : k.listLen.isCount = true) (ts : List WTy) (vs : List Val) (b : WBuf) (hb : b.data.length ≤ b.maxCap)
    (hcomp : ts.any isComputed = false) (ht : fieldsHaveType (ts.map WTy.java) vs = true) (hf : framelessList vs = true) :
    (writeFields w call k ts vs b).1 = vs ∧ Part b (imageFields k ts vs) (writeFields w call k ts vs b).2 := by
  induction ts generalizing vs b with
  | nil =>
    cases vs with
    | nil => exact ⟨rfl, Part.skip b hb⟩
    | cons v vs => simp [fieldsHaveType] at ht
  | cons t ts ih =>
    cases vs with
    | nil => simp [fieldsHaveType] at ht
    | cons v vs =>
      simp only [List.any_cons, Bool.or_eq_false_iff] at hcomp
      simp only [List.map_cons, fieldsHaveType, framelessList, Bool.and_eq_true] at ht hf
      have hnl : ∀ lt, t ≠ .len lt := by rintro lt rfl; simp [isComputed] at hcomp
      have hnc : ∀ ct alg, t ≠ .cksum ct alg := by rintro ct alg rfl; simp [isComputed] at hcomp
      have h1 := writeField_part w call hc k hk hl t v b hb hnl hnc ht.1 hf.1
      rw [writeFields.eq_2 _ _ _ _ _ _ _ _ (fun lt _ _ _ _ _ e => absurd e (hnl lt))]
      simp only [imageFields]
      revert h1
      rcases writeField w call k t v b with ⟨v', b', _ | er⟩
      · rintro ⟨rfl, h1⟩
        simp only
        have hb' : b'.data.length ≤ b'.maxCap := by
          obtain ⟨p, g1, g2, g3⟩ := h1
          simp only at g1 g3
          have := g3 trivial
          rw [g1]
          simp only [WBuf.app_data, WBuf.app_maxCap, List.length_append, this.1]
          omega
        have h2 := ih vs b' hb' hcomp.2 ht.2 hf.2
        exact ⟨by rw [h2.1], Part.next h1 (fun _ => h2.2)⟩
      · rintro ⟨rfl, h1⟩
        exact ⟨rfl, Part.stop h1 _⟩

theorem encode_part (w : World) (n : Nat) : CallPart (encode w n) := by
  induction n with
  | zero => exact ⟨fun b => by simp [encode], fun c fs b _ _ _ => ⟨rfl, Part.fail _ _ _⟩⟩
  | succ n ih =>
    refine ⟨fun b => by simp [encode], fun c fs b h hf hb => ?_⟩
    have hlen : fs.length = (wire c).length := by
      rw [fieldsHaveType_length _ _ h, type_table, List.length_map]
    rw [encode_form w n c fs b hlen]
    rw [type_table] at h
    simp only [frameless, Bool.and_eq_true, Bool.not_eq_true'] at hf
    have hany : (wire c).any isComputed = false := hf.1
    have := writeFields_part w (encode w n) ih (conv c.mod) (conv_counts c.mod).1 (conv_counts c.mod).2 (wire c) fs b hb hany h hf.2
    exact ⟨by simp only; rw [this.1], this.2⟩

end FinProto
