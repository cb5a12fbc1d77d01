import Verif.Props.RoundTrip
import Verif.Proofs.Fixed
import Verif.Proofs.Everywhere
/-
C25, C35, C48, C49: records of fixed width.
-/
namespace FinProto

/-! ### C25 -/

/-- The classes of fixed size are exactly those without lists, length-prefixed strings, nested and polymorphic messages. -/
theorem C25_classes (c : Cls) : (size? c).isSome = true ↔
    ∀ t ∈ wire c, match t with | .num _ | .text _ _ _ | .len _ | .cksum _ _ => True | _ => False := by
  have h : ∀ ts : List WTy, (offset? ts ts.length).isSome = true ↔
      ∀ t ∈ ts, match t with | .num _ | .text _ _ _ | .len _ | .cksum _ _ => True | _ => False := by
    intro ts
    induction ts with
    | nil => simp [offset?]
    | cons t ts ih =>
      simp only [List.length_cons, offset?, List.mem_cons, forall_eq_or_imp, ← ih]
      cases t <;> cases offset? ts ts.length <;> simp [WTy.width?]
  exact h (wire c)

/-- **C25.** Every successful `encode` of an object of a fixed-layout class appends the same number of bytes, the sum of the widths of its
fields. (A left-padded text must not be empty.) -/
theorem C25_fixed_size (w : World) (n : Nat) (c : Cls) (fs : List Val) (b : WBuf) (hv : wellTyped (.obj c fs) = true) (hb : b.Valid)
    (hok : (encode w n (.obj c fs) b).2.2 = none) (s : Nat) (hs : size? c = some s) (hleft : everywhere leftFilled (.obj c fs)) :
    (encode w n (.obj c fs) b).2.1.data.length = b.data.length + s := by
  obtain ⟨_, _, h⟩ := encode_ok w n _ b hv hb hok
  obtain ⟨c', fs', he, ht⟩ := wellTyped_obj _ hv
  cases he
  rw [h]
  simp only [WBuf.app, List.length_append, image_settle_length w.svc b.readable _ hv]
  show b.data.length + (imageFields (conv c.mod) (wire c) fs).length = _
  rw [imageFields_size (conv c.mod) (wire c) s fs hs (by rw [← type_table]; exact ht) hleft]

/-- **C25.** Outside the sample protocol there are no left-padded texts: the size is the same for every object. -/
theorem C25_fixed_size_all (w : World) (n : Nat) (c : Cls) (fs : List Val) (b : WBuf) (hv : wellTyped (.obj c fs) = true) (hb : b.Valid)
    (hok : (encode w n (.obj c fs) b).2.2 = none) (s : Nat) (hs : size? c = some s) (hc : c.mod ≠ .sample) :
    (encode w n (.obj c fs) b).2.1.data.length = b.data.length + s := by
  refine C25_fixed_size w n c fs b hv hb hok s hs ?_
  have htab : (wire c).all (fun t => match t with | .num _ | .text _ _ false | .len _ | .cksum _ _ => true | _ => false) = true := by
    have hs' : (size? c).isSome = true := by rw [hs]; rfl
    revert hc hs'
    cases c <;> decide
  obtain ⟨c', fs', he, ht⟩ := wellTyped_obj _ hv
  cases he
  rw [type_table] at ht
  show everyFields leftFilled (conv c.mod) (wire c) fs
  generalize conv c.mod = k
  revert htab ht
  generalize wire c = ts
  clear hv hok hs hc
  induction fs generalizing ts with
  | nil => intros; trivial
  | cons v vs ih =>
    intro h1 h2
    cases ts with
    | nil => trivial
    | cons t ts =>
      simp only [List.all_cons, Bool.and_eq_true] at h1
      simp only [List.map_cons, fieldsHaveType, Bool.and_eq_true] at h2
      refine ⟨?_, ih ts h1.2 h2.2⟩
      have h3 := h1.1
      have h4 := h2.1
      cases t with
      | num p => cases v <;> simp [hasType, WTy.java] at h4; trivial
      | len p => cases v <;> simp [hasType, WTy.java] at h4; trivial
      | cksum p a => cases v <;> simp [hasType, WTy.java] at h4; trivial
      | text m p l =>
        cases l with
        | true => simp at h3
        | false => cases v <;> simp [hasType, WTy.java] at h4 <;> trivial
      | _ => simp at h3

example : size? .sse_NewOrderSingle = some 125 ∧ (allCls.filter fun c => (size? c).isSome).length = 143 := by decide +kernel

/-! ### C48 -/

/-- Byte order of each protocol. -/
theorem C48_orders : (conv .sse).order = .be ∧ (conv .szse).order = .be ∧ (conv .risk).order = .be
    ∧ (conv .bjse).order = .le ∧ (conv .sample).order = .le := ⟨rfl, rfl, rfl, rfl, rfl⟩

/-- Big endian: byte `j` of a number of `s` bytes has the weight 256^(s-1-j).  Little endian: 256^j. -/
theorem C48_byte_weights (n : Num) (j : Nat) (h : j < n.ty.size) :
    (n.bytes .be)[j]? = some (BitVec.ofNat 8 (n.bits.toNat / 256 ^ (n.ty.size - 1 - j)))
      ∧ (n.bytes .le)[j]? = some (BitVec.ofNat 8 (n.bits.toNat / 256 ^ j)) := by
  refine ⟨?_, leBytes_get _ _ _ h⟩
  simp only [Num.bytes, toBytes]
  rw [List.getElem?_reverse (by simpa using h), leBytes_length, leBytes_get _ _ _ (by omega)]

/-- Reading: the value of a byte sequence in both orders. -/
theorem C48_value_weights (x : Byte) (xs : List Byte) :
    ofBytes .be (x :: xs) = x.toNat * 256 ^ xs.length + ofBytes .be xs ∧ ofBytes .le (x :: xs) = x.toNat + 256 * ofBytes .le xs := by
  refine ⟨?_, rfl⟩
  simp only [ofBytes, List.reverse_cons, leVal_append, List.length_reverse]
  omega

/-- **C48 (writing).** In the bytes a successful `encode` appends, a field behind fixed-width fields starts at its fixed offset; there
stands the image of the field as it is after the call. -/
theorem C48_encode_offset (w : World) (n : Nat) (c : Cls) (fs : List Val) (b : WBuf) (hv : wellTyped (.obj c fs) = true) (hb : b.Valid)
    (hok : (encode w n (.obj c fs) b).2.2 = none) (hleft : everywhere leftFilled (.obj c fs)) (i o : Nat) (t : WTy)
    (ho : offset? (wire c) i = some o) (ht : (wire c)[i]? = some t) :
    ∃ fs' v, (encode w n (.obj c fs) b).1 = .obj c fs' ∧ fs'[i]? = some v
      ∧ imageField (conv c.mod) t v <+: (encode w n (.obj c fs) b).2.1.data.drop (b.data.length + o) := by
  obtain ⟨_, _, h⟩ := encode_ok w n _ b hv hb hok
  have hv' := settle_wellTyped w.svc b.readable _ hv
  have hl' := (everywhere_settle _ blind_leftFilled w.svc b.readable _ hv).mpr hleft
  obtain ⟨gs, hgs⟩ := settle_obj w.svc b.readable c fs
  rw [hgs] at h hv' hl'
  obtain ⟨c', fs', he, hty⟩ := wellTyped_obj _ hv'
  cases he
  rw [type_table] at hty
  have hlen := fieldsHaveType_length _ _ hty
  have hi : i < (wire c).length := (List.getElem?_eq_some_iff.mp ht).1
  simp only [List.length_map] at hlen
  refine ⟨gs, gs[i]'(by omega), by rw [h], List.getElem?_eq_getElem (by omega), ?_⟩
  rw [h]
  simp only [WBuf.app]
  rw [← List.drop_drop, List.drop_left]
  show _ <+: (imageFields (conv c.mod) (wire c) gs).drop o
  rw [(imageFields_offset (conv c.mod) (wire c) i o gs ho hty hl').1]
  rw [List.drop_eq_getElem_cons hi, List.drop_eq_getElem_cons (by omega : i < gs.length)]
  simp only [imageFields]
  rw [(List.getElem?_eq_some_iff.mp ht).2]
  exact List.prefix_append _ _

/-- **C48 (reading).** After a successful `decode` (into any object), a fixed-width field behind fixed-width fields holds the value of the
bytes at its fixed offset. -/
theorem C48_decode_offset (w : World) (n : Nat) (c : Cls) (olds : List Val) (b : RBuf) (hl : olds.length = (wire c).length)
    (hok : (decode w (n + 1) c olds b).2.2 = none) (i o s : Nat) (t : WTy) (ho : offset? (wire c) i = some o)
    (ht : (wire c)[i]? = some t) (hs : t.width? = some s) :
    (decode w (n + 1) c olds b).1[i]? = some (fieldValue (conv c.mod) t (((b.data ++ b.spare).drop (b.rd + o)).take s)) := by
  rw [decode_eq w n c olds b hl] at hok ⊢
  have := readFields_at w (decode w n) (conv c.mod) (wire c) i o s t [] olds b ho ht hs hl hok
  simpa using this

/-- The sequence number of an SSE frame is at offset 4, the price of an SSE order at offset 49. -/
example : offset? (wire .sse_SseBinary) 1 = some 4 ∧ (wire .sse_SseBinary)[1]? = some (.num .i64)
    ∧ offset? (wire .sse_NewOrderSingle) 7 = some 49 := by decide +kernel

/-! ### C49 -/

/-- **C49.** Let a buffer hold, from the reader index on, enough bytes for a message of a class made of integers and fixed-width texts,
with all texts valid UTF-8 (and left-padded ones not blank). Decoding into any object of the class succeeds, and encoding the result, now or
elsewhere, into any buffer with room writes exactly the bytes that were consumed. -/
theorem C49_reproduced (c : Cls) (s : Nat) (hs : size? c = some s) (b : RBuf) (henough : b.rd + s ≤ b.data.length)
    (hnorm : textsNormal (wire c) (b.data.drop b.rd)) :
    ∃ fs, (∀ w n olds, olds.length = (wire c).length → decode w (n + 1) c olds b = (fs, { b with rd := b.rd + s }, none))
      ∧ ∀ w n (out : WBuf), out.Valid → out.data.length + s ≤ out.maxCap →
          encode w (n + 1) (.obj c fs) out = (.obj c fs, { out with data := out.data ++ (b.data.drop b.rd).take s }, none) := by
  have hbs : s ≤ (b.data.drop b.rd).length := by simp; omega
  obtain ⟨h1, h2, h3, h4, h5⟩ := headValues_facts (conv c.mod) (wire c) (padsOk_table c) s _ hs hbs hnorm
  refine ⟨headValues (conv c.mod) (wire c) (b.data.drop b.rd), ?_, ?_⟩
  · intro w n olds hl
    rw [decode_eq w n c olds b hl, readFields_head w (decode w n) (conv c.mod) (wire c) _ s [] olds b hs hl henough]
    rw [List.drop_of_length_le (Nat.le_refl _), List.drop_of_length_le (by omega : olds.length ≤ _), List.take_length]
    simp [readFields]
  · intro w n out hout hcap
    have hv : wellTyped (.obj c (headValues (conv c.mod) (wire c) (b.data.drop b.rd))) = true := by
      simp only [wellTyped, hasType, Bool.true_and, type_table, h2]
    have hcomp : hasComputed c = false := by
      have : ∀ ts : List WTy, ∀ bs, textsNormal ts bs →
          (ts.any fun t => match t with | .len _ | .cksum _ _ => true | _ => false) = false := by
        intro ts
        induction ts with
        | nil => intros; rfl
        | cons t ts ih =>
          intro bs h
          cases t with
          | text m pad left => simpa using ih _ h.2.2
          | num p => simpa [textsNormal] using ih _ h
          | _ => exact h.elim
      exact this _ _ hnorm
    have hf : frameless (.obj c (headValues (conv c.mod) (wire c) (b.data.drop b.rd))) = true := by
      simp only [frameless, hcomp, h5]; rfl
    have hi : image (.obj c (headValues (conv c.mod) (wire c) (b.data.drop b.rd))) = (b.data.drop b.rd).take s := h1
    have hok := (C30_success_iff w (n + 1) _ out hv hout (by simp only [depth, h4]; omega)).mpr ⟨h3, by
      rw [hi, List.length_take]; omega⟩
    rw [C22_encode_plain w (n + 1) _ out hv hout hf hok, hi]

example : size? .sse_Logon = some 82 ∧ textsNormal [.num .i16, .text 2 0x20 false] [1, 2, 0x41, 0x20, 9] := by
  refine ⟨by decide +kernel, ⟨js "A ", by decide +kernel, by decide +kernel⟩, by simp, trivial⟩

private def exTimer : Val := .obj .sse_ExecRptSync_SubExecRptSync [.str (js "AB"), .num ⟨.i32, 1⟩, .num ⟨.i64, 2⟩]

private theorem exTimer_left : everywhere leftFilled exTimer := ⟨trivial, trivial, trivial, trivial⟩

/-- `C25_fixed_size`, `C48_encode_offset`, `C48_byte_weights`. -/
example := C25_fixed_size World.initial 3 _ _ ⟨[9], 0, 100⟩ (by decide +kernel : wellTyped exTimer = true) ⟨by decide, by decide⟩ (by decide +kernel) 20
  (by decide +kernel) exTimer_left
example := C48_encode_offset World.initial 3 _ _ ⟨[9], 0, 100⟩ (by decide +kernel : wellTyped exTimer = true) ⟨by decide, by decide⟩ (by decide +kernel)
  exTimer_left 2 12 (.num .i64) (by decide +kernel) (by decide +kernel)
example := C48_byte_weights ⟨.i32, 0x01020304⟩ 2 (by decide)

end FinProto
