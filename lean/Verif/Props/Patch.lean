import Verif.Props.Encode
import Verif.Props.Objects
import Verif.Proofs.Patch
/-
C106: changing one field in a message and in its bytes.
-/
namespace FinProto

/-! ### C106: setters and bytes -/

private theorem image_split (k : Conv) : ∀ (ts : List WTy) (fs : List Val) (p : Nat) (t : WTy) (v : Val), ts[p]? = some t → fs[p]? = some v →
    ∃ behind, ∀ x, imageFields k ts (fs.set p x) = imageFields k ts (fs.take p) ++ imageField k t x ++ behind := by
  intro ts
  induction ts with
  | nil => intro fs p t v ht; simp at ht
  | cons t0 ts ih =>
    intro fs p t v ht hv
    cases fs with
    | nil => simp at hv
    | cons f fs =>
      cases p with
      | zero =>
        simp only [List.getElem?_cons_zero, Option.some.injEq] at ht
        subst ht
        exact ⟨imageFields k ts fs, fun x => by simp [imageFields]⟩
      | succ p =>
        simp only [List.getElem?_cons_succ] at ht hv
        obtain ⟨behind, h⟩ := ih fs p t v ht hv
        exact ⟨behind, fun x => by simp only [List.set_cons_succ, List.take_succ_cons, imageFields, h x, List.append_assoc]⟩

private theorem frameless_set (fs : List Val) (p : Nat) (x : Val) (h : framelessList fs = true) (hx : frameless x = true) :
    framelessList (fs.set p x) = true := by
  induction fs generalizing p with
  | nil => simpa using h
  | cons f fs ih =>
    simp only [framelessList, Bool.and_eq_true] at h
    cases p with
    | zero => simp [framelessList, hx, h.2]
    | succ p => simp [framelessList, h.1, ih p h.2]

/-- **C106.** Messages without computed fields: encoding a message before and after one setter call gives the same bytes in front of the field and behind it, and the
field's own bytes between them. -/
theorem C106_setter (w : World) (n : Nat) (c : Cls) (fs : List Val) (b : WBuf) (p : Nat) (t : WTy) (v x : Val)
    (hv : wellTyped (.obj c fs) = true) (hf : frameless (.obj c fs) = true) (hb : b.Valid)
    (ht : (wire c)[p]? = some t) (hp : fs[p]? = some v) (hx : hasType t.java x = true) (hfx : frameless x = true)
    (hok : (encode w n (.obj c fs) b).2.2 = none) (hok' : (encode w n (.obj c (setProp c p x fs)) b).2.2 = none) :
    ∃ behind,
      (encode w n (.obj c fs) b).2.1.data =
        b.data ++ imageFields (conv c.mod) (wire c) (fs.take p) ++ imageField (conv c.mod) t v ++ behind
      ∧ (encode w n (.obj c (setProp c p x fs)) b).2.1.data =
        b.data ++ imageFields (conv c.mod) (wire c) (fs.take p) ++ imageField (conv c.mod) t x ++ behind := by
  have hpl : p < (layout c).length := by
    have := (List.getElem?_eq_some_iff.mp ht).1
    simpa [wire] using this
  have hty : fieldsHaveType (javaTypes c) fs = true := by simpa [wellTyped, hasType] using hv
  have hjt : (javaTypes c)[p]? = some t.java := by rw [type_table, List.getElem?_map, ht]; rfl
  have hv' : wellTyped (.obj c (setProp c p x fs)) = true := by
    simp only [wellTyped, hasType, C51_set_typed c p x fs t.java hty hjt hx, Bool.and_true]
  have hf' : frameless (.obj c (setProp c p x fs)) = true := by
    rw [setProp_eq c p x fs hpl]
    simp only [frameless, Bool.and_eq_true] at hf ⊢
    exact ⟨hf.1, frameless_set fs p x hf.2 hfx⟩
  obtain ⟨behind, h⟩ := image_split (conv c.mod) (wire c) fs p t v ht hp
  refine ⟨behind, ?_, ?_⟩
  · rw [C22_encode_plain w n _ b hv hb hf hok]
    have h1 := h v
    rw [set_same fs p v hp] at h1
    simp only [image, h1, List.append_assoc]
  · rw [C22_encode_plain w n _ b hv' hb hf' hok']
    rw [setProp_eq c p x fs hpl]
    simp only [image, h x, List.append_assoc]

private theorem overwrite_mid (xs old new ys : List Byte) (h : old.length = new.length) :
    overwrite (xs ++ old ++ ys) xs.length new = xs ++ new ++ ys := by
  simp only [overwrite, List.append_assoc, List.take_left]
  rw [← h, ← List.drop_drop, List.drop_left, List.drop_left]

private theorem num_type (q : PTy) (v : Val) (h : hasType (.prim q) v = true) : ∃ m : Num, v = .num m ∧ m.ty = q := by
  cases v <;> simp [hasType] at h
  exact ⟨_, rfl, h⟩

private theorem type_at : ∀ (ts : List FTy) (fs : List Val) (p : Nat) (t : FTy) (v : Val), fieldsHaveType ts fs = true → ts[p]? = some t → fs[p]? = some v →
    hasType t v = true := by
  intro ts fs
  induction fs generalizing ts with
  | nil => intro p t v _ _ h; simp at h
  | cons f fs ih =>
    intro p t v h ht hp
    cases ts with
    | nil => simp at ht
    | cons t0 ts =>
      simp only [fieldsHaveType, Bool.and_eq_true] at h
      cases p with
      | zero =>
        simp only [List.getElem?_cons_zero, Option.some.injEq] at ht hp
        subst ht hp
        exact h.1
      | succ p => exact ih ts p t v h.2 (by simpa using ht) (by simpa using hp)

/-- **C106.** A number can be changed in the buffer: overwriting its bytes (`setInt`, `setLongLE` and so on, at the place where the bytes of the fields in front of it end)
gives the buffer that encoding the message after the setter call would have given. -/
theorem C106_in_place (w : World) (n : Nat) (c : Cls) (fs : List Val) (b : WBuf) (p : Nat) (x : Num)
    (hv : wellTyped (.obj c fs) = true) (hf : frameless (.obj c fs) = true) (hb : b.Valid)
    (ht : (wire c)[p]? = some (.num x.ty))
    (hok : (encode w n (.obj c fs) b).2.2 = none) (hok' : (encode w n (.obj c (setProp c p (.num x) fs)) b).2.2 = none) :
    (encode w n (.obj c fs) b).2.1.set (b.data.length + (imageFields (conv c.mod) (wire c) (fs.take p)).length) (x.bytes (conv c.mod).order) =
      ((encode w n (.obj c (setProp c p (.num x) fs)) b).2.1, none) := by
  have hty : fieldsHaveType (javaTypes c) fs = true := by simpa [wellTyped, hasType] using hv
  have hjt : (javaTypes c)[p]? = some (.prim x.ty) := by rw [type_table, List.getElem?_map, ht]; rfl
  have hlen := fields_length c fs hty
  have hpl := (List.getElem?_eq_some_iff.mp ht).1
  have hp : fs[p]? = some (fs[p]'(by omega)) := List.getElem?_eq_getElem (by omega)
  obtain ⟨m, hm, hmt⟩ := num_type x.ty _ (type_at _ fs p _ _ hty hjt hp)
  rw [hm] at hp
  obtain ⟨behind, h1, h2⟩ := C106_setter w n c fs b p _ _ (.num x) hv hf hb ht hp (by simp [WTy.java, hasType]) rfl hok hok'
  have hs : ∀ k : Num, (k.bytes (conv c.mod).order).length = k.ty.size := fun k => by
    simp [Num.bytes]
  have e1 := C22_prefix_untouched w n (.obj c fs) b
  have e2 := C22_prefix_untouched w n (.obj c (setProp c p (.num x) fs)) b
  simp only [imageField] at h1 h2
  have hol : (m.bytes (conv c.mod).order).length = (x.bytes (conv c.mod).order).length := by rw [hs, hs, hmt]
  revert h1 h2 e1 e2
  generalize (encode w n (.obj c fs) b).2.1 = r
  generalize (encode w n (.obj c (setProp c p (.num x) fs)) b).2.1 = r'
  obtain ⟨d, rd, cap⟩ := r
  obtain ⟨d', rd', cap'⟩ := r'
  rintro h1 h2 ⟨_, e1, e2⟩ ⟨_, e3, e4⟩
  simp only at h1 h2 e1 e2 e3 e4
  subst h1 h2 e1 e2 e3 e4
  have ho := overwrite_mid (b.data ++ imageFields (conv c.mod) (wire c) (fs.take p)) (m.bytes (conv c.mod).order) (x.bytes (conv c.mod).order) behind hol
  rw [List.length_append] at ho
  rw [WBuf.set, if_pos (by simp only [List.length_append]; omega), ho]

private theorem settle_body (svc : Registry) (k : Conv) (pre : List Byte) (f : Fac) (g : Nat) (v : Val) (hf : frameless v = true) (hv : hasType .codec v = true) :
    settleField svc k pre (.ext f g) v = v := by
  cases v with
  | obj c fs =>
    have := settle_frameless svc pre (.obj c fs) hf
    simpa [settle, settleField] using this
  | null => simp [settleField]
  | num n => simp [hasType] at hv
  | str n => simp [hasType] at hv
  | list n => simp [hasType] at hv

/-- The frame as settled, when the body has no computed fields. -/
private theorem settle_frame (svc : Registry) (k : Conv) (f : Fac) (g : Nat) (len body : Val) (hf : frameless body = true)
    (hb : hasType .codec body = true) (cs : List WTy) (cvs : List Val) :
    ∀ (hs : List PTy) (hvs : List Num), hvs.length = hs.length →
    ∀ pre, ∃ pre', settleFields svc k pre (hs.map .num ++ .len .i32 :: .ext f g :: cs) (hvs.map .num ++ len :: body :: cvs) =
      hvs.map .num ++ .num (.int (BitVec.ofNat 32 (imageField k (.ext f g) body).length)) :: body :: settleFields svc k pre' cs cvs := by
  intro hs
  induction hs with
  | nil =>
    intro hvs hl pre
    obtain rfl := List.length_eq_zero_iff.mp hl
    simp only [List.map_nil, List.nil_append, settleFields, settle_body svc k _ f g body hf hb]
    exact ⟨_, rfl⟩
  | cons h hs ih =>
    intro hvs hl pre
    cases hvs with
    | nil => simp at hl
    | cons v hvs =>
      obtain ⟨pre', h'⟩ := ih hvs (by simpa using hl) (pre ++ imageField k (.num h) (.num v))
      refine ⟨pre', ?_⟩
      simp only [List.map_cons, List.cons_append, settleFields, settleField, h']

private theorem frame_shape (c : Cls) (hc : hasComputed c = true) : ∃ (hs : List PTy) (f : Fac) (g : Nat) (cs : List WTy),
    wire c = hs.map .num ++ .len .i32 :: .ext f g :: cs ∧ ((cs = [] ∧ c = .risk_RcBinary) ∨ ∃ a, cs = [.cksum .i32 a] ∧ c ≠ .risk_RcBinary) := by
  rcases (C22_frames c).mp hc with rfl | rfl | rfl | rfl
  · exact ⟨[.i16], _, _, _, rfl, .inr ⟨_, rfl, by decide⟩⟩
  · exact ⟨[.i32, .i64], _, _, _, rfl, .inr ⟨_, rfl, by decide⟩⟩
  · exact ⟨[.i32], _, _, _, rfl, .inr ⟨_, rfl, by decide⟩⟩
  · exact ⟨[.i32, .i32], _, _, _, rfl, .inl ⟨rfl, rfl⟩⟩

private theorem typed_header (rest : List WTy) : ∀ (hs : List PTy) (fs : List Val), fieldsHaveType ((hs.map WTy.num ++ rest).map WTy.java) fs = true →
    ∃ (hvs : List Num) (tail : List Val), fs = hvs.map .num ++ tail ∧ hvs.length = hs.length ∧ fieldsHaveType (rest.map WTy.java) tail = true := by
  intro hs
  induction hs with
  | nil => intro fs h; exact ⟨[], fs, rfl, rfl, h⟩
  | cons q hs ih =>
    intro fs h
    cases fs with
    | nil => simp [fieldsHaveType] at h
    | cons v fs =>
      simp only [List.map_cons, List.cons_append, fieldsHaveType, Bool.and_eq_true] at h
      obtain ⟨m, rfl, _⟩ := num_type q v h.1
      obtain ⟨hvs, tail, rfl, hl, ht⟩ := ih fs h.2
      exact ⟨m :: hvs, tail, rfl, by simp [hl], ht⟩

private theorem image_append (k : Conv) (ts' : List WTy) (fs' : List Val) : ∀ (ts : List WTy) (fs : List Val), fs.length = ts.length →
    imageFields k (ts ++ ts') (fs ++ fs') = imageFields k ts fs ++ imageFields k ts' fs' := by
  intro ts
  induction ts with
  | nil => intro fs h; obtain rfl := List.length_eq_zero_iff.mp h; simp [imageFields]
  | cons t ts ih =>
    intro fs h
    cases fs with
    | nil => simp at h
    | cons f fs => simp only [List.cons_append, imageFields, ih fs (by simpa using h), List.append_assoc]

private theorem frameless_get (fs : List Val) (v : Val) (h : framelessList fs = true) (hm : v ∈ fs) : frameless v = true := by
  induction fs with
  | nil => simp at hm
  | cons f fs ih =>
    simp only [framelessList, Bool.and_eq_true] at h
    rcases List.mem_cons.mp hm with rfl | hm
    · exact h.1
    · exact ih h.2 hm

/-- **C106.** Frames: a setter of a number in front of the length field changes the bytes of this number and, if the frame has a checksum, the four bytes of the checksum. -/
theorem C106_header (w : World) (n : Nat) (c : Cls) (fs : List Val) (b : WBuf) (p : Nat) (x : Num)
    (hc : hasComputed c = true) (hv : wellTyped (.obj c fs) = true) (hf : framelessList fs = true) (hb : b.Valid)
    (ht : (wire c)[p]? = some (.num x.ty))
    (hok : (encode w n (.obj c fs) b).2.2 = none) (hok' : (encode w n (.obj c (setProp c p (.num x) fs)) b).2.2 = none) :
    ∃ (old : Num) (front mid ck ck' : List Byte), fs[p]? = some (.num old) ∧ old.ty = x.ty
      ∧ front = imageFields (conv c.mod) (wire c) (fs.take p)
      ∧ (encode w n (.obj c fs) b).2.1.data = b.data ++ front ++ old.bytes (conv c.mod).order ++ mid ++ ck
      ∧ (encode w n (.obj c (setProp c p (.num x) fs)) b).2.1.data = b.data ++ front ++ x.bytes (conv c.mod).order ++ mid ++ ck'
      ∧ ck.length = (if c = .risk_RcBinary then 0 else 4) ∧ ck'.length = (if c = .risk_RcBinary then 0 else 4) := by
  have hty : fieldsHaveType (javaTypes c) fs = true := by simpa [wellTyped, hasType] using hv
  have hpw := (List.getElem?_eq_some_iff.mp ht).1
  have hpl : p < (layout c).length := by simpa [wire] using hpw
  have hjt : (javaTypes c)[p]? = some (.prim x.ty) := by rw [type_table, List.getElem?_map, ht]; rfl
  have hv' : wellTyped (.obj c (setProp c p (.num x) fs)) = true := by
    simp only [wellTyped, hasType, C51_set_typed c p (.num x) fs (.prim x.ty) hty hjt (by simp [hasType]), Bool.and_true]
  obtain ⟨hs, f, g, cs, hw, hcs⟩ := frame_shape c hc
  have hty' := hty
  rw [type_table, hw] at hty'
  obtain ⟨hvs, tail, rfl, hhl, htl⟩ := typed_header _ hs fs hty'
  obtain ⟨len, body, cvs, rfl⟩ : ∃ l bd cv, tail = l :: bd :: cv := by
    match tail, htl with
    | [], h => simp [fieldsHaveType] at h
    | [_], h => simp [fieldsHaveType] at h
    | l :: bd :: cv, _ => exact ⟨l, bd, cv, rfl⟩
  simp only [List.map_cons, fieldsHaveType, Bool.and_eq_true, WTy.java] at htl
  have hbf : frameless body = true := frameless_get _ body hf (by simp)
  have hph : p < hs.length := by
    rw [hw] at ht
    apply Classical.byContradiction
    intro hge
    rw [List.getElem?_append_right (by simp; omega)] at ht
    rcases hcs with ⟨rfl, _⟩ | ⟨a, rfl, _⟩ <;> rcases hq : p - (hs.map WTy.num).length with _ | _ | _ | _ <;> rw [hq] at ht <;> simp at ht
  have hpv : p < hvs.length := by omega
  have hget : (hvs.map Val.num ++ len :: body :: cvs)[p]? = some (.num hvs[p]) := by
    rw [List.getElem?_append_left (by simpa using hpv)]; simp [hpv]
  have hot : hvs[p].ty = x.ty := by
    have := type_at _ _ p _ _ hty hjt hget
    simpa [hasType] using this
  have key : ∀ (hvs' : List Num), hvs'.length = hs.length → wellTyped (.obj c (hvs'.map .num ++ len :: body :: cvs)) = true →
      (encode w n (.obj c (hvs'.map .num ++ len :: body :: cvs)) b).2.2 = none →
      ∃ ck : List Byte, ck.length = (if c = .risk_RcBinary then 0 else 4) ∧
        (encode w n (.obj c (hvs'.map .num ++ len :: body :: cvs)) b).2.1.data =
          b.data ++ imageFields (conv c.mod) (hs.map .num ++ [.len .i32, .ext f g])
            (hvs'.map .num ++ [.num (.int (BitVec.ofNat 32 (imageField (conv c.mod) (.ext f g) body).length)), body]) ++ ck := by
    intro hvs' hl' ht' ho'
    obtain ⟨h1, _, _, h2⟩ := C22_encode_appends_image w n _ b ht' hb ho'
    obtain ⟨pre', h3⟩ := settle_frame w.svc (conv c.mod) f g len body hbf htl.2.1 cs cvs hs hvs' hl' b.readable
    rw [h1, h2]
    simp only [settle, image, hw, h3]
    refine ⟨imageFields (conv c.mod) cs (settleFields w.svc (conv c.mod) pre' cs cvs), ?_, ?_⟩
    · rcases hcs with ⟨rfl, rfl⟩ | ⟨a, rfl, hne⟩
      · have : cvs = [] := by cases cvs with | nil => rfl | cons _ _ => simp [fieldsHaveType] at htl
        subst this
        rfl
      · rw [if_neg hne]
        match cvs, htl.2.2 with
        | ck :: cvs, h =>
          simp only [List.map_cons, List.map_nil, fieldsHaveType, Bool.and_eq_true, WTy.java] at h
          obtain ⟨m, rfl, hm⟩ := num_type .i32 ck h.1
          have : cvs = [] := by cases cvs with | nil => rfl | cons _ _ => simp [fieldsHaveType] at h
          subst this
          simp only [settleFields, settleField, imageFields]
          cases w.svc a <;> simp [imageField, Num.bytes, hm, Num.int, PTy.size]
    · have := image_append (conv c.mod) cs (settleFields w.svc (conv c.mod) pre' cs cvs) (hs.map .num ++ [.len .i32, .ext f g])
        (hvs'.map .num ++ [.num (.int (BitVec.ofNat 32 (imageField (conv c.mod) (.ext f g) body).length)), body]) (by simp [hl'])
      simp only [List.append_assoc, List.cons_append, List.nil_append] at this ⊢
      rw [this]
  obtain ⟨mid, hmid⟩ := image_split (conv c.mod) (hs.map .num ++ [.len .i32, .ext f g])
    (hvs.map .num ++ [.num (.int (BitVec.ofNat 32 (imageField (conv c.mod) (.ext f g) body).length)), body]) p (.num x.ty) (.num hvs[p])
    (by
      rw [hw, List.getElem?_append_left (by simpa using hph)] at ht
      rw [List.getElem?_append_left (by simpa using hph), ht])
    (by rw [List.getElem?_append_left (by simpa using hpv)]; simp [hpv])
  have hset : setProp c p (.num x) (hvs.map .num ++ len :: body :: cvs) = (hvs.set p x).map .num ++ len :: body :: cvs := by
    rw [setProp_eq c p _ _ hpl, List.set_append_left _ _ (by simpa using hpv), List.map_set]
  have htake : ∀ (r : List Val) (ts' : List WTy), imageFields (conv c.mod) (hs.map .num ++ ts') ((hvs.map Val.num ++ r).take p) =
      imageFields (conv c.mod) (hs.map .num) ((hvs.map Val.num).take p) := by
    intro r ts'
    rw [List.take_append_of_le_length (by simp; omega)]
    have hsplit : (hs.map WTy.num) = (hs.map WTy.num).take p ++ (hs.map WTy.num).drop p := (List.take_append_drop _ _).symm
    have e1 := image_append (conv c.mod) ((hs.map WTy.num).drop p ++ ts') [] ((hs.map WTy.num).take p) ((hvs.map Val.num).take p) (by simp; omega)
    have e2 := image_append (conv c.mod) ((hs.map WTy.num).drop p) [] ((hs.map WTy.num).take p) ((hvs.map Val.num).take p) (by simp; omega)
    rw [← List.append_assoc, ← hsplit, List.append_nil] at e1
    rw [← hsplit, List.append_nil] at e2
    rw [e1, e2]
    simp [imageFields]
  obtain ⟨ck, hck, hd⟩ := key hvs hhl hv hok
  rw [hset] at hok' hv' ⊢
  obtain ⟨ck', hck', hd'⟩ := key (hvs.set p x) (by simpa using hhl) hv' hok'
  refine ⟨hvs[p], _, mid, ck, ck', hget, hot, rfl, ?_, ?_, hck, hck'⟩
  · have h := hmid (.num hvs[p])
    rw [set_same _ p _ (by rw [List.getElem?_append_left (by simpa using hpv)]; simp [hpv])] at h
    rw [hd, h, hw, htake, htake]
    simp only [imageField, List.append_assoc]
  · have h := hmid (.num x)
    rw [List.set_append_left _ _ (by simpa using hpv), ← List.map_set] at h
    rw [hd', h, hw, htake, htake]
    simp only [imageField, List.append_assoc]

/-! ### C106: received bytes -/

/-- **C106.** The same for received bytes, whatever they are: if `decode` succeeds, then the bytes of a field of fixed width that is no key can be replaced by any others, and
`decode` gives the same message but for this field. -/
theorem C106_received (w : World) (n : Nat) (c : Cls) (olds : List Val) (b : RBuf) (i s : Nat) (t : WTy) (hl : olds.length = (wire c).length)
    (hok : (decode w n c olds b).2.2 = none) (ht : (wire c)[i]? = some t) (hs : t.width? = some s) (hk : ∀ f key, WTy.ext f key ∈ wire c → key ≠ i) :
    ∃ front old behind : List Byte,
      front ++ old ++ behind <+: (b.data ++ b.spare).drop b.rd
      ∧ (decode w n c olds b).2.1.rd = b.rd + (front ++ old ++ behind).length
      ∧ old.length = s
      ∧ (∀ o, offset? (wire c) i = some o → front.length = o)
      ∧ (decode w n c olds b).1[i]? = some (fieldValue (conv c.mod) t old)
      ∧ ∀ new before after spare : List Byte, new.length = s →
          decode w n c olds ⟨before ++ (front ++ new ++ behind) ++ after, spare, before.length⟩ =
            ((decode w n c olds b).1.set i (fieldValue (conv c.mod) t new),
              ⟨before ++ (front ++ new ++ behind) ++ after, spare, before.length + (front ++ new ++ behind).length⟩, none) := by
  obtain ⟨X, h1, h2, h3⟩ := (law_decode w n c olds).local' b hok
  cases n with
  | zero => simp [decode] at hok
  | succ n =>
    have hT : Takes (readFields w (decode w n) (conv c.mod) [] (wire c) olds) X (decode w (n + 1) c olds b).1 := by
      intro pre post sp
      rw [← decode_eq w n c olds _ hl]
      exact (h3 pre).1 post sp
    obtain ⟨front, old, behind, rfl, ho, hg, hoff, hnew⟩ := readFields_patch w (decode w n) (law_decode w n) (conv c.mod) (wire c) i s t [] olds X _ ht hs hl
      (by simpa using hk) hT
    refine ⟨front, old, behind, h1, h2, ho, hoff, by simpa using hg, ?_⟩
    intro new before after spare hn
    have := hnew new hn before after spare
    rw [decode_eq w n c olds _ hl]
    simpa using this

/-! ### Examples -/

private def exSubFs : List Val := [.num ⟨.i32, 5⟩, .list [.num ⟨.i16, 2⟩]]
private def exRootFs : List Val := [.num ⟨.i16, 3⟩, .num ⟨.i32, 99⟩, .obj .sample_SubPacket exSubFs, .num ⟨.i32, 0⟩]

example := C106_setter World.initial 3 .sample_SubPacket exSubFs ⟨[9], 0, 100⟩ 1 (.list (.num .i16)) (.list [.num ⟨.i16, 2⟩]) (.list [.num ⟨.i16, 4⟩, .num ⟨.i16, 6⟩])
  (by decide +kernel) (by decide +kernel) ⟨by decide, by decide⟩ rfl rfl (by decide +kernel) (by decide +kernel) (by decide +kernel) (by decide +kernel)
example := C106_in_place World.initial 3 .sample_SubPacket exSubFs ⟨[9], 0, 100⟩ 0 ⟨.i32, 0x01020304⟩
  (by decide +kernel) (by decide +kernel) ⟨by decide, by decide⟩ rfl (by decide +kernel) (by decide +kernel)
example : ((encode World.initial 3 (.obj .sample_SubPacket exSubFs) ⟨[9], 0, 100⟩).2.1.set 1 [4, 3, 2, 1]).1.data = [9, 4, 3, 2, 1, 1, 0, 2, 0] := by decide +kernel
example := C106_header World.initial 3 .sample_RootPacket exRootFs ⟨[9], 0, 100⟩ 0 ⟨.i16, 7⟩ (by decide +kernel)
  (by decide +kernel) (by decide +kernel) ⟨by decide, by decide⟩ rfl (by decide +kernel) (by decide +kernel)
example := C106_received World.initial 3 .sample_SubPacket (freshFields .sample_SubPacket) ⟨[9, 5, 0, 0, 0, 1, 0, 2, 0, 8], [], 1⟩ 0 4 (.num .i32) rfl
  (by decide +kernel) rfl rfl (by simp [wire, layout, Layout.sample_SubPacket])

end FinProto
