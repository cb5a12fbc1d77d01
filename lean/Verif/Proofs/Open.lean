import Verif.Spec.Open
import Verif.Proofs.Frames
import Verif.Proofs.Decode
/-
Helper lemmas: messages with parts supplied by the application.
-/
namespace FinProto

variable {U : Type}

theorem oencStmts_append (w : OWorld U) (n : Nat) (xs ys : List EncStmt) (st : OEncSt U) :
    oencStmts w n (xs ++ ys) st =
      (match oencStmts w n xs st with
       | (st', none) => oencStmts w n ys st'
       | (st', some t) => (st', some t)) := by
  induction xs generalizing st with
  | nil => rfl
  | cons s ss ih =>
    simp only [List.cons_append, oencStmts]
    rcases oencStmt w n s st with ⟨st', _ | t⟩
    · exact ih st'
    · rfl

theorem odecStmts_append (w : OWorld U) (n : Nat) (tys : List FTy) (xs ys : List DecStmt) (st : ODecSt U) :
    odecStmts w n tys (xs ++ ys) st =
      (match odecStmts w n tys xs st with
       | (st', none) => odecStmts w n tys ys st'
       | (st', some t) => (st', some t)) := by
  induction xs generalizing st with
  | nil => rfl
  | cons s ss ih =>
    simp only [List.cons_append, odecStmts]
    rcases odecStmt w n tys s st with ⟨st', _ | t⟩
    · exact ih st'
    · rfl

/-- Writing a number of the declared type. -/
theorem oenc_num (w : OWorld U) (n f : Nat) (e : Endian) (st : OEncSt U) (m : Num) (t : PTy) (hm : st.fs[f]? = some (.num m))
    (ht : m.ty = t) (hr : st.buf.data.length + m.ty.size ≤ st.buf.maxCap) :
    oencStmt w n (.num f t e) st = ({ st with buf := st.buf.with (m.bytes e) }, none) := by
  subst ht
  have hw : st.buf.write (m.bytes e) = (st.buf.with (m.bytes e), none) := by
    rw [WBuf.write, if_pos (by rw [Num.bytes_length]; exact hr)]; rfl
  simp [oencStmt, encStmt, hm, writeVal, Num.convert_self, hw]

theorem oenc_zero (w : OWorld U) (n : Nat) (e : Endian) (st : OEncSt U) (hr : st.buf.data.length + 4 ≤ st.buf.maxCap) :
    oencStmt w n (.zero .i32 e) st = ({ st with buf := st.buf.with (toBytes e 4 0) }, none) := by
  have hw : st.buf.write (toBytes e 4 0) = (st.buf.with (toBytes e 4 0), none) := by
    rw [WBuf.write, if_pos (by rw [toBytes_length]; exact hr)]; rfl
  have := writeInt_eq st.buf .i32 e 0 rfl
  simp only [PTy.size] at this
  simp [oencStmt, encStmt, this, hw]

theorem oenc_save (w : OWorld U) (n x : Nat) (st : OEncSt U) :
    oencStmt w n (.save x) st = ({ st with loc := setLoc st.loc x st.buf.data.length }, none) := rfl

/-- The frame header. -/
theorem oenc_head (w : OWorld U) (n : Nat) (e : Endian) : ∀ (hd : List Num) (done rest : List Val) (part : Option U) (b : WBuf)
    (loc : Nat → Option Nat), b.data.length + (hd.flatMap (·.bytes e)).length ≤ b.maxCap →
    oencStmts w n ((hd.zipIdx done.length).map fun p => .num p.2 p.1.ty e) ⟨done ++ hd.map .num ++ rest, part, b, loc⟩ =
      (⟨done ++ hd.map .num ++ rest, part, b.with (hd.flatMap (·.bytes e)), loc⟩, none)
  | [], done, rest, part, b, loc, _ => by simp [oencStmts, WBuf.with]
  | m :: hd, done, rest, part, b, loc, h => by
    simp only [List.flatMap_cons, List.length_append, Num.bytes_length] at h
    have h1 := oenc_num w n done.length e ⟨done ++ (m :: hd).map .num ++ rest, part, b, loc⟩ m m.ty
      (by simp) rfl (by show b.data.length + _ ≤ b.maxCap; omega)
    have ih := oenc_head w n e hd (done ++ [.num m]) rest part (b.with (m.bytes e)) loc
      (by simp only [WBuf.with, List.length_append, Num.bytes_length]; omega)
    simp only [List.zipIdx_cons, oencStmts, List.length_append, List.length_cons, List.length_nil, List.append_assoc,
      List.cons_append, List.nil_append, List.map_cons, Nat.zero_add] at h1 ih ⊢
    rw [h1]
    simp only [ih]
    simp [WBuf.with]

/-- The statements in front of the body. -/
def Frame.encPre (F : Frame) : List EncStmt :=
  ((F.head.zipIdx 0).map fun p => .num p.2 p.1 F.order) ++ [.save 0, .zero .i32 F.order, .save 1]

/-- The statements behind the body up to the patched length. -/
def Frame.encLen (F : Frame) : List EncStmt :=
  [.save 2, .setLen F.head.length 2 1, .patch 0 F.head.length .i32 F.order]

/-- The checksum. -/
def Frame.encCk (F : Frame) : List EncStmt :=
  match F.alg with
  | some a => [.checksum (F.head.length + 2) a, .num (F.head.length + 2) .i32 F.order]
  | none => []

theorem Frame.enc_eq (F : Frame) (hF : F ≠ .bjse) :
    (decl F.cls).enc = F.encPre ++ (.objOpt (F.head.length + 1) :: (F.encLen ++ F.encCk)) := by
  cases F <;> first | rfl | exact absurd rfl hF

def Frame.decPre (F : Frame) : List DecStmt :=
  ((F.head.zipIdx 0).map fun p => .num p.2 p.1 F.order) ++ [.num F.head.length .i32 F.order]

def Frame.decCk (F : Frame) : List DecStmt :=
  if F.hasCk then [.num (F.head.length + 2) .i32 F.order] else []

theorem Frame.dec_eq (F : Frame) :
    (decl F.cls).dec = F.decPre ++ (.create (F.head.length + 1) F.fac 0 :: .call (F.head.length + 1) :: F.decCk) := by
  cases F <;> rfl

theorem Frame.tys_eq (F : Frame) :
    (decl F.cls).fields.map (·.2) = F.head.map .prim ++ [.prim .i32, .codec] ++ (if F.hasCk then [.prim .i32] else []) := by
  cases F <;> rfl

theorem Frame.fields_len (F : Frame) (hd : List Num) (len ck : Num) (hh : hd.map (·.ty) = F.head) :
    (F.fields hd len ck)[F.head.length]? = some (.num len) := by
  rw [← hh]; simp [Frame.fields]

theorem Frame.fields_setLen (F : Frame) (hd : List Num) (len ck m : Num) (hh : hd.map (·.ty) = F.head) :
    (F.fields hd len ck).set F.head.length (.num m) = F.fields hd m ck := by
  rw [← hh]; simp [Frame.fields]

theorem Frame.fields_ck (F : Frame) (hd : List Num) (len ck : Num) (hh : hd.map (·.ty) = F.head) (ha : F.hasCk = true) :
    (F.fields hd len ck)[F.head.length + 2]? = some (.num ck) := by
  rw [← hh]; simp [Frame.fields, ha]

theorem Frame.fields_setCk (F : Frame) (hd : List Num) (len ck m : Num) (hh : hd.map (·.ty) = F.head) (ha : F.hasCk = true) :
    (F.fields hd len ck).set (F.head.length + 2) (.num m) = F.fields hd len m := by
  rw [← hh]; simp [Frame.fields, ha]

theorem WBuf.with_with (b : WBuf) (xs ys : List Byte) : (b.with xs).with ys = b.with (xs ++ ys) := by simp [WBuf.with]

theorem Frame.headBytes_length (F : Frame) (hd : List Num) (hh : hd.map (·.ty) = F.head) :
    (F.headBytes hd).length = (F.head.map PTy.size).sum := by
  rw [← hh, Frame.headBytes, List.length_flatMap]
  simp [Function.comp_def]

/-- The statements in front of the body. -/
theorem frame_pre (F : Frame) (w : OWorld U) (n : Nat) (b : WBuf) (hd : List Num) (len ck : Num) (part : Option U)
    (hh : hd.map (·.ty) = F.head) (hr : b.data.length + (F.headBytes hd).length + 4 ≤ b.maxCap) :
    oencStmts w n F.encPre ⟨F.fields hd len ck, part, b, fun _ => none⟩ =
      (⟨F.fields hd len ck, part, b.with (F.headBytes hd ++ F.int 0),
        setLoc (setLoc (fun _ => none) 0 (b.data.length + (F.headBytes hd).length)) 1 (b.data.length + (F.headBytes hd).length + 4)⟩,
        none) := by
  have h1 := oenc_head w n F.order hd [] ([.num len, .null] ++ (if F.hasCk then [.num ck] else [])) part b (fun _ => none)
    (by unfold Frame.headBytes at hr; omega)
  have hz : (F.head.zipIdx 0).map (fun p => EncStmt.num p.2 p.1 F.order) =
      (hd.zipIdx 0).map (fun p => EncStmt.num p.2 p.1.ty F.order) := by
    rw [← hh, List.zipIdx_map]
    simp [Function.comp_def]
  rw [Frame.encPre, oencStmts_append, hz]
  simp only [List.nil_append, List.length_nil, ← List.append_assoc] at h1
  rw [show F.fields hd len ck = hd.map .num ++ [.num len, .null] ++ (if F.hasCk then [.num ck] else []) from rfl]
  simp only [h1, oencStmts, oenc_save]
  rw [oenc_zero _ _ _ _ (by simp only [WBuf.with, List.length_append]; unfold Frame.headBytes at hr; omega)]
  simp only [WBuf.with_with, Frame.headBytes, Frame.int]
  simp [WBuf.with, Nat.add_assoc]

/-- The statements behind the body up to the patched length. -/
theorem frame_len (F : Frame) (w : OWorld U) (n : Nat) (b : WBuf) (hd : List Num) (len ck : Num) (part : Option U) (bs : List Byte)
    (hh : hd.map (·.ty) = F.head) (h : List Byte) (loc : Nat → Option Nat) (h0 : loc 0 = some (b.data.length + h.length))
    (h1 : loc 1 = some (b.data.length + h.length + 4)) :
    ∃ loc', oencStmts w n F.encLen ⟨F.fields hd len ck, part, b.with (h ++ F.int 0 ++ bs), loc⟩ =
      (⟨F.fields hd (.int (BitVec.ofNat 32 bs.length)) ck, part, b.with (h ++ F.int bs.length ++ bs), loc'⟩, none) := by
  refine ⟨setLoc loc 2 (b.data.length + h.length + 4 + bs.length), ?_⟩
  have hl : (b.with (h ++ F.int 0 ++ bs)).data.length = b.data.length + h.length + 4 + bs.length := by
    simp [WBuf.with, Frame.int]; omega
  have hd0 : BitVec.ofNat 32 (b.data.length + h.length + 4 + bs.length) - BitVec.ofNat 32 (b.data.length + h.length + 4) =
      BitVec.ofNat 32 bs.length := by
    rw [BitVec.ofNat_add (b.data.length + h.length + 4), BitVec.add_comm, BitVec.add_sub_cancel]
  have hs : (b.with (h ++ F.int 0 ++ bs)).set (b.data.length + h.length) ((Num.int (BitVec.ofNat 32 bs.length)).bytes F.order) =
      (b.with (h ++ F.int bs.length ++ bs), none) := by
    rw [bytes_int, WBuf.set, toBytes_length, if_pos (by rw [hl]; omega)]
    have : overwrite (b.data ++ (h ++ F.int 0 ++ bs)) (b.data.length + h.length) (toBytes F.order 4 bs.length) =
        b.data ++ (h ++ F.int bs.length ++ bs) := by
      rw [overwrite, toBytes_length]
      rw [show b.data ++ (h ++ F.int 0 ++ bs) = (b.data ++ h) ++ (F.int 0 ++ bs) by simp]
      rw [List.take_left' (by simp), show b.data.length + h.length + 4 = ((b.data ++ h) ++ F.int 0).length by simp [Frame.int, Nat.add_assoc]]
      rw [← List.append_assoc (b.data ++ h), List.drop_left]
      simp [Frame.int]
    simp only [WBuf.with, this]
  have hconv : (Num.int (BitVec.ofNat 32 bs.length)).convert .i32 = some (.int (BitVec.ofNat 32 bs.length)) := Num.convert_self _
  simp only [Frame.encLen, oencStmts, oenc_save, hl]
  simp only [oencStmt, encStmt, setLoc_same, setLoc_other loc 2 _ 1 _ (by decide) h1, hd0, Option.map_none,
    Frame.fields_setLen F hd len ck _ hh]
  simp only [setLoc_other loc 2 _ 0 _ (by decide) h0, Frame.fields_len F hd _ ck hh, hconv, hs, Option.map_none]

/-- Everything up to the checksum, when the body appends `bs`. -/
theorem frame_upto (F : Frame) (w : OWorld U) (n : Nat) (b : WBuf) (hd : List Num) (len ck : Num) (part part' : Option U)
    (bs : List Byte) (hh : hd.map (·.ty) = F.head) (hr : b.data.length + (F.headBytes hd).length + 4 ≤ b.maxCap)
    (hp : BodyAppends w part (b.with (F.headBytes hd ++ F.int 0)) bs part') :
    ∃ loc, ∀ ss, oencStmts w n (F.encPre ++ (.objOpt (F.head.length + 1) :: (F.encLen ++ ss))) ⟨F.fields hd len ck, part, b, fun _ => none⟩ =
      oencStmts w n ss ⟨F.fields hd (.int (BitVec.ofNat 32 bs.length)) ck, part', b.with (F.headBytes hd ++ F.int bs.length ++ bs), loc⟩ := by
  obtain ⟨loc', hl⟩ := frame_len F w n b hd len ck part' bs hh (F.headBytes hd)
    (setLoc (setLoc (fun _ => none) 0 (b.data.length + (F.headBytes hd).length)) 1 (b.data.length + (F.headBytes hd).length + 4))
    (setLoc_other _ _ _ _ _ (by decide) (setLoc_same _ _ _)) (setLoc_same _ _ _)
  refine ⟨loc', fun ss => ?_⟩
  rw [oencStmts_append, frame_pre F w n b hd len ck part hh hr]
  simp only [oencStmts]
  have : ∀ loc, oencStmt w n (.objOpt (F.head.length + 1)) ⟨F.fields hd len ck, part, b.with (F.headBytes hd ++ F.int 0), loc⟩ =
      (⟨F.fields hd len ck, part', b.with (F.headBytes hd ++ F.int 0 ++ bs), loc⟩, none) := by
    intro loc
    cases part with
    | none => obtain ⟨rfl, rfl⟩ := hp; simp [oencStmt]
    | some u =>
      obtain ⟨u', rfl, h⟩ := hp
      simp only [oencStmt, h, WBuf.with_with]
  simp only [this, oencStmts_append, hl]

theorem oenc_ck (w : OWorld U) (n f : Nat) (e : Endian) (st : OEncSt U) (m : Num) (hm : st.fs[f]? = some (.num m))
    (ht : m.ty = .i32) :
    oencStmt w n (.num f .i32 e) st =
      (if st.buf.data.length + 4 ≤ st.buf.maxCap then ({ st with buf := st.buf.with (m.bytes e) }, none)
       else (st, some (.java .indexOutOfBounds))) := by
  by_cases h : st.buf.data.length + 4 ≤ st.buf.maxCap
  · rw [if_pos h]; exact oenc_num w n f e st m .i32 hm ht (by rw [ht]; exact h)
  · have hc : m.convert .i32 = some m := by have := Num.convert_self m; rwa [ht] at this
    have hw : st.buf.write (m.bytes e) = (st.buf, some .indexOutOfBounds) := by
      rw [WBuf.write, if_neg (by rw [Num.bytes_length, ht]; exact h)]
    simp [if_neg h, oencStmt, encStmt, hm, writeVal, hc, hw]

/-! ### decode -/

/-- Reading a number of the declared type. -/
theorem odec_num (w : OWorld U) (n f : Nat) (e : Endian) (tys : List FTy) (st : ODecSt U) (m : Num) (rest : List Byte)
    (hty : tys[f]? = some (.prim m.ty)) (hd : st.buf.data.drop st.buf.rd = m.bytes e ++ rest) :
    odecStmt w n tys (.num f m.ty e) st =
      ({ st with fs := st.fs.set f (.num m), buf := { st.buf with rd := st.buf.rd + m.ty.size } }, none) := by
  have hl : st.buf.rd + m.ty.size ≤ st.buf.data.length := by
    have := congrArg List.length hd
    simp only [List.length_drop, List.length_append, Num.bytes_length] at this
    have := PTy.size_pos m.ty
    omega
  have hr : st.buf.readNum e m.ty = ({ st.buf with rd := st.buf.rd + m.ty.size }, .ok m) := by
    rw [RBuf.readNum, if_pos hl, hd, List.take_left' (Num.bytes_length e m), Num.ofBytes_bytes]
  simp [odecStmt, decStmt, hr, hty, assignNum_self]

theorem odec_num_short (w : OWorld U) (n f : Nat) (e : Endian) (tys : List FTy) (st : ODecSt U) (t : PTy)
    (hd : st.buf.data.length < st.buf.rd + t.size) :
    odecStmt w n tys (.num f t e) st = (st, some (.java .indexOutOfBounds)) := by
  have hr : st.buf.readNum e t = (st.buf, .error .indexOutOfBounds) := by
    rw [RBuf.readNum, if_neg (by omega)]
  simp [odecStmt, decStmt, hr]

theorem odec_head (w : OWorld U) (n : Nat) (e : Endian) (tys : List FTy) : ∀ (hd : List Num) (done olds rest : List Val)
    (part : Option U) (b : RBuf) (tl : List Byte), olds.length = hd.length →
    (∀ i m, hd[i]? = some m → tys[done.length + i]? = some (.prim m.ty)) →
    b.data.drop b.rd = hd.flatMap (·.bytes e) ++ tl →
    odecStmts w n tys ((hd.zipIdx done.length).map fun p => .num p.2 p.1.ty e) ⟨done ++ olds ++ rest, part, b⟩ =
      (⟨done ++ hd.map .num ++ rest, part, { b with rd := b.rd + (hd.flatMap (·.bytes e)).length }⟩, none)
  | [], done, olds, rest, part, b, tl, hl, _, _ => by
    obtain rfl : olds = [] := List.length_eq_zero_iff.mp hl
    simp [odecStmts]
  | m :: hd, done, [], rest, part, b, tl, hl, _, _ => by simp at hl
  | m :: hd, done, o :: olds, rest, part, b, tl, hl, hty, h => by
    have h1 := odec_num w n done.length e tys ⟨done ++ (o :: olds) ++ rest, part, b⟩ m (hd.flatMap (·.bytes e) ++ tl)
      (hty 0 m rfl) (by rw [← List.append_assoc]; exact h)
    have ih := odec_head w n e tys hd (done ++ [.num m]) olds rest part { b with rd := b.rd + m.ty.size } tl
      (by simpa using hl) (fun i k hk => by
        have := hty (i + 1) k (by simpa using hk)
        rw [← this]; simp [Nat.add_assoc, Nat.add_comm 1 i])
      (by
        show b.data.drop (b.rd + m.ty.size) = _
        rw [← List.drop_drop, h, List.flatMap_cons, List.append_assoc, List.drop_left' (Num.bytes_length e m)])
    simp only [List.zipIdx_cons, odecStmts, List.length_append, List.length_cons, List.length_nil, List.append_assoc,
      List.cons_append, List.nil_append, List.map_cons, Nat.zero_add] at h1 ih ⊢
    rw [h1]
    simp only [List.set_append_right _ _ (Nat.le_refl _), Nat.sub_self, List.set_cons_zero]
    simp only [ih]
    simp [Nat.add_assoc]

/-- The header and the length. -/
theorem frame_decPre (F : Frame) (w : OWorld U) (n : Nat) (b : RBuf) (hd hd0 : List Num) (len len0 ck0 : Num) (part : Option U)
    (rest : List Byte) (hh : hd.map (·.ty) = F.head) (hl : hd0.length = hd.length) (hlen : len.ty = .i32)
    (h : b.data.drop b.rd = F.headBytes hd ++ len.bytes F.order ++ rest) :
    odecStmts w n ((decl F.cls).fields.map (·.2)) F.decPre ⟨F.fields hd0 len0 ck0, part, b⟩ =
      (⟨F.fields hd len ck0, part, { b with rd := b.rd + (F.headBytes hd).length + 4 }⟩, none) := by
  have hz : (F.head.zipIdx 0).map (fun p => DecStmt.num p.2 p.1 F.order) =
      (hd.zipIdx 0).map (fun p => DecStmt.num p.2 p.1.ty F.order) := by
    rw [← hh, List.zipIdx_map]
    simp [Function.comp_def]
  have h1 := odec_head w n F.order ((decl F.cls).fields.map (·.2)) hd [] (hd0.map .num)
    ([.num len0, .null] ++ (if F.hasCk then [.num ck0] else [])) part b (len.bytes F.order ++ rest) (by simpa using hl)
    (fun i m hm => by
      rw [F.tys_eq, ← hh]
      have hi : i < hd.length := (List.getElem?_eq_some_iff.mp hm).1
      rw [List.append_assoc, List.getElem?_append_left (by simpa using hi)]
      simp [hm])
    (by rw [← List.append_assoc]; exact h)
  rw [Frame.decPre, odecStmts_append, hz]
  rw [show F.fields hd0 len0 ck0 = [] ++ hd0.map .num ++ ([.num len0, .null] ++ (if F.hasCk then [.num ck0] else [])) by
    simp [Frame.fields]]
  simp only [List.length_nil] at h1
  simp only [h1]
  have h2 := odec_num w n F.head.length F.order ((decl F.cls).fields.map (·.2))
    ⟨F.fields hd len0 ck0, part, { b with rd := b.rd + (F.headBytes hd).length }⟩ len rest
    (by rw [F.tys_eq, hlen]; simp)
    (by
      show b.data.drop (b.rd + (F.headBytes hd).length) = _
      rw [← List.drop_drop, h, List.append_assoc, List.drop_left])
  rw [hlen] at h2
  rw [show [] ++ hd.map .num ++ ([.num len0, .null] ++ (if F.hasCk then [.num ck0] else [])) = F.fields hd len0 ck0 by
    simp [Frame.fields]]
  simp only [odecStmts, Frame.headBytes] at h2 ⊢
  rw [h2]
  simp only [Frame.fields_setLen F hd len0 ck0 len hh, PTy.size]

end FinProto
