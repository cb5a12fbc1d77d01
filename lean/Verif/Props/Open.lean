import Verif.Proofs.OpenExt
/-
C70: frames around parts that the application supplies (bodies, suppliers, checksum services).

`w` is the application: any bodies (`w.enc`, `w.dec`), any suppliers (`w.sup`), any checksum services (`w.svc`).
`F` is one of the five frames (`Spec/Open.lean`), `hd` its header values in front of the length.
-/
namespace FinProto

variable {U : Type}

/-- **C70 (successful encode).** Let the body append `bs` (no body: `bs = []`), behind the header and four length bytes.  If no checksum
service is registered under the frame's algorithm name, or the registered service, called with the frame written up to the end of the
body and the true length in place, returns `v` and leaves the buffer as `b1`, then `encode` succeeds: the length and checksum fields are set,
the header fields are not changed, and the buffer is `b1` followed by the checksum. -/
theorem C70_encode (F : Frame) (w : OWorld U) (n : Nat) (b b1 : WBuf) (hd : List Num) (len ck ck' : Num) (part part' : Option U)
    (bs : List Byte) (hF : F ≠ .bjse) (hh : hd.map (·.ty) = F.head) (hck : ck.ty = .i32)
    (hr : b.data.length + (F.headBytes hd).length + 4 ≤ b.maxCap)
    (hp : BodyAppends w part (b.with (F.headBytes hd ++ F.int 0)) bs part')
    (hs : match F.alg with
      | none => b1 = b.with (F.headBytes hd ++ F.int bs.length ++ bs)
      | some a => b1.data.length + 4 ≤ b1.maxCap ∧
        match w.svc a with
        | none => b1 = b.with (F.headBytes hd ++ F.int bs.length ++ bs) ∧ ck' = ck
        | some s => ∃ v, s (b.with (F.headBytes hd ++ F.int bs.length ++ bs)) = (b1, .ok (some v)) ∧ ck' = .int v) :
    oencode w n F.cls ⟨F.fields hd len ck, part⟩ b =
      (⟨F.fields hd (.int (BitVec.ofNat 32 bs.length)) ck', part'⟩, b1.with (F.ckBytes ck'), none) := by
  obtain ⟨loc, h⟩ := frame_upto F w n b hd len ck part part' bs hh hr hp
  simp only [oencode, F.enc_eq hF, h]
  cases ha : F.alg with
  | none =>
    rw [ha] at hs
    obtain rfl : b1 = _ := hs
    have hnone : F.hasCk = false := by cases F <;> first | rfl | exact absurd rfl hF | cases ha
    simp [Frame.encCk, ha, oencStmts, Frame.ckBytes, Frame.fields, WBuf.with, hnone]
  | some a =>
    rw [ha] at hs
    obtain ⟨hroom, hs⟩ := hs
    have hsome : F.hasCk = true := by cases F <;> first | rfl | cases ha
    have hty : ck'.ty = .i32 := by
      cases hw : w.svc a with
      | none => rw [hw] at hs; rw [hs.2]; exact hck
      | some s => rw [hw] at hs; obtain ⟨v, _, h2⟩ := hs; rw [h2]
    have h1 : oencStmt w n (.checksum (F.head.length + 2) a)
        ⟨F.fields hd (.int (BitVec.ofNat 32 bs.length)) ck, part', b.with (F.headBytes hd ++ F.int bs.length ++ bs), loc⟩ =
        (⟨F.fields hd (.int (BitVec.ofNat 32 bs.length)) ck', part', b1, loc⟩, none) := by
      cases hw : w.svc a with
      | none =>
        rw [hw] at hs
        obtain ⟨rfl, rfl⟩ := hs
        simp only [oencStmt, hw]
      | some s =>
        rw [hw] at hs
        obtain ⟨v, h2, rfl⟩ := hs
        simp only [oencStmt, hw, h2, F.fields_setCk hd _ ck _ hh hsome]
    simp only [Frame.encCk, ha, oencStmts, h1]
    rw [oenc_ck w n (F.head.length + 2) F.order _ ck' (F.fields_ck hd _ ck' hh hsome) hty, if_pos hroom]
    simp [Frame.ckBytes, hsome]

/-- **C70 (a body that throws).** Whatever a body throws leaves `encode` unchanged, with the buffer as the body left it (the length bytes
still zero) and no field of the frame changed: a length or checksum is never stored for a body that was not written. -/
theorem C70_body_throws (F : Frame) (w : OWorld U) (n : Nat) (b b' : WBuf) (hd : List Num) (len ck : Num) (u u' : U) (t : Thrown)
    (hF : F ≠ .bjse) (hh : hd.map (·.ty) = F.head) (hr : b.data.length + (F.headBytes hd).length + 4 ≤ b.maxCap)
    (hp : w.enc u (b.with (F.headBytes hd ++ F.int 0)) = (u', b', some t)) :
    oencode w n F.cls ⟨F.fields hd len ck, some u⟩ b = (⟨F.fields hd len ck, some u'⟩, b', some t) := by
  simp only [oencode, F.enc_eq hF]
  rw [oencStmts_append, frame_pre F w n b hd len ck _ hh hr]
  simp [oencStmts, oencStmt, hp]

/-- **C70 (a checksum service that fails).** If the registered service throws, its throwable leaves `encode`; if it returns null, a
`NullPointerException` does.  The length has been stored by then, the checksum field keeps its value, and no checksum is written. -/
theorem C70_service_fails (F : Frame) (w : OWorld U) (n : Nat) (b b' : WBuf) (hd : List Num) (len ck : Num) (part part' : Option U)
    (bs : List Byte) (a : String) (s : WBuf → WBuf × Except Thrown (Option (BitVec 32)))
    (hF : F ≠ .bjse) (hh : hd.map (·.ty) = F.head) (hr : b.data.length + (F.headBytes hd).length + 4 ≤ b.maxCap)
    (hp : BodyAppends w part (b.with (F.headBytes hd ++ F.int 0)) bs part') (ha : F.alg = some a) (hs : w.svc a = some s) :
    (∀ t, s (b.with (F.headBytes hd ++ F.int bs.length ++ bs)) = (b', .error t) →
      oencode w n F.cls ⟨F.fields hd len ck, part⟩ b =
        (⟨F.fields hd (.int (BitVec.ofNat 32 bs.length)) ck, part'⟩, b', some t)) ∧
    (s (b.with (F.headBytes hd ++ F.int bs.length ++ bs)) = (b', .ok none) →
      oencode w n F.cls ⟨F.fields hd len ck, part⟩ b =
        (⟨F.fields hd (.int (BitVec.ofNat 32 bs.length)) ck, part'⟩, b', some (.java .nullPointer))) := by
  obtain ⟨loc, h⟩ := frame_upto F w n b hd len ck part part' bs hh hr hp
  simp only [oencode, F.enc_eq hF, h, Frame.encCk, ha, oencStmts, oencStmt, hs]
  exact ⟨fun t ht => by simp only [ht], fun ht => by simp only [ht]⟩

/-- **C70 (decode up to the body).** From a buffer with header `hd` and length `len` (any value: it is stored and not compared with
anything) into any old frame object: without a supplier for the message type `decode` throws `IllegalArgumentException`; if the
supplier throws, that throwable leaves `decode`; in both cases the old body and checksum stay.  If the supplier returns null, the body
field is null and `NullPointerException` is thrown.  The reader index is behind the length in all three. -/
theorem C70_no_body (F : Frame) (w : OWorld U) (n : Nat) (b : RBuf) (hd hd0 : List Num) (len len0 ck0 : Num) (part0 : Option U)
    (rest : List Byte) (hh : hd.map (·.ty) = F.head) (hl : hd0.length = hd.length) (hlen : len.ty = .i32)
    (h : b.data.drop b.rd = F.headBytes hd ++ len.bytes F.order ++ rest) :
    (w.sup F.fac (Frame.key hd) = none →
      odecode w n F.cls ⟨F.fields hd0 len0 ck0, part0⟩ b =
        (⟨F.fields hd len ck0, part0⟩, F.behindLength hd b, some (.java .illegalArgument))) ∧
    (∀ t, w.sup F.fac (Frame.key hd) = some (.error t) →
      odecode w n F.cls ⟨F.fields hd0 len0 ck0, part0⟩ b = (⟨F.fields hd len ck0, part0⟩, F.behindLength hd b, some t)) ∧
    (w.sup F.fac (Frame.key hd) = some (.ok none) →
      odecode w n F.cls ⟨F.fields hd0 len0 ck0, part0⟩ b =
        (⟨F.fields hd len ck0, none⟩, F.behindLength hd b, some (.java .nullPointer))) := by
  have hk : ∃ v, (F.fields hd len ck0)[0]? = some v ∧ keyOf v = Frame.key hd := by
    cases hd with
    | nil => cases F <;> cases hh
    | cons m hd => exact ⟨.num m, by simp [Frame.fields], rfl⟩
  obtain ⟨v, hv, hkv⟩ := hk
  simp only [odecode, F.dec_eq]
  rw [odecStmts_append, frame_decPre F w n b hd hd0 len len0 ck0 part0 rest hh hl hlen h]
  simp only [odecStmts, odecStmt, hv, hkv]
  exact ⟨fun hs => by simp only [hs]; rfl, fun t hs => by simp only [hs]; rfl, fun hs => by simp only [hs]; rfl⟩

/-- **C70 (decode of the body and the checksum).** If the supplier returns `u`, `u.decode` is called with the buffer behind the length.
What it throws leaves `decode`, and the new body is in the frame as it left it.  If it returns, having consumed however much it likes,
the checksum is read from where it stopped: from the next four bytes if there are that many (it is stored and not compared with
anything), otherwise `IndexOutOfBoundsException` is thrown and the old checksum stays. -/
theorem C70_body (F : Frame) (w : OWorld U) (n : Nat) (b b' : RBuf) (hd hd0 : List Num) (len len0 ck0 : Num) (part0 : Option U)
    (rest : List Byte) (u u' : U) (hh : hd.map (·.ty) = F.head) (hl : hd0.length = hd.length) (hlen : len.ty = .i32)
    (h : b.data.drop b.rd = F.headBytes hd ++ len.bytes F.order ++ rest) (hs : w.sup F.fac (Frame.key hd) = some (.ok (some u))) :
    (∀ t, w.dec u (F.behindLength hd b) = (u', b', some t) →
      odecode w n F.cls ⟨F.fields hd0 len0 ck0, part0⟩ b = (⟨F.fields hd len ck0, some u'⟩, b', some t)) ∧
    (∀ ck tl, w.dec u (F.behindLength hd b) = (u', b', none) → ck.ty = .i32 → b'.data.drop b'.rd = F.ckBytes ck ++ tl →
      odecode w n F.cls ⟨F.fields hd0 len0 ck0, part0⟩ b =
        (⟨F.fields hd len ck, some u'⟩, { b' with rd := b'.rd + (F.ckBytes ck).length }, none)) ∧
    (w.dec u (F.behindLength hd b) = (u', b', none) → F.hasCk = true → b'.data.length < b'.rd + 4 →
      odecode w n F.cls ⟨F.fields hd0 len0 ck0, part0⟩ b = (⟨F.fields hd len ck0, some u'⟩, b', some (.java .indexOutOfBounds))) := by
  have hk : ∃ v, (F.fields hd len ck0)[0]? = some v ∧ keyOf v = Frame.key hd := by
    cases hd with
    | nil => cases F <;> cases hh
    | cons m hd => exact ⟨.num m, by simp [Frame.fields], rfl⟩
  obtain ⟨v, hv, hkv⟩ := hk
  unfold Frame.behindLength
  simp only [odecode, F.dec_eq]
  rw [odecStmts_append, frame_decPre F w n b hd hd0 len len0 ck0 part0 rest hh hl hlen h]
  have hc : ∀ st : ODecSt U, st.fs = F.fields hd len ck0 → odecStmt w n ((decl F.cls).fields.map (·.2)) (.create (F.head.length + 1) F.fac 0) st =
      ({ st with part := some u }, none) := by
    intro st hst
    simp only [odecStmt, hst, hv, hkv, hs]
  simp only [odecStmts, hc]
  refine ⟨fun t ht => by simp only [odecStmt, ht], fun ck tl ht hck htl => ?_, fun ht ha hshort => ?_⟩
  · simp only [odecStmt, ht]
    cases hsome : F.hasCk with
    | false => simp [Frame.decCk, hsome, odecStmts, Frame.ckBytes, Frame.fields]
    | true =>
      have h2 := odec_num w n (F.head.length + 2) F.order ((decl F.cls).fields.map (·.2)) ⟨F.fields hd len ck0, some u', b'⟩ ck tl
        (by rw [F.tys_eq, hck, hsome]; simp) (by rw [htl]; simp [Frame.ckBytes, hsome])
      rw [hck] at h2
      simp only [Frame.decCk, hsome, if_true, odecStmts, h2, F.fields_setCk hd len ck0 ck hh hsome]
      simp [Frame.ckBytes, hsome, hck]
  · simp only [odecStmt, ht]
    simp only [Frame.decCk, ha, if_true, odecStmts]
    rw [odec_num_short _ _ _ _ _ _ _ (by exact hshort)]

/-- **C70 (Beijing frame).** `encode` writes the header, the length and checksum the caller has set, and between them whatever the body
appends: nothing is computed.  What the body throws leaves `encode`. -/
theorem C70_bjse (w : OWorld U) (n : Nat) (b : WBuf) (ty len ck : Num) (part : Option U)
    (h1 : ty.ty = .i32) (h2 : len.ty = .i32) (h3 : ck.ty = .i32) (hr : b.data.length + 8 ≤ b.maxCap) :
    (∀ bs part', BodyAppends w part (b.with (ty.bytes .le ++ len.bytes .le)) bs part' → b.data.length + 8 + bs.length + 4 ≤ b.maxCap →
      oencode w n .bjse_BjseBinary ⟨[.num ty, .num len, .null, .num ck], part⟩ b =
        (⟨[.num ty, .num len, .null, .num ck], part'⟩, b.with (ty.bytes .le ++ len.bytes .le ++ bs ++ ck.bytes .le), none)) ∧
    (∀ u u' b' t, part = some u → w.enc u (b.with (ty.bytes .le ++ len.bytes .le)) = (u', b', some t) →
      oencode w n .bjse_BjseBinary ⟨[.num ty, .num len, .null, .num ck], part⟩ b =
        (⟨[.num ty, .num len, .null, .num ck], some u'⟩, b', some t)) := by
  have e : (decl .bjse_BjseBinary).enc = [.num 0 .i32 .le, .num 1 .i32 .le, .objOpt 2, .num 3 .i32 .le] := rfl
  have s1 := oenc_num w n 0 .le ⟨[.num ty, .num len, .null, .num ck], part, b, fun _ => none⟩ ty .i32 rfl h1
    (by rw [h1]; show b.data.length + 4 ≤ b.maxCap; omega)
  have s2 := oenc_num w n 1 .le ⟨[.num ty, .num len, .null, .num ck], part, b.with (ty.bytes .le), fun _ => none⟩ len .i32 rfl h2
    (by simp only [h2, WBuf.with, List.length_append, Num.bytes_length, h1, PTy.size]; omega)
  simp only [oencode, e, oencStmts, s1, s2, WBuf.with_with]
  constructor
  · intro bs part' hp hroom
    have s3 : oencStmt w n (.objOpt 2) ⟨[.num ty, .num len, .null, .num ck], part, b.with (ty.bytes .le ++ len.bytes .le), fun _ => none⟩ =
        (⟨[.num ty, .num len, .null, .num ck], part', b.with (ty.bytes .le ++ len.bytes .le ++ bs), fun _ => none⟩, none) := by
      cases part with
      | none => obtain ⟨rfl, rfl⟩ := hp; simp [oencStmt]
      | some u =>
        obtain ⟨u', rfl, h⟩ := hp
        simp only [oencStmt, h, WBuf.with_with]
    have s4 := oenc_num w n 3 .le ⟨[.num ty, .num len, .null, .num ck], part', b.with (ty.bytes .le ++ len.bytes .le ++ bs), fun _ => none⟩
      ck .i32 rfl h3 (by simp only [h2, h3, WBuf.with, List.length_append, Num.bytes_length, h1, PTy.size]; omega)
    simp only [s3, s4, WBuf.with_with]
  · rintro u u' b' t rfl hu
    simp only [oencStmt, hu]

/-- **C70 (round trip).** A frame encoded successfully around any body that appends `bs`, then decoded (into any frame object, from a buffer
in which the frame is followed by anything): if the supplier's object `u0` reads `bs` to `u1`, consuming just `bs`, then `decode` succeeds,
all frame fields are those of the encoded object, the body is `u1`, and just the frame has been consumed. -/
theorem C70_round_trip (F : Frame) (w : OWorld U) (n : Nat) (b : WBuf) (hd hd0 : List Num) (len len0 ck ck0 ck' : Num)
    (part part' part0 : Option U) (bs tl : List Byte) (r : RBuf) (u0 u1 : U) (hF : F ≠ .bjse) (hh : hd.map (·.ty) = F.head) (hck : ck.ty = .i32)
    (hl : hd0.length = hd.length) (hr : b.data.length + (F.headBytes hd).length + 4 + bs.length + 4 ≤ b.maxCap)
    (hp : BodyAppends w part (b.with (F.headBytes hd ++ F.int 0)) bs part')
    (hs : ∀ a, F.alg = some a →
      match w.svc a with
      | none => ck' = ck
      | some s => ∃ v, s (b.with (F.headBytes hd ++ F.int bs.length ++ bs)) = (b.with (F.headBytes hd ++ F.int bs.length ++ bs), .ok (some v))
          ∧ ck' = .int v)
    (hread : r.data.drop r.rd = ((oencode w n F.cls ⟨F.fields hd len ck, part⟩ b).2.1.data.drop b.data.length) ++ tl)
    (hsup : w.sup F.fac (Frame.key hd) = some (.ok (some u0)))
    (hdec : w.dec u0 (F.behindLength hd r) = (u1, { F.behindLength hd r with rd := (F.behindLength hd r).rd + bs.length }, none)) :
    (oencode w n F.cls ⟨F.fields hd len ck, part⟩ b).2.2 = none ∧
    odecode w n F.cls ⟨F.fields hd0 len0 ck0, part0⟩ r =
      (⟨(oencode w n F.cls ⟨F.fields hd len ck, part⟩ b).1.fs, some u1⟩,
        { r with rd := r.rd + ((oencode w n F.cls ⟨F.fields hd len ck, part⟩ b).2.1.data.length - b.data.length) }, none) := by
  have hlen4 : (F.int bs.length).length = 4 := by simp [Frame.int]
  have hck' : F.hasCk = true → ck'.ty = .i32 := by
    intro hk
    cases ha : F.alg with
    | none => cases F <;> first | exact absurd rfl hF | (simp [Frame.hasCk] at hk; done) | (simp [Frame.alg] at ha; done)
    | some a =>
      have := hs a ha
      revert this
      cases w.svc a with
      | none => rintro rfl; exact hck
      | some s => rintro ⟨v, _, rfl⟩; rfl
  obtain ⟨k, hkty, hkb, hkf⟩ : ∃ k : Num, k.ty = .i32 ∧ F.ckBytes k = F.ckBytes ck' ∧ ∀ l, F.fields hd l k = F.fields hd l ck' := by
    cases hk : F.hasCk with
    | false => exact ⟨ck, hck, by simp [Frame.ckBytes, hk], fun l => by simp [Frame.fields, hk]⟩
    | true => exact ⟨ck', hck' hk, rfl, fun _ => rfl⟩
  have hE := C70_encode F w n b (b.with (F.headBytes hd ++ F.int bs.length ++ bs)) hd len ck ck' part part' bs hF hh hck (by omega) hp
    (by
      cases ha : F.alg with
      | none => rfl
      | some a =>
        refine ⟨by simp only [WBuf.with, List.length_append, hlen4]; omega, ?_⟩
        have := hs a ha
        revert this
        cases w.svc a with
        | none => exact fun h => ⟨rfl, h⟩
        | some s => exact fun h => h)
  rw [hE] at hread ⊢
  refine ⟨rfl, ?_⟩
  simp only [WBuf.with, List.append_assoc, List.drop_left] at hread
  have hB := (C70_body F w n r _ hd hd0 (.int (BitVec.ofNat 32 bs.length)) len0 ck0 part0 (bs ++ (F.ckBytes ck' ++ tl)) u0 u1 hh hl rfl
    (by rw [hread, bytes_int]; simp [Frame.int]) hsup).2.1 k tl hdec hkty
    (by
      show r.data.drop (r.rd + (F.headBytes hd).length + 4 + bs.length) = _
      rw [show r.rd + (F.headBytes hd).length + 4 + bs.length = r.rd + (F.headBytes hd ++ (F.int bs.length ++ bs)).length by
        simp only [List.length_append, hlen4]; omega]
      rw [← List.drop_drop, hread, hkb]
      rw [show F.headBytes hd ++ (F.int bs.length ++ (bs ++ (F.ckBytes ck' ++ tl))) =
        (F.headBytes hd ++ (F.int bs.length ++ bs)) ++ (F.ckBytes ck' ++ tl) by simp only [List.append_assoc]]
      rw [List.drop_left])
  rw [hB, hkf, hkb]
  simp only [WBuf.with, Frame.behindLength, List.length_append, hlen4]
  congr 3
  omega

/-- **C70 (messages with an extension, encode).** For each of the messages with an `applExtend` field and any extension object `u`: the
message's own fields are written first, exactly as with a null extension; if that fails, the extension is not touched; otherwise
`u.encode` runs on the buffer and decides the outcome.  With a null extension, `encode` is that of `Interp.lean`. -/
theorem C70_extension_encode (c : Cls) (hc : c ∈ extensible) (w : OWorld U) (n : Nat) (fs : List Val) (b : WBuf) :
    (∀ u, oencode w n c ⟨fs, some u⟩ b =
      match oencode w n c ⟨fs, none⟩ b with
      | (m, b', some t) => (⟨m.fs, some u⟩, b', some t)
      | (m, b', none) => (⟨m.fs, some (w.enc u b').1⟩, (w.enc u b').2.1, (w.enc u b').2.2)) ∧
    (∀ p, partField c = some p → fs[p]? = some .null →
      encode w.base (n + 1) (.obj c fs) b =
        (.obj c (oencode w n c ⟨fs, none⟩ b).1.fs, (oencode w n c ⟨fs, none⟩ b).2.1, (encode w.base (n + 1) (.obj c fs) b).2.2) ∧
      (oencode w n c ⟨fs, none⟩ b).2.2 = (encode w.base (n + 1) (.obj c fs) b).2.2.map .java) := by
  obtain ⟨p, fac, key, hp, hx, he, hpl, -⟩ := ext_facts c hc
  have hrun : ∀ part : Option U, oencStmts w n (extPre c) ⟨fs, part, b, fun _ => none⟩ = _ := fun part =>
    oencStmts_plain w n part (extPre c) hpl fs b (fun _ => none)
  refine ⟨fun u => ?_, fun p' hp' hnull => ?_⟩
  · simp only [oencode, he, oencStmts_append, hrun]
    rcases encStmts w.base (encode w.base n) (extPre c) ⟨fs, b, fun _ => none⟩ with ⟨⟨fs1, b1, loc1⟩, _ | e⟩
    · simp only [Option.map_none, oencStmts, oencStmt]
      rcases w.enc u b1 with ⟨u', b2, _ | t⟩ <;> rfl
    · rfl
  · obtain rfl : p = p' := by rw [hp] at hp'; exact Option.some.inj hp'
    have hk := encStmts_keep w.base (encode w.base n) p (extPre c) (ext_avoids c hc p hp) ⟨fs, b, fun _ => none⟩
    simp only [oencode, encode, he, oencStmts_append, encStmts_append, hrun]
    revert hk
    rcases encStmts w.base (encode w.base n) (extPre c) ⟨fs, b, fun _ => none⟩ with ⟨⟨fs1, b1, loc1⟩, _ | e⟩
    · intro hk
      have hk' : fs1[p]? = some .null := hk.trans hnull
      simp [oencStmts, oencStmt, encStmts, encStmt, hk']
    · exact fun _ => ⟨rfl, rfl⟩

/-- **C70 (messages with an extension, decode).** Compare with decoding the same bytes when every supplier returns an extension object that
reads nothing (`ConfirmExtend041`, a message without fields).  If that fails, `decode` fails in the same way and the supplier is not asked.
Otherwise all fields in front of the extension are as there, and the supplier for the message's key decides: none —
`IllegalArgumentException`, throws — that throwable (the old extension stays in both cases), null — null is stored and
`NullPointerException` thrown, an object — it is stored and its `decode` runs behind the fields and decides the outcome. -/
theorem C70_extension_decode (c : Cls) (hc : c ∈ extensible) (p : Nat) (fac : Fac) (key : Nat) (hp : partField c = some p)
    (hx : extensionOf c = some (fac, key)) (w : OWorld U) (n : Nat) (svc : Registry) (fs : List Val) (part : Option U) (b : RBuf)
    (hnull : fs[p]? = some .null) :
    let r := decode ⟨svc, fun _ _ => some (fresh .bjse_ConfirmExtend041)⟩ (n + 2) c fs b;
    (∀ e, r.2.2 = some e → odecode w (n + 1) c ⟨fs, part⟩ b = (⟨r.1, part⟩, r.2.1, some (.java e))) ∧
    (r.2.2 = none → odecode w (n + 1) c ⟨fs, part⟩ b =
      match w.sup fac (keyAt r.1 key) with
      | none => (⟨r.1.set p .null, part⟩, r.2.1, some (.java .illegalArgument))
      | some (.error t) => (⟨r.1.set p .null, part⟩, r.2.1, some t)
      | some (.ok none) => (⟨r.1.set p .null, none⟩, r.2.1, some (.java .nullPointer))
      | some (.ok (some u)) => (⟨r.1.set p .null, some (w.dec u r.2.1).1⟩, (w.dec u r.2.1).2.1, (w.dec u r.2.1).2.2)) := by
  obtain ⟨p', fac', key', hp', hx', -, -, hd, hpl, hloc, hav, hkp⟩ := ext_facts c hc
  obtain rfl : p = p' := by rw [hp] at hp'; exact Option.some.inj hp'
  obtain ⟨rfl, rfl⟩ : fac = fac' ∧ key = key' := by rw [hx] at hx'; exact Prod.mk.inj (Option.some.inj hx')
  have hrun := odecStmts_plain w (n + 1) ((decl c).fields.map (·.2)) part (extDecPre c) hpl fs b
  rw [decStmts_local w.base ⟨svc, fun _ _ => some (fresh .bjse_ConfirmExtend041)⟩ (decode w.base (n + 1))
    (decode ⟨svc, fun _ _ => some (fresh .bjse_ConfirmExtend041)⟩ (n + 1)) leaf (fun c h => decode_leaf _ _ _ c h) _ _ hloc] at hrun
  have hk := decStmts_keep ⟨svc, fun _ _ => some (fresh .bjse_ConfirmExtend041)⟩
    (decode ⟨svc, fun _ _ => some (fresh .bjse_ConfirmExtend041)⟩ (n + 1)) ((decl c).fields.map (·.2)) p (extDecPre c) hav hpl ⟨fs, b⟩
  have hdc : decode ⟨svc, fun _ _ => some (fresh .bjse_ConfirmExtend041)⟩ (n + 2) c fs b =
    (let r := decStmts ⟨svc, fun _ _ => some (fresh .bjse_ConfirmExtend041)⟩
      (decode ⟨svc, fun _ _ => some (fresh .bjse_ConfirmExtend041)⟩ (n + 1)) ((decl c).fields.map (·.2)) (decl c).dec ⟨fs, b⟩
     (r.1.fs, r.1.buf, r.2)) := rfl
  simp only [hdc, odecode, hd, odecStmts_append, decStmts_append, hrun]
  revert hk
  rcases decStmts _ _ _ (extDecPre c) ⟨fs, b⟩ with ⟨⟨fs1, b1⟩, _ | e⟩
  · intro hk
    have hk' : fs1[p]? = some .null := hk.trans hnull
    have hlt : p < fs1.length := (List.getElem?_eq_some_iff.mp hk').1
    simp only [Option.map_none, odecStmts, decStmts, odecStmt, decStmt]
    cases hv : fs1[key]? with
    | none => exact ⟨by rintro e h; cases h; rfl, by intro h; cases h⟩
    | some v =>
      have hcall : ∀ (W : World) gs b, decode W (n + 1) .bjse_ConfirmExtend041 gs b = (gs, b, none) := fun _ _ _ => rfl
      have hset : fs1.set p .null = fs1 := set_same _ _ _ hk'
      simp only [fresh, List.getElem?_set_self hlt, hcall, List.set_set]
      refine ⟨(fun e h => by cases h), fun _ => ?_⟩
      simp only [keyAt, List.getElem?_set_ne (Ne.symm hkp), hv, hset]
      rcases w.sup fac (keyOf v) with _ | t | _ | u
      · rfl
      · rfl
      · rfl
      · simp only
        rcases w.dec u b1 with ⟨u', b2, _ | t⟩ <;> rfl
  · intro _
    exact ⟨by rintro e' h; cases h; rfl, by intro h; cases h⟩

/-- **C70 (conservative).** When the application supplies only messages of the repository, suppliers that return them and pure checksum
functions, this is the model of `Interp.lean`: for every class with a field of interface type, `encode` and `decode` agree in all fields,
the part, the buffer and the exception. -/
theorem C70_closed (c : Cls) (p : Nat) (hp : partField c = some p) (w : World) (n : Nat) (fs : List Val) (part : Option Val)
    (hl : fs.length = (decl c).fields.length) (hn : ∀ v, part = some v → ∃ d gs, v = .obj d gs)
    (hw : ∀ f k v, w.fac f k = some v → v = .null ∨ ∃ d gs, v = .obj d gs) :
    (∀ b, encode w (n + 1) (.obj c (OMsg.toFields ⟨fs, part⟩ p)) b =
        (.obj c ((oencode (closedApp w n) n c ⟨fs, part⟩ b).1.toFields p), (oencode (closedApp w n) n c ⟨fs, part⟩ b).2.1,
          (encode w (n + 1) (.obj c (OMsg.toFields ⟨fs, part⟩ p)) b).2.2) ∧
      (oencode (closedApp w n) n c ⟨fs, part⟩ b).2.2 = (encode w (n + 1) (.obj c (OMsg.toFields ⟨fs, part⟩ p)) b).2.2.map .java) ∧
    (∀ b, decode w (n + 1) c (OMsg.toFields ⟨fs, part⟩ p) b =
        ((odecode (closedApp w n) n c ⟨fs, part⟩ b).1.toFields p, (odecode (closedApp w n) n c ⟨fs, part⟩ b).2.1,
          (decode w (n + 1) c (OMsg.toFields ⟨fs, part⟩ p) b).2.2) ∧
      (odecode (closedApp w n) n c ⟨fs, part⟩ b).2.2 = (decode w (n + 1) c (OMsg.toFields ⟨fs, part⟩ p) b).2.2.map .java) := by
  have ht := List.all_eq_true.mp encParts_table c (mem_allCls c)
  have hdt := List.all_eq_true.mp decParts_table c (mem_allCls c)
  simp only [hp, Bool.and_eq_true, decide_eq_true_eq] at ht hdt
  have hlt : p < fs.length := by rw [hl]; exact ht.2
  have hcv : codecVal part := by
    cases part with
    | none => trivial
    | some v => obtain ⟨d, gs, rfl⟩ := hn v rfl; trivial
  refine ⟨fun b => ?_, fun b => ?_⟩
  · obtain ⟨h1, h2, h3⟩ := oencStmts_closed w n p _ ht.1 fs part b (fun _ => none) hlt
      (fun h => by obtain ⟨d, gs, h'⟩ := hn _ h; cases h')
    simp only [encode, oencode, OMsg.toFields] at h1 h2 h3 ⊢
    exact ⟨by rw [h1, h2], h3⟩
  · obtain ⟨h1, h2, h3⟩ := odecStmts_closed w n p _ hw _ hdt fs part b hlt hcv
    simp only [decode, odecode, OMsg.toFields] at h1 h2 h3 ⊢
    exact ⟨by rw [h1, h2], h3⟩

/-! ### An application that meets the hypotheses

Bodies are raw byte strings: `encode` appends them (an empty one throws), `decode` replaces them by the next three bytes.  Message type 7
has a supplier, type 8 a supplier that throws, type 9 one that returns null.  The service "SSE_BIN" counts the readable bytes,
"SZSE_BIN" throws, "CRC32" returns null. -/

/-- The application of the examples. -/
def rawApp : OWorld (List Byte) where
  base := ⟨fun _ => none, fun _ _ => none⟩
  svc a := if a = "SSE_BIN" then some fun b => (b, .ok (some (BitVec.ofNat 32 b.readable.length)))
    else if a = "SZSE_BIN" then some fun b => (b, .error (.app 1))
    else if a = "CRC32" then some fun b => (b, .ok none)
    else none
  sup _ k := if k = .int 7 then some (.ok (some [])) else if k = .int 8 then some (.error (.app 2)) else if k = .int 9 then some (.ok none)
    else none
  enc u b := if u = [] then (u, b, some (.app 3)) else (u, b.with u, none)
  dec _ b := if b.rd + 3 ≤ b.data.length then ((b.data.drop b.rd).take 3, { b with rd := b.rd + 3 }, none) else ([], b, some (.app 4))

/-- A buffer with two bytes in it already. -/
def exBuf : WBuf := ⟨[0xAA, 0xBB], 2, 4096⟩

/-- C70_encode: the Shanghai frame around the raw body 01 02 03. -/
example : oencode rawApp 0 .sse_SseBinary ⟨Frame.sse.fields [.int 7, ⟨.i64, 5⟩] (.int 0) (.int 0), some [1, 2, 3]⟩ exBuf =
    (⟨Frame.sse.fields [.int 7, ⟨.i64, 5⟩] (.int 3) (.int 19), some [1, 2, 3]⟩,
      exBuf.with ([0, 0, 0, 7, 0, 0, 0, 0, 0, 0, 0, 5, 0, 0, 0, 3, 1, 2, 3] ++ [0, 0, 0, 19]), none) :=
  C70_encode .sse rawApp 0 exBuf (exBuf.with [0, 0, 0, 7, 0, 0, 0, 0, 0, 0, 0, 5, 0, 0, 0, 3, 1, 2, 3]) [.int 7, ⟨.i64, 5⟩] (.int 0) (.int 0)
    (.int 19) (some [1, 2, 3]) (some [1, 2, 3]) [1, 2, 3] (by decide) rfl rfl (by decide) ⟨_, rfl, rfl⟩ ⟨by decide, 19, rfl, rfl⟩

/-- C70_body_throws. -/
example : (oencode rawApp 0 .risk_RcBinary ⟨Frame.rc.fields [.int 7, .int 1] (.int 99) (.int 0), some []⟩ exBuf).2.2 = some (.app 3) := by
  rw [show Cls.risk_RcBinary = Frame.rc.cls from rfl,
    C70_body_throws .rc rawApp 0 exBuf _ [.int 7, .int 1] (.int 99) (.int 0) [] [] (.app 3) (by decide) rfl (by decide) rfl]

/-- C70_service_fails: Shenzhen (throws) and the sample frame (null). -/
example : (oencode rawApp 0 .szse_SzseBinary ⟨Frame.szse.fields [.int 7] (.int 0) (.int 4), some [1, 2]⟩ exBuf).2.2 = some (.app 1) := by
  rw [show Cls.szse_SzseBinary = Frame.szse.cls from rfl,
    (C70_service_fails .szse rawApp 0 exBuf _ [.int 7] (.int 0) (.int 4) (some [1, 2]) (some [1, 2]) [1, 2] "SZSE_BIN" _ (by decide) rfl
      (by decide) ⟨_, rfl, rfl⟩ rfl rfl).1 (.app 1) rfl]
example : (oencode rawApp 0 .sample_RootPacket ⟨Frame.root.fields [⟨.i16, 7⟩] (.int 0) (.int 4), none⟩ exBuf).2.2 =
    some (.java .nullPointer) := by
  rw [show Cls.sample_RootPacket = Frame.root.cls from rfl,
    (C70_service_fails .root rawApp 0 exBuf _ [⟨.i16, 7⟩] (.int 0) (.int 4) none none [] "CRC32" _ (by decide) rfl
      (by decide) ⟨rfl, rfl⟩ rfl rfl).2 rfl]

/-- C70_no_body: message types 8, 9 and 10. -/
example : (odecode rawApp 0 Frame.szse.cls ⟨Frame.szse.fields [.int 0] (.int 0) (.int 4), some [9]⟩ ⟨[0, 0, 0, 8, 0, 0, 0, 0], [], 0⟩) =
    (⟨Frame.szse.fields [.int 8] (.int 0) (.int 4), some [9]⟩, ⟨[0, 0, 0, 8, 0, 0, 0, 0], [], 8⟩, some (.app 2)) :=
  (C70_no_body .szse rawApp 0 ⟨[0, 0, 0, 8, 0, 0, 0, 0], [], 0⟩ [.int 8] [.int 0] (.int 0) (.int 0) (.int 4) (some [9]) [] rfl rfl rfl rfl).2.1
    (.app 2) rfl
example : (odecode rawApp 0 Frame.szse.cls ⟨Frame.szse.fields [.int 0] (.int 0) (.int 4), some [9]⟩ ⟨[0, 0, 0, 9, 0, 0, 0, 0], [], 0⟩) =
    (⟨Frame.szse.fields [.int 9] (.int 0) (.int 4), none⟩, ⟨[0, 0, 0, 9, 0, 0, 0, 0], [], 8⟩, some (.java .nullPointer)) :=
  (C70_no_body .szse rawApp 0 ⟨[0, 0, 0, 9, 0, 0, 0, 0], [], 0⟩ [.int 9] [.int 0] (.int 0) (.int 0) (.int 4) (some [9]) [] rfl rfl rfl rfl).2.2
    rfl
example : (odecode rawApp 0 Frame.szse.cls ⟨Frame.szse.fields [.int 0] (.int 0) (.int 4), some [9]⟩ ⟨[0, 0, 0, 10, 0, 0, 0, 0], [], 0⟩) =
    (⟨Frame.szse.fields [.int 10] (.int 0) (.int 4), some [9]⟩, ⟨[0, 0, 0, 10, 0, 0, 0, 0], [], 8⟩, some (.java .illegalArgument)) :=
  (C70_no_body .szse rawApp 0 ⟨[0, 0, 0, 10, 0, 0, 0, 0], [], 0⟩ [.int 10] [.int 0] (.int 0) (.int 0) (.int 4) (some [9]) [] rfl rfl rfl rfl).1
    rfl

/-- C70_body: the length on the wire (2) is not what the body consumes (3); the checksum is read behind the body. -/
example : (odecode rawApp 0 Frame.bjse.cls ⟨Frame.bjse.fields [.int 0] (.int 0) (.int 4), none⟩
      ⟨[7, 0, 0, 0, 2, 0, 0, 0, 1, 2, 3, 5, 0, 0, 0], [], 0⟩) =
    (⟨Frame.bjse.fields [.int 7] (.int 2) (.int 5), some [1, 2, 3]⟩, ⟨[7, 0, 0, 0, 2, 0, 0, 0, 1, 2, 3, 5, 0, 0, 0], [], 15⟩, none) :=
  (C70_body .bjse rawApp 0 ⟨[7, 0, 0, 0, 2, 0, 0, 0, 1, 2, 3, 5, 0, 0, 0], [], 0⟩
    ⟨[7, 0, 0, 0, 2, 0, 0, 0, 1, 2, 3, 5, 0, 0, 0], [], 11⟩ [.int 7] [.int 0] (.int 2) (.int 0) (.int 4) none _ [] [1, 2, 3] rfl rfl rfl rfl rfl).2.1
    (.int 5) [] rfl rfl rfl
example : (odecode rawApp 0 Frame.bjse.cls ⟨Frame.bjse.fields [.int 0] (.int 0) (.int 4), none⟩
      ⟨[7, 0, 0, 0, 2, 0, 0, 0, 1, 2, 3, 5, 0, 0], [], 0⟩) =
    (⟨Frame.bjse.fields [.int 7] (.int 2) (.int 4), some [1, 2, 3]⟩, ⟨[7, 0, 0, 0, 2, 0, 0, 0, 1, 2, 3, 5, 0, 0], [], 11⟩,
      some (.java .indexOutOfBounds)) :=
  (C70_body .bjse rawApp 0 ⟨[7, 0, 0, 0, 2, 0, 0, 0, 1, 2, 3, 5, 0, 0], [], 0⟩
    ⟨[7, 0, 0, 0, 2, 0, 0, 0, 1, 2, 3, 5, 0, 0], [], 11⟩ [.int 7] [.int 0] (.int 2) (.int 0) (.int 4) none _ [] [1, 2, 3] rfl rfl rfl rfl rfl).2.2
    rfl rfl (by decide)

/-- C70_bjse. -/
example : (oencode rawApp 0 .bjse_BjseBinary ⟨[.num (.int 7), .num (.int 2), .null, .num (.int 5)], some [1, 2, 3]⟩ exBuf).2.1 =
    exBuf.with [7, 0, 0, 0, 2, 0, 0, 0, 1, 2, 3, 5, 0, 0, 0] := by
  rw [(C70_bjse rawApp 0 exBuf (.int 7) (.int 2) (.int 5) (some [1, 2, 3]) rfl rfl rfl (by decide)).1 [1, 2, 3] (some [1, 2, 3])
    ⟨_, rfl, rfl⟩ (by decide)]
  rfl

/-- C70_round_trip: the Shanghai frame of the first example, followed by 0xEE. -/
example : (odecode rawApp 0 Frame.sse.cls ⟨Frame.sse.fields [.int 0, ⟨.i64, 0⟩] (.int 0) (.int 0), none⟩
      ⟨[0, 0, 0, 7, 0, 0, 0, 0, 0, 0, 0, 5, 0, 0, 0, 3, 1, 2, 3, 0, 0, 0, 19, 0xEE], [], 0⟩).2.2 = none := by
  rw [(C70_round_trip .sse rawApp 0 exBuf [.int 7, ⟨.i64, 5⟩] [.int 0, ⟨.i64, 0⟩] (.int 0) (.int 0) (.int 0) (.int 0) (.int 19)
    (some [1, 2, 3]) (some [1, 2, 3]) none [1, 2, 3] [0xEE] _ [] [1, 2, 3] (by decide) rfl rfl rfl (by decide) ⟨_, rfl, rfl⟩
    (fun a h => by cases h; exact ⟨19, rfl, rfl⟩) rfl rfl rfl).2]

/-- C70_extension_encode, C70_extension_decode: a Shenzhen order with the raw extension 01 02 03; without a supplier for its application
number the decode stops behind the message's own fields. -/
example : ∃ b' : WBuf, (oencode rawApp 1 .szse_NewOrder ⟨freshFields .szse_NewOrder, none⟩ exBuf).2 = (b', none) ∧
    (oencode rawApp 1 .szse_NewOrder ⟨freshFields .szse_NewOrder, some [1, 2, 3]⟩ exBuf).2 = (b'.with [1, 2, 3], none) := by
  obtain ⟨m, b', h⟩ : ∃ m b', oencode rawApp 1 .szse_NewOrder ⟨freshFields .szse_NewOrder, none⟩ exBuf = (m, b', none) :=
    ⟨_, _, Prod.ext rfl (Prod.ext rfl (by decide +kernel))⟩
  refine ⟨b', by rw [h], ?_⟩
  rw [(C70_extension_encode .szse_NewOrder (by decide) rawApp 1 (freshFields .szse_NewOrder) exBuf).1 [1, 2, 3], h]
  rfl
example : (odecode rawApp 1 .szse_NewOrder ⟨freshFields .szse_NewOrder, none⟩ ⟨List.replicate 200 0x20, [], 0⟩).2.2 =
    some (.java .illegalArgument) := by
  have h := (C70_extension_decode .szse_NewOrder (by decide) 16 .szse_NewOrder 0 (by decide) (by decide) rawApp 0 (fun _ => none)
    (freshFields .szse_NewOrder) none ⟨List.replicate 200 0x20, [], 0⟩ rfl).2 (by decide +kernel)
  rw [h]
  have hk : ∀ s : JStr, rawApp.sup .szse_NewOrder (.str s) = none := fun s => rfl
  have : ∃ s : JStr, keyAt (decode ⟨fun _ => none, fun _ _ => some (fresh .bjse_ConfirmExtend041)⟩ 2 .szse_NewOrder (freshFields .szse_NewOrder)
      ⟨List.replicate 200 0x20, [], 0⟩).1 0 = .str s := ⟨[], by decide +kernel⟩
  obtain ⟨s, hs⟩ := this
  simp only [Nat.zero_add, hs, hk]

/-- C70_closed: the classes it speaks about. -/
example : (allCls.filter fun c => (partField c).isSome).length = 19 := by decide +kernel

end FinProto
