import Verif.Props.Encode
import Verif.Props.Checksum
import Verif.Proofs.Frames
/-
C33, C34 and the frame part of C16: the length and checksum fields of encoded frames.
`wellTyped` of a frame value says that the header values have the Java types of the fields and that the body is null or a
well-typed message.
-/
namespace FinProto

/-- **C33 (SSE).** After a successful `encode` of the frame (msgType, msgSeqNum, length, body, checksum) the buffer has grown by
the header, the length, the body and the checksum; the length bytes and the length field of the object are the number of body bytes,
whatever `len` was and whatever is in the buffer already (`b`).  If the buffer cannot grow beyond the Java limit, the length field
is that number as a Java int. -/
theorem C33_sse (w : World) (n : Nat) (b : WBuf) (ty seq len ck : Num) (body : Val)
    (hv : wellTyped (.obj .sse_SseBinary [.num ty, .num seq, .num len, body, .num ck]) = true) (hb : b.Valid)
    (hok : (encode w n (.obj .sse_SseBinary [.num ty, .num seq, .num len, body, .num ck]) b).2.2 = none) :
    ∃ (body' : Val) (bytes : List Byte) (ck' : Num),
      encode w n (.obj .sse_SseBinary [.num ty, .num seq, .num len, body, .num ck]) b =
        (.obj .sse_SseBinary [.num ty, .num seq, .num (.int (BitVec.ofNat 32 bytes.length)), body', .num ck'],
          { b with data := b.data ++ ty.bytes .be ++ seq.bytes .be ++ toBytes .be 4 bytes.length ++ bytes ++ ck'.bytes .be }, none)
      ∧ bytes = image body' ∧ blank body' = blank body
      ∧ (b.maxCap < 2 ^ 31 → (BitVec.ofNat 32 bytes.length).toInt = bytes.length) := by
  have hbody : hasType .codec body = true := by
    cases body <;> simp [wellTyped, hasType, fieldsHaveType, javaTypes, decl, Sse.SseBinary.decl, Sse.SseBinary.fields] at hv ⊢
    exact hv.2.2.2.1
  obtain ⟨body', ck', hs1, hs2, hs3, hs4⟩ := settle_sse w.svc b.readable ty seq len ck body hbody
  rcases encode_cases w n _ b hv hb.1 hb.2 with ⟨_, _, hfit, h⟩ | ⟨_, _, _, h⟩ | ⟨_, h | h⟩
  · have hl := image_settle_length w.svc b.readable _ hv
    rw [hs1] at h hl
    refine ⟨body', _, ck', ?_, rfl, hs3, fun hm => ?_⟩
    · rw [h, WBuf.app, hs2]
      simp only [List.append_assoc]
    · rw [hs2] at hl
      simp only [List.length_append] at hl
      have : (image body').length < 2 ^ 31 := by omega
      rw [BitVec.toInt_eq_toNat_of_lt (by rw [BitVec.toNat_ofNat]; omega), BitVec.toNat_ofNat, Nat.mod_eq_of_lt (by omega)]
  · rw [hok] at h; cases h
  · rw [hok] at h; cases h
  · obtain ⟨x, hx⟩ := h.isSome; rw [hok] at hx; cases hx

/-- **C34 (SSE).** After a successful `encode` the buffer ends in four checksum bytes, equal to the checksum field of the object.
If a service is registered under "SSE_BIN" their value is its result for all readable bytes in front of them (`front.drop b.rd`);
otherwise it is what the caller had set.  If there was nothing readable before the call, the readable bytes in front of the checksum
are exactly the frame's own. -/
theorem C34_sse (w : World) (n : Nat) (b : WBuf) (ty seq len ck : Num) (body : Val)
    (hv : wellTyped (.obj .sse_SseBinary [.num ty, .num seq, .num len, body, .num ck]) = true) (hb : b.Valid)
    (hok : (encode w n (.obj .sse_SseBinary [.num ty, .num seq, .num len, body, .num ck]) b).2.2 = none) :
    ∃ (front own : List Byte) (len' ck' : Num) (body' : Val),
      (encode w n (.obj .sse_SseBinary [.num ty, .num seq, .num len, body, .num ck]) b).2.1.data = front ++ ck'.bytes .be
      ∧ (encode w n (.obj .sse_SseBinary [.num ty, .num seq, .num len, body, .num ck]) b).1 = .obj .sse_SseBinary [.num ty, .num seq, .num len', body', .num ck']
      ∧ (∀ s, w.svc.getService "SSE_BIN" = some s → ck' = .int (s.calcOn (front.drop b.rd)))
      ∧ (w.svc.getService "SSE_BIN" = none → ck' = ck)
      ∧ front = b.data ++ own
      ∧ (b.rd = b.data.length → front.drop b.rd = own) := by
  have hbody : hasType .codec body = true := by
    cases body <;> simp [wellTyped, hasType, fieldsHaveType, javaTypes, decl, Sse.SseBinary.decl, Sse.SseBinary.fields] at hv ⊢
    exact hv.2.2.2.1
  obtain ⟨body', ck', hs1, hs2, hs3, hs4⟩ := settle_sse w.svc b.readable ty seq len ck body hbody
  rcases encode_cases w n _ b hv hb.1 hb.2 with ⟨_, _, _, h⟩ | ⟨_, _, _, h⟩ | ⟨_, h | h⟩
  · rw [hs1] at h
    refine ⟨b.data ++ (ty.bytes .be ++ seq.bytes .be ++ toBytes .be 4 (image body').length ++ image body'), _, _, ck', body', ?_, by rw [h],
      fun s hsv => ?_, fun hsv => ?_, rfl, fun hr => ?_⟩
    · rw [h, WBuf.app, hs2]
      simp only [List.append_assoc]
    · rw [hs4, checksumAfter, hsv, List.drop_append_of_le_length hb.1]
      rfl
    · rw [hs4, checksumAfter, hsv]
    · rw [hr, List.drop_left]
  · rw [hok] at h; cases h
  · rw [hok] at h; cases h
  · obtain ⟨x, hx⟩ := h.isSome; rw [hok] at hx; cases hx

/-- **C33 (SZSE).** After a successful `encode` of the frame (msgType, length, body, checksum) the buffer has grown by
the header, the length, the body and the checksum; the length bytes and the length field of the object are the number of body bytes,
whatever `len` was and whatever is in the buffer already (`b`).  If the buffer cannot grow beyond the Java limit, the length field
is that number as a Java int. -/
theorem C33_szse (w : World) (n : Nat) (b : WBuf) (ty len ck : Num) (body : Val)
    (hv : wellTyped (.obj .szse_SzseBinary [.num ty, .num len, body, .num ck]) = true) (hb : b.Valid)
    (hok : (encode w n (.obj .szse_SzseBinary [.num ty, .num len, body, .num ck]) b).2.2 = none) :
    ∃ (body' : Val) (bytes : List Byte) (ck' : Num),
      encode w n (.obj .szse_SzseBinary [.num ty, .num len, body, .num ck]) b =
        (.obj .szse_SzseBinary [.num ty, .num (.int (BitVec.ofNat 32 bytes.length)), body', .num ck'],
          { b with data := b.data ++ ty.bytes .be ++ toBytes .be 4 bytes.length ++ bytes ++ ck'.bytes .be }, none)
      ∧ bytes = image body' ∧ blank body' = blank body
      ∧ (b.maxCap < 2 ^ 31 → (BitVec.ofNat 32 bytes.length).toInt = bytes.length) := by
  have hbody : hasType .codec body = true := by
    cases body <;> simp [wellTyped, hasType, fieldsHaveType, javaTypes, decl, Szse.SzseBinary.decl, Szse.SzseBinary.fields] at hv ⊢
    exact hv.2.2.1
  obtain ⟨body', ck', hs1, hs2, hs3, hs4⟩ := settle_szse w.svc b.readable ty len ck body hbody
  rcases encode_cases w n _ b hv hb.1 hb.2 with ⟨_, _, hfit, h⟩ | ⟨_, _, _, h⟩ | ⟨_, h | h⟩
  · have hl := image_settle_length w.svc b.readable _ hv
    rw [hs1] at h hl
    refine ⟨body', _, ck', ?_, rfl, hs3, fun hm => ?_⟩
    · rw [h, WBuf.app, hs2]
      simp only [List.append_assoc]
    · rw [hs2] at hl
      simp only [List.length_append] at hl
      have : (image body').length < 2 ^ 31 := by omega
      rw [BitVec.toInt_eq_toNat_of_lt (by rw [BitVec.toNat_ofNat]; omega), BitVec.toNat_ofNat, Nat.mod_eq_of_lt (by omega)]
  · rw [hok] at h; cases h
  · rw [hok] at h; cases h
  · obtain ⟨x, hx⟩ := h.isSome; rw [hok] at hx; cases hx

/-- **C34 (SZSE).** After a successful `encode` the buffer ends in four checksum bytes, equal to the checksum field of the object.
If a service is registered under "SZSE_BIN" their value is its result for all readable bytes in front of them (`front.drop b.rd`);
otherwise it is what the caller had set.  If there was nothing readable before the call, the readable bytes in front of the checksum
are exactly the frame's own. -/
theorem C34_szse (w : World) (n : Nat) (b : WBuf) (ty len ck : Num) (body : Val)
    (hv : wellTyped (.obj .szse_SzseBinary [.num ty, .num len, body, .num ck]) = true) (hb : b.Valid)
    (hok : (encode w n (.obj .szse_SzseBinary [.num ty, .num len, body, .num ck]) b).2.2 = none) :
    ∃ (front own : List Byte) (len' ck' : Num) (body' : Val),
      (encode w n (.obj .szse_SzseBinary [.num ty, .num len, body, .num ck]) b).2.1.data = front ++ ck'.bytes .be
      ∧ (encode w n (.obj .szse_SzseBinary [.num ty, .num len, body, .num ck]) b).1 = .obj .szse_SzseBinary [.num ty, .num len', body', .num ck']
      ∧ (∀ s, w.svc.getService "SZSE_BIN" = some s → ck' = .int (s.calcOn (front.drop b.rd)))
      ∧ (w.svc.getService "SZSE_BIN" = none → ck' = ck)
      ∧ front = b.data ++ own
      ∧ (b.rd = b.data.length → front.drop b.rd = own) := by
  have hbody : hasType .codec body = true := by
    cases body <;> simp [wellTyped, hasType, fieldsHaveType, javaTypes, decl, Szse.SzseBinary.decl, Szse.SzseBinary.fields] at hv ⊢
    exact hv.2.2.1
  obtain ⟨body', ck', hs1, hs2, hs3, hs4⟩ := settle_szse w.svc b.readable ty len ck body hbody
  rcases encode_cases w n _ b hv hb.1 hb.2 with ⟨_, _, _, h⟩ | ⟨_, _, _, h⟩ | ⟨_, h | h⟩
  · rw [hs1] at h
    refine ⟨b.data ++ (ty.bytes .be ++ toBytes .be 4 (image body').length ++ image body'), _, _, ck', body', ?_, by rw [h],
      fun s hsv => ?_, fun hsv => ?_, rfl, fun hr => ?_⟩
    · rw [h, WBuf.app, hs2]
      simp only [List.append_assoc]
    · rw [hs4, checksumAfter, hsv, List.drop_append_of_le_length hb.1]
      rfl
    · rw [hs4, checksumAfter, hsv]
    · rw [hr, List.drop_left]
  · rw [hok] at h; cases h
  · rw [hok] at h; cases h
  · obtain ⟨x, hx⟩ := h.isSome; rw [hok] at hx; cases hx

/-- **C33 (sample RootPacket).** After a successful `encode` of the frame (msgType, length, body, checksum) the buffer has grown by
the header, the length, the body and the checksum; the length bytes and the length field of the object are the number of body bytes,
whatever `len` was and whatever is in the buffer already (`b`).  If the buffer cannot grow beyond the Java limit, the length field
is that number as a Java int. -/
theorem C33_root (w : World) (n : Nat) (b : WBuf) (ty len ck : Num) (body : Val)
    (hv : wellTyped (.obj .sample_RootPacket [.num ty, .num len, body, .num ck]) = true) (hb : b.Valid)
    (hok : (encode w n (.obj .sample_RootPacket [.num ty, .num len, body, .num ck]) b).2.2 = none) :
    ∃ (body' : Val) (bytes : List Byte) (ck' : Num),
      encode w n (.obj .sample_RootPacket [.num ty, .num len, body, .num ck]) b =
        (.obj .sample_RootPacket [.num ty, .num (.int (BitVec.ofNat 32 bytes.length)), body', .num ck'],
          { b with data := b.data ++ ty.bytes .le ++ toBytes .le 4 bytes.length ++ bytes ++ ck'.bytes .le }, none)
      ∧ bytes = image body' ∧ blank body' = blank body
      ∧ (b.maxCap < 2 ^ 31 → (BitVec.ofNat 32 bytes.length).toInt = bytes.length) := by
  have hbody : hasType .codec body = true := by
    cases body <;> simp [wellTyped, hasType, fieldsHaveType, javaTypes, decl, Sample.RootPacket.decl, Sample.RootPacket.fields] at hv ⊢
    exact hv.2.2.1
  obtain ⟨body', ck', hs1, hs2, hs3, hs4⟩ := settle_root w.svc b.readable ty len ck body hbody
  rcases encode_cases w n _ b hv hb.1 hb.2 with ⟨_, _, hfit, h⟩ | ⟨_, _, _, h⟩ | ⟨_, h | h⟩
  · have hl := image_settle_length w.svc b.readable _ hv
    rw [hs1] at h hl
    refine ⟨body', _, ck', ?_, rfl, hs3, fun hm => ?_⟩
    · rw [h, WBuf.app, hs2]
      simp only [List.append_assoc]
    · rw [hs2] at hl
      simp only [List.length_append] at hl
      have : (image body').length < 2 ^ 31 := by omega
      rw [BitVec.toInt_eq_toNat_of_lt (by rw [BitVec.toNat_ofNat]; omega), BitVec.toNat_ofNat, Nat.mod_eq_of_lt (by omega)]
  · rw [hok] at h; cases h
  · rw [hok] at h; cases h
  · obtain ⟨x, hx⟩ := h.isSome; rw [hok] at hx; cases hx

/-- **C34 (sample RootPacket).** After a successful `encode` the buffer ends in four checksum bytes, equal to the checksum field of the object.
If a service is registered under "CRC32" their value is its result for all readable bytes in front of them (`front.drop b.rd`);
otherwise it is what the caller had set.  If there was nothing readable before the call, the readable bytes in front of the checksum
are exactly the frame's own. -/
theorem C34_root (w : World) (n : Nat) (b : WBuf) (ty len ck : Num) (body : Val)
    (hv : wellTyped (.obj .sample_RootPacket [.num ty, .num len, body, .num ck]) = true) (hb : b.Valid)
    (hok : (encode w n (.obj .sample_RootPacket [.num ty, .num len, body, .num ck]) b).2.2 = none) :
    ∃ (front own : List Byte) (len' ck' : Num) (body' : Val),
      (encode w n (.obj .sample_RootPacket [.num ty, .num len, body, .num ck]) b).2.1.data = front ++ ck'.bytes .le
      ∧ (encode w n (.obj .sample_RootPacket [.num ty, .num len, body, .num ck]) b).1 = .obj .sample_RootPacket [.num ty, .num len', body', .num ck']
      ∧ (∀ s, w.svc.getService "CRC32" = some s → ck' = .int (s.calcOn (front.drop b.rd)))
      ∧ (w.svc.getService "CRC32" = none → ck' = ck)
      ∧ front = b.data ++ own
      ∧ (b.rd = b.data.length → front.drop b.rd = own) := by
  have hbody : hasType .codec body = true := by
    cases body <;> simp [wellTyped, hasType, fieldsHaveType, javaTypes, decl, Sample.RootPacket.decl, Sample.RootPacket.fields] at hv ⊢
    exact hv.2.2.1
  obtain ⟨body', ck', hs1, hs2, hs3, hs4⟩ := settle_root w.svc b.readable ty len ck body hbody
  rcases encode_cases w n _ b hv hb.1 hb.2 with ⟨_, _, _, h⟩ | ⟨_, _, _, h⟩ | ⟨_, h | h⟩
  · rw [hs1] at h
    refine ⟨b.data ++ (ty.bytes .le ++ toBytes .le 4 (image body').length ++ image body'), _, _, ck', body', ?_, by rw [h],
      fun s hsv => ?_, fun hsv => ?_, rfl, fun hr => ?_⟩
    · rw [h, WBuf.app, hs2]
      simp only [List.append_assoc]
    · rw [hs4, checksumAfter, hsv, List.drop_append_of_le_length hb.1]
      rfl
    · rw [hs4, checksumAfter, hsv]
    · rw [hr, List.drop_left]
  · rw [hok] at h; cases h
  · rw [hok] at h; cases h
  · obtain ⟨x, hx⟩ := h.isSome; rw [hok] at hx; cases hx

/-- **C33 (risk-control).** After a successful `encode` of the frame (msgType, version, length, body) the buffer has grown by
the header, the length, the body; the length bytes and the length field of the object are the number of body bytes,
whatever `len` was and whatever is in the buffer already (`b`).  If the buffer cannot grow beyond the Java limit, the length field
is that number as a Java int. -/
theorem C33_rc (w : World) (n : Nat) (b : WBuf) (ty ver len : Num) (body : Val)
    (hv : wellTyped (.obj .risk_RcBinary [.num ty, .num ver, .num len, body]) = true) (hb : b.Valid)
    (hok : (encode w n (.obj .risk_RcBinary [.num ty, .num ver, .num len, body]) b).2.2 = none) :
    ∃ (body' : Val) (bytes : List Byte),
      encode w n (.obj .risk_RcBinary [.num ty, .num ver, .num len, body]) b =
        (.obj .risk_RcBinary [.num ty, .num ver, .num (.int (BitVec.ofNat 32 bytes.length)), body'],
          { b with data := b.data ++ ty.bytes .be ++ ver.bytes .be ++ toBytes .be 4 bytes.length ++ bytes }, none)
      ∧ bytes = image body' ∧ blank body' = blank body
      ∧ (b.maxCap < 2 ^ 31 → (BitVec.ofNat 32 bytes.length).toInt = bytes.length) := by
  have hbody : hasType .codec body = true := by
    cases body <;> simp [wellTyped, hasType, fieldsHaveType, javaTypes, decl, Risk.RcBinary.decl, Risk.RcBinary.fields] at hv ⊢
    exact hv.2.2.2
  obtain ⟨body', hs1, hs2, hs3⟩ := settle_rc w.svc b.readable ty ver len body hbody
  rcases encode_cases w n _ b hv hb.1 hb.2 with ⟨_, _, hfit, h⟩ | ⟨_, _, _, h⟩ | ⟨_, h | h⟩
  · have hl := image_settle_length w.svc b.readable _ hv
    rw [hs1] at h hl
    refine ⟨body', _, ?_, rfl, hs3, fun hm => ?_⟩
    · rw [h, WBuf.app, hs2]
      simp only [List.append_assoc]
    · rw [hs2] at hl
      simp only [List.length_append] at hl
      have : (image body').length < 2 ^ 31 := by omega
      rw [BitVec.toInt_eq_toNat_of_lt (by rw [BitVec.toNat_ofNat]; omega), BitVec.toNat_ofNat, Nat.mod_eq_of_lt (by omega)]
  · rw [hok] at h; cases h
  · rw [hok] at h; cases h
  · obtain ⟨x, hx⟩ := h.isSome; rw [hok] at hx; cases hx

/-- **C16 (SSE frames).** In a process that has registered no checksum service of its own, the frame carries the caller's
checksum value unchanged, whatever the body is. -/
theorem C16_sse_frame (w : World) (hw : w.svc = Registry.initial) (n : Nat) (b : WBuf) (ty seq len ck : Num) (body : Val)
    (hv : wellTyped (.obj .sse_SseBinary [.num ty, .num seq, .num len, body, .num ck]) = true) (hb : b.Valid)
    (hok : (encode w n (.obj .sse_SseBinary [.num ty, .num seq, .num len, body, .num ck]) b).2.2 = none) :
    ∃ (front : List Byte) (len' : Num) (body' : Val),
      (encode w n (.obj .sse_SseBinary [.num ty, .num seq, .num len, body, .num ck]) b).2.1.data = front ++ ck.bytes .be
      ∧ (encode w n (.obj .sse_SseBinary [.num ty, .num seq, .num len, body, .num ck]) b).1 = .obj .sse_SseBinary [.num ty, .num seq, .num len', body', .num ck] := by
  obtain ⟨front, own, len', ck', body', h1, h2, _, h3, _⟩ := C34_sse w n b ty seq len ck body hv hb hok
  have := h3 (by rw [hw]; rfl)
  subst this
  exact ⟨front, len', body', h1, h2⟩

/-- **C16 (SZSE frames).** In a process that has registered no checksum service of its own, the frame carries the caller's
checksum value unchanged, whatever the body is. -/
theorem C16_szse_frame (w : World) (hw : w.svc = Registry.initial) (n : Nat) (b : WBuf) (ty len ck : Num) (body : Val)
    (hv : wellTyped (.obj .szse_SzseBinary [.num ty, .num len, body, .num ck]) = true) (hb : b.Valid)
    (hok : (encode w n (.obj .szse_SzseBinary [.num ty, .num len, body, .num ck]) b).2.2 = none) :
    ∃ (front : List Byte) (len' : Num) (body' : Val),
      (encode w n (.obj .szse_SzseBinary [.num ty, .num len, body, .num ck]) b).2.1.data = front ++ ck.bytes .be
      ∧ (encode w n (.obj .szse_SzseBinary [.num ty, .num len, body, .num ck]) b).1 = .obj .szse_SzseBinary [.num ty, .num len', body', .num ck] := by
  obtain ⟨front, own, len', ck', body', h1, h2, _, h3, _⟩ := C34_szse w n b ty len ck body hv hb hok
  have := h3 (by rw [hw]; rfl)
  subst this
  exact ⟨front, len', body', h1, h2⟩

/-- **C34 (sample RootPacket).** In a process that has registered no service of its own the checksum is the standard CRC-32 of all
readable bytes in front of it. -/
theorem C34_root_default (w : World) (hw : w.svc = Registry.initial) (n : Nat) (b : WBuf) (ty len ck : Num) (body : Val)
    (hv : wellTyped (.obj .sample_RootPacket [.num ty, .num len, body, .num ck]) = true) (hb : b.Valid)
    (hok : (encode w n (.obj .sample_RootPacket [.num ty, .num len, body, .num ck]) b).2.2 = none) :
    ∃ front, (encode w n (.obj .sample_RootPacket [.num ty, .num len, body, .num ck]) b).2.1.data =
      front ++ toBytes .le 4 (crc32IsoHdlc (front.drop b.rd)).toNat := by
  obtain ⟨front, own, len', ck', body', h1, h2, h3, _⟩ := C34_root w n b ty len ck body hv hb hok
  have := h3 crc32Service (by rw [hw]; rfl)
  subst this
  refine ⟨front, h1.trans ?_⟩
  show _ = front ++ toBytes .le 4 (crc32IsoHdlc (front.drop b.rd)).toNat
  rw [← crc32_eq]
  rfl

/-- **C34 (SSE).** In a process in which, after any calls on the checksum factory, the name was free and the SSE service is then registered, the checksum is the sum
of all readable bytes in front of it, modulo 256. -/
theorem C34_sse_registered (w : World) (history : List RegCall) (hfree : registeredAfter (startCalls ++ history) "SSE_BIN" = none)
    (hw : w.svc = runCalls Registry.initial (history ++ [.registry sseBinService])) (n : Nat) (b : WBuf) (ty seq len ck : Num) (body : Val)
    (hv : wellTyped (.obj .sse_SseBinary [.num ty, .num seq, .num len, body, .num ck]) = true) (hb : b.Valid)
    (hok : (encode w n (.obj .sse_SseBinary [.num ty, .num seq, .num len, body, .num ck]) b).2.2 = none) :
    ∃ front, (encode w n (.obj .sse_SseBinary [.num ty, .num seq, .num len, body, .num ck]) b).2.1.data =
      front ++ toBytes .be 4 (byteSum (front.drop b.rd) % 256) := by
  obtain ⟨front, own, len', ck', body', h1, h2, h3, _⟩ := C34_sse w n b ty seq len ck body hv hb hok
  obtain ⟨r1, r2⟩ := C15_registry_result history sseBinService
  have := h3 sseBinService (by rw [hw]; exact r2 (r1.mpr hfree))
  subst this
  refine ⟨front, h1.trans ?_⟩
  rw [← sseBin_toNat]
  rfl

/-- **C34 (SZSE).** The same for SZSE frames and the SZSE service. -/
theorem C34_szse_registered (w : World) (history : List RegCall) (hfree : registeredAfter (startCalls ++ history) "SZSE_BIN" = none)
    (hw : w.svc = runCalls Registry.initial (history ++ [.registry szseBinService])) (n : Nat) (b : WBuf) (ty len ck : Num) (body : Val)
    (hv : wellTyped (.obj .szse_SzseBinary [.num ty, .num len, body, .num ck]) = true) (hb : b.Valid) (hcap : b.maxCap < 2 ^ 31)
    (hok : (encode w n (.obj .szse_SzseBinary [.num ty, .num len, body, .num ck]) b).2.2 = none) :
    ∃ front, (encode w n (.obj .szse_SzseBinary [.num ty, .num len, body, .num ck]) b).2.1.data =
      front ++ toBytes .be 4 (byteSum (front.drop b.rd) % 256) := by
  obtain ⟨front, own, len', ck', body', h1, h2, h3, _⟩ := C34_szse w n b ty len ck body hv hb hok
  obtain ⟨r1, r2⟩ := C15_registry_result history szseBinService
  have := h3 szseBinService (by rw [hw]; exact r2 (r1.mpr hfree))
  subst this
  refine ⟨front, h1.trans ?_⟩
  have hlen : (front.drop b.rd).length < 2 ^ 31 := by
    have hl : (encode w n (.obj .szse_SzseBinary [.num ty, .num len, body, .num ck]) b).2.1.data.length ≤ b.maxCap := by
      rcases encode_cases w n _ b hv hb.1 hb.2 with ⟨_, _, hfit, h⟩ | ⟨_, _, _, h⟩ | ⟨_, h | h⟩
      · rw [h]; simp only [WBuf.app, List.length_append, image_settle_length w.svc b.readable _ hv]; omega
      · rw [hok] at h; cases h
      · rw [hok] at h; cases h
      · obtain ⟨x, hx⟩ := h.isSome; rw [hok] at hx; cases hx
    rw [h1, List.length_append] at hl
    rw [List.length_drop]
    omega
  rw [← szseBin_toNat _ hlen]
  rfl

/-- The frame `exFrame` of `Props/Encode.lean` satisfies the hypotheses of the theorems above: encoded behind one already
readable byte in a process that has registered the SSE service. -/
def exSseWorld : World := { World.initial with svc := (World.initial.svc.registry sseBinService).1 }

example : (exSseWorld.svc.getService "SSE_BIN").isSome = true
    ∧ (encode exSseWorld 5 exFrame ⟨[9], 0, 100⟩).2.2 = none
    ∧ (encode exSseWorld 5 exFrame ⟨[9], 0, 100⟩).2.1.data =
      [9, 0, 0, 0, 0x28, 0, 0, 0, 0, 0, 0, 0, 5, 0, 0, 0, 26, 0, 7, 0, 2, 0x41, 0x42, 0x20, 0x20, 0x20, 0x20, 0x20, 0x20, 0x20,
        0x20, 0x20, 0x20, 0x20, 0x20, 0x20, 0x20, 0, 1, 1, 2, 3, 4, 0, 0, 0, 167] := by
  decide +kernel

/-- C33, C34 and C16 on frames of each kind. -/
example := C34_sse_registered exSseWorld [] rfl rfl 5 ⟨[9], 0, 100⟩ ⟨.i32, 0x28⟩ ⟨.i64, 5⟩ ⟨.i32, 999⟩ ⟨.i32, 0x55⟩ exBody (by decide +kernel)
  ⟨by decide, by decide⟩ (by decide +kernel)
example := C34_szse_registered { World.initial with svc := (World.initial.svc.registry szseBinService).1 } [] rfl rfl 5 ⟨[9], 0, 100⟩ ⟨.i32, 3⟩ ⟨.i32, 999⟩
  ⟨.i32, 0x55⟩ (.obj .szse_Heartbeat []) (by decide +kernel) ⟨by decide, by decide⟩ (by decide) (by decide +kernel)
example := C33_sse exSseWorld 5 ⟨[9], 0, 100⟩ ⟨.i32, 0x28⟩ ⟨.i64, 5⟩ ⟨.i32, 999⟩ ⟨.i32, 0x55⟩ exBody (by decide +kernel) ⟨by decide, by decide⟩ (by decide +kernel)
example := C34_sse exSseWorld 5 ⟨[9], 0, 100⟩ ⟨.i32, 0x28⟩ ⟨.i64, 5⟩ ⟨.i32, 999⟩ ⟨.i32, 0x55⟩ exBody (by decide +kernel) ⟨by decide, by decide⟩ (by decide +kernel)
example := C16_sse_frame World.initial rfl 5 ⟨[9], 0, 100⟩ ⟨.i32, 0x28⟩ ⟨.i64, 5⟩ ⟨.i32, 999⟩ ⟨.i32, 0x55⟩ exBody (by decide +kernel) ⟨by decide, by decide⟩
  (by decide +kernel)
example := C33_szse World.initial 5 ⟨[9], 0, 100⟩ ⟨.i32, 3⟩ ⟨.i32, 999⟩ ⟨.i32, 0x55⟩ (.obj .szse_Heartbeat []) (by decide +kernel) ⟨by decide, by decide⟩
  (by decide +kernel)
example := C34_szse World.initial 5 ⟨[9], 0, 100⟩ ⟨.i32, 3⟩ ⟨.i32, 999⟩ ⟨.i32, 0x55⟩ (.obj .szse_Heartbeat []) (by decide +kernel) ⟨by decide, by decide⟩
  (by decide +kernel)
example := C16_szse_frame World.initial rfl 5 ⟨[9], 0, 100⟩ ⟨.i32, 3⟩ ⟨.i32, 999⟩ ⟨.i32, 0x55⟩ (.obj .szse_Heartbeat []) (by decide +kernel) ⟨by decide, by decide⟩
  (by decide +kernel)
example := C33_root World.initial 5 ⟨[9], 0, 100⟩ ⟨.i16, 3⟩ ⟨.i32, 999⟩ ⟨.i32, 0x55⟩ (.obj .sample_SubPacket [.num ⟨.i32, 7⟩, .null]) (by decide +kernel)
  ⟨by decide, by decide⟩ (by decide +kernel)
example := C34_root World.initial 5 ⟨[9], 0, 100⟩ ⟨.i16, 3⟩ ⟨.i32, 999⟩ ⟨.i32, 0x55⟩ (.obj .sample_SubPacket [.num ⟨.i32, 7⟩, .null]) (by decide +kernel)
  ⟨by decide, by decide⟩ (by decide +kernel)
example := C34_root_default World.initial rfl 5 ⟨[9], 0, 100⟩ ⟨.i16, 3⟩ ⟨.i32, 999⟩ ⟨.i32, 0x55⟩ (.obj .sample_SubPacket [.num ⟨.i32, 7⟩, .null]) (by decide +kernel)
  ⟨by decide, by decide⟩ (by decide +kernel)
example := C33_rc World.initial 5 ⟨[9], 0, 100⟩ ⟨.i32, 3⟩ ⟨.i32, 1⟩ ⟨.i32, 999⟩ (.obj .sample_SubPacket [.num ⟨.i32, 7⟩, .null]) (by decide +kernel)
  ⟨by decide, by decide⟩ (by decide +kernel)

end FinProto
