import Verif.Props.RoundTrip
import Verif.Props.Frames
/-
C36: what a receiver does with length and checksum fields (nothing).  C32: what it does with empty strings in lists.
-/
namespace FinProto

/-- Two messages that differ in length and checksum fields only are received alike. -/
theorem C36_computed_fields_ignored (w : World) (m : Nat) (c : Cls) (fs gs : List Val)
    (hv' : wellTyped (.obj c gs) = true) (hc : complete (.obj c fs) = true)
    (hl : legible w (.obj c fs)) (hm : depth (.obj c fs) ≤ m) (heq : blank (.obj c gs) = blank (.obj c fs)) :
    ∃ gs', received (.obj c gs) = .obj c gs' ∧
      ∀ before after spare, decode w m c (freshFields c) ⟨before ++ image (.obj c gs) ++ after, spare, before.length⟩ =
        (gs', ⟨before ++ image (.obj c gs) ++ after, spare, before.length + (image (.obj c gs)).length⟩, none) := by
  refine ⟨receivedFields (wire c) gs, rfl, decode_image w m c gs hv' ?_ ?_ ?_⟩
  · rw [← complete_blank, heq, complete_blank, hc]
  · rw [legible_blank, heq, ← legible_blank]; exact hl
  · rw [← depth_blank, heq, depth_blank]; exact hm

theorem len4 (e : Endian) (L : List Byte) (h : L.length = 4) : ∃ n : Num, n.ty = .i32 ∧ n.bytes e = L :=
  ⟨Num.ofBytes e .i32 L, rfl, Num.bytes_ofBytes e .i32 L h⟩

theorem typed_sse (ty seq len ck : Num) (body : Val) :
    wellTyped (.obj .sse_SseBinary [.num ty, .num seq, .num len, body, .num ck]) = true ↔ ty.ty = .i32 ∧ seq.ty = .i64 ∧ len.ty = .i32 ∧ hasType .codec body = true ∧ ck.ty = .i32 := by
  simp [wellTyped, hasType, fieldsHaveType, javaTypes, decl, Sse.SseBinary.decl, Sse.SseBinary.fields]

theorem typed_szse (ty len ck : Num) (body : Val) :
    wellTyped (.obj .szse_SzseBinary [.num ty, .num len, body, .num ck]) = true ↔ ty.ty = .i32 ∧ len.ty = .i32 ∧ hasType .codec body = true ∧ ck.ty = .i32 := by
  simp [wellTyped, hasType, fieldsHaveType, javaTypes, decl, Szse.SzseBinary.decl, Szse.SzseBinary.fields]

theorem typed_root (ty len ck : Num) (body : Val) :
    wellTyped (.obj .sample_RootPacket [.num ty, .num len, body, .num ck]) = true ↔ ty.ty = .i16 ∧ len.ty = .i32 ∧ hasType .codec body = true ∧ ck.ty = .i32 := by
  simp [wellTyped, hasType, fieldsHaveType, javaTypes, decl, Sample.RootPacket.decl, Sample.RootPacket.fields]

theorem typed_rc (ty ver len : Num) (body : Val) :
    wellTyped (.obj .risk_RcBinary [.num ty, .num ver, .num len, body]) = true ↔ ty.ty = .i32 ∧ ver.ty = .i32 ∧ len.ty = .i32 ∧ hasType .codec body = true := by
  simp [wellTyped, hasType, fieldsHaveType, javaTypes, decl, Risk.RcBinary.decl, Risk.RcBinary.fields]

theorem blankField_codec (fac : Fac) (key : Nat) (v : Val) (h : hasType .codec v = true) : blankField (.ext fac key) v = blank v := by
  cases v <;> simp [hasType] at h <;> rfl

theorem receivedField_codec (fac : Fac) (key : Nat) (v : Val) (h : hasType .codec v = true) :
    receivedField (.ext fac key) v = received v := by
  cases v <;> simp [hasType] at h <;> rfl

/-- **C36 violated (SSE).** Take any frame that was encoded successfully and that the receiver can follow; replace its four length bytes and its four checksum bytes by
anything: the result decodes successfully, with the same header and the same body. -/
theorem C36_sse (ws wr : World) (n m : Nat) (b : WBuf) (ty seq len ck : Num) (body : Val)
    (hv : wellTyped (.obj .sse_SseBinary [.num ty, .num seq, .num len, body, .num ck]) = true) (hb : b.Valid)
    (hok : (encode ws n (.obj .sse_SseBinary [.num ty, .num seq, .num len, body, .num ck]) b).2.2 = none)
    (hl : legible wr (.obj .sse_SseBinary [.num ty, .num seq, .num len, body, .num ck]))
    (hm : depth (.obj .sse_SseBinary [.num ty, .num seq, .num len, body, .num ck]) ≤ m) :
    ∃ (header length bodyBytes checksum : List Byte) (body' : Val) (len1 ck1 : Num),
      (encode ws n (.obj .sse_SseBinary [.num ty, .num seq, .num len, body, .num ck]) b).2.1.data =
        b.data ++ (header ++ length ++ bodyBytes ++ checksum)
      ∧ (encode ws n (.obj .sse_SseBinary [.num ty, .num seq, .num len, body, .num ck]) b).1 =
        .obj .sse_SseBinary [.num ty, .num seq, .num len1, body', .num ck1]
      ∧ header.length = 12 ∧ length.length = 4 ∧ checksum.length = 4
      ∧ ∀ length' checksum' : List Byte, length'.length = 4 → checksum'.length = 4 →
          ∃ len' ck' : Num, len'.bytes .be = length' ∧ ck'.bytes .be = checksum' ∧
            ∀ before after spare,
              decode wr m .sse_SseBinary (freshFields .sse_SseBinary)
                ⟨before ++ (header ++ length' ++ bodyBytes ++ checksum') ++ after, spare, before.length⟩ =
              ([.num ty, .num seq, .num len', received body', .num ck'],
                ⟨before ++ (header ++ length' ++ bodyBytes ++ checksum') ++ after, spare,
                  before.length + (header ++ length' ++ bodyBytes ++ checksum').length⟩, none) := by
  obtain ⟨body', bytes, ck1, h1, h2, h3, _⟩ := C33_sse ws n b ty seq len ck body hv hb hok
  obtain ⟨hc, _, hs⟩ := encode_ok ws n _ b hv hb hok
  have hv1 := settle_wellTyped ws.svc b.readable _ hv
  have hs1 : settle ws.svc b.readable (.obj .sse_SseBinary [.num ty, .num seq, .num len, body, .num ck]) = (encode ws n (.obj .sse_SseBinary [.num ty, .num seq, .num len, body, .num ck]) b).1 := by rw [hs]
  rw [hs1, h1, typed_sse] at hv1
  obtain ⟨h_ty, h_seq, _, hbody, hck⟩ := hv1
  refine ⟨ty.bytes .be ++ seq.bytes .be, toBytes .be 4 bytes.length, bytes, ck1.bytes .be, body', .int (BitVec.ofNat 32 bytes.length), ck1, ?_, ?_, ?_, ?_, ?_, ?_⟩
  · rw [h1]; simp only [List.append_assoc]
  · rw [h1]
  · simp [h_ty, h_seq, PTy.size]
  · simp
  · simp [hck, PTy.size]
  · intro L C hL hC
    obtain ⟨len', hl1, hl2⟩ := len4 .be L hL
    obtain ⟨ck2, hk1, hk2⟩ := len4 .be C hC
    refine ⟨len', ck2, hl2, hk2, ?_⟩
    have hv2 : wellTyped (.obj .sse_SseBinary [.num ty, .num seq, .num len', body', .num ck2]) = true := by
      rw [typed_sse]; exact ⟨h_ty, h_seq, hl1, hbody, hk1⟩
    have hbl : blank (.obj .sse_SseBinary [.num ty, .num seq, .num len', body', .num ck2]) = blank (.obj .sse_SseBinary [.num ty, .num seq, .num len, body, .num ck]) := by
      have hf : blankField (.ext .sse_SseBinary 0) body' = blankField (.ext .sse_SseBinary 0) body := by
        rw [blankField_codec _ _ _ hbody, blankField_codec _ _ _ ((typed_sse ..).mp hv).2.2.2.1, h3]
      show Val.obj .sse_SseBinary (blankFields [.num .i32, .num .i64, .len .i32, .ext .sse_SseBinary 0, .cksum .i32 "SSE_BIN"] _) = Val.obj .sse_SseBinary (blankFields [.num .i32, .num .i64, .len .i32, .ext .sse_SseBinary 0, .cksum .i32 "SSE_BIN"] _)
      simp only [blankFields, hf, blankField]
    obtain ⟨gs', g1, g2⟩ := C36_computed_fields_ignored wr m .sse_SseBinary _ _ hv2 hc hl hm hbl
    have him : image (.obj .sse_SseBinary [.num ty, .num seq, .num len', body', .num ck2]) = ty.bytes .be ++ seq.bytes .be ++ L ++ bytes ++ C := by
      show imageFields ⟨.be, .i16, .i16⟩ [.num .i32, .num .i64, .len .i32, .ext .sse_SseBinary 0, .cksum .i32 "SSE_BIN"] _ = _
      simp only [imageFields, ext_image _ _ _ body' hbody, imageField, List.append_nil, List.append_assoc, hl2, h2, hk2]
    have hrec : gs' = [.num ty, .num seq, .num len', received body', .num ck2] := by
      have : received (.obj .sse_SseBinary [.num ty, .num seq, .num len', body', .num ck2]) = .obj .sse_SseBinary [.num ty, .num seq, .num len', received body', .num ck2] := by
        show Val.obj .sse_SseBinary (receivedFields [.num .i32, .num .i64, .len .i32, .ext .sse_SseBinary 0, .cksum .i32 "SSE_BIN"] _) = _
        simp only [receivedFields, receivedField_codec _ _ _ hbody, receivedField]
      rw [g1] at this
      cases this
      rfl
    rw [← him, ← hrec]
    exact g2

/-- **C36 violated (SZSE).** Take any frame that was encoded successfully and that the receiver can follow; replace its four length bytes and its four checksum bytes by
anything: the result decodes successfully, with the same header and the same body. -/
theorem C36_szse (ws wr : World) (n m : Nat) (b : WBuf) (ty len ck : Num) (body : Val)
    (hv : wellTyped (.obj .szse_SzseBinary [.num ty, .num len, body, .num ck]) = true) (hb : b.Valid)
    (hok : (encode ws n (.obj .szse_SzseBinary [.num ty, .num len, body, .num ck]) b).2.2 = none)
    (hl : legible wr (.obj .szse_SzseBinary [.num ty, .num len, body, .num ck]))
    (hm : depth (.obj .szse_SzseBinary [.num ty, .num len, body, .num ck]) ≤ m) :
    ∃ (header length bodyBytes checksum : List Byte) (body' : Val) (len1 ck1 : Num),
      (encode ws n (.obj .szse_SzseBinary [.num ty, .num len, body, .num ck]) b).2.1.data =
        b.data ++ (header ++ length ++ bodyBytes ++ checksum)
      ∧ (encode ws n (.obj .szse_SzseBinary [.num ty, .num len, body, .num ck]) b).1 =
        .obj .szse_SzseBinary [.num ty, .num len1, body', .num ck1]
      ∧ header.length = 4 ∧ length.length = 4 ∧ checksum.length = 4
      ∧ ∀ length' checksum' : List Byte, length'.length = 4 → checksum'.length = 4 →
          ∃ len' ck' : Num, len'.bytes .be = length' ∧ ck'.bytes .be = checksum' ∧
            ∀ before after spare,
              decode wr m .szse_SzseBinary (freshFields .szse_SzseBinary)
                ⟨before ++ (header ++ length' ++ bodyBytes ++ checksum') ++ after, spare, before.length⟩ =
              ([.num ty, .num len', received body', .num ck'],
                ⟨before ++ (header ++ length' ++ bodyBytes ++ checksum') ++ after, spare,
                  before.length + (header ++ length' ++ bodyBytes ++ checksum').length⟩, none) := by
  obtain ⟨body', bytes, ck1, h1, h2, h3, _⟩ := C33_szse ws n b ty len ck body hv hb hok
  obtain ⟨hc, _, hs⟩ := encode_ok ws n _ b hv hb hok
  have hv1 := settle_wellTyped ws.svc b.readable _ hv
  have hs1 : settle ws.svc b.readable (.obj .szse_SzseBinary [.num ty, .num len, body, .num ck]) = (encode ws n (.obj .szse_SzseBinary [.num ty, .num len, body, .num ck]) b).1 := by rw [hs]
  rw [hs1, h1, typed_szse] at hv1
  obtain ⟨h_ty, _, hbody, hck⟩ := hv1
  refine ⟨ty.bytes .be, toBytes .be 4 bytes.length, bytes, ck1.bytes .be, body', .int (BitVec.ofNat 32 bytes.length), ck1, ?_, ?_, ?_, ?_, ?_, ?_⟩
  · rw [h1]; simp only [List.append_assoc]
  · rw [h1]
  · simp [h_ty, PTy.size]
  · simp
  · simp [hck, PTy.size]
  · intro L C hL hC
    obtain ⟨len', hl1, hl2⟩ := len4 .be L hL
    obtain ⟨ck2, hk1, hk2⟩ := len4 .be C hC
    refine ⟨len', ck2, hl2, hk2, ?_⟩
    have hv2 : wellTyped (.obj .szse_SzseBinary [.num ty, .num len', body', .num ck2]) = true := by
      rw [typed_szse]; exact ⟨h_ty, hl1, hbody, hk1⟩
    have hbl : blank (.obj .szse_SzseBinary [.num ty, .num len', body', .num ck2]) = blank (.obj .szse_SzseBinary [.num ty, .num len, body, .num ck]) := by
      have hf : blankField (.ext .szse_SzseBinary 0) body' = blankField (.ext .szse_SzseBinary 0) body := by
        rw [blankField_codec _ _ _ hbody, blankField_codec _ _ _ ((typed_szse ..).mp hv).2.2.1, h3]
      show Val.obj .szse_SzseBinary (blankFields [.num .i32, .len .i32, .ext .szse_SzseBinary 0, .cksum .i32 "SZSE_BIN"] _) = Val.obj .szse_SzseBinary (blankFields [.num .i32, .len .i32, .ext .szse_SzseBinary 0, .cksum .i32 "SZSE_BIN"] _)
      simp only [blankFields, hf, blankField]
    obtain ⟨gs', g1, g2⟩ := C36_computed_fields_ignored wr m .szse_SzseBinary _ _ hv2 hc hl hm hbl
    have him : image (.obj .szse_SzseBinary [.num ty, .num len', body', .num ck2]) = ty.bytes .be ++ L ++ bytes ++ C := by
      show imageFields ⟨.be, .i32, .i32⟩ [.num .i32, .len .i32, .ext .szse_SzseBinary 0, .cksum .i32 "SZSE_BIN"] _ = _
      simp only [imageFields, ext_image _ _ _ body' hbody, imageField, List.append_nil, List.append_assoc, hl2, h2, hk2]
    have hrec : gs' = [.num ty, .num len', received body', .num ck2] := by
      have : received (.obj .szse_SzseBinary [.num ty, .num len', body', .num ck2]) = .obj .szse_SzseBinary [.num ty, .num len', received body', .num ck2] := by
        show Val.obj .szse_SzseBinary (receivedFields [.num .i32, .len .i32, .ext .szse_SzseBinary 0, .cksum .i32 "SZSE_BIN"] _) = _
        simp only [receivedFields, receivedField_codec _ _ _ hbody, receivedField]
      rw [g1] at this
      cases this
      rfl
    rw [← him, ← hrec]
    exact g2

/-- **C36 violated (sample root packet).** Take any frame that was encoded successfully and that the receiver can follow; replace its four length bytes and its four checksum bytes by
anything: the result decodes successfully, with the same header and the same body. -/
theorem C36_root (ws wr : World) (n m : Nat) (b : WBuf) (ty len ck : Num) (body : Val)
    (hv : wellTyped (.obj .sample_RootPacket [.num ty, .num len, body, .num ck]) = true) (hb : b.Valid)
    (hok : (encode ws n (.obj .sample_RootPacket [.num ty, .num len, body, .num ck]) b).2.2 = none)
    (hl : legible wr (.obj .sample_RootPacket [.num ty, .num len, body, .num ck]))
    (hm : depth (.obj .sample_RootPacket [.num ty, .num len, body, .num ck]) ≤ m) :
    ∃ (header length bodyBytes checksum : List Byte) (body' : Val) (len1 ck1 : Num),
      (encode ws n (.obj .sample_RootPacket [.num ty, .num len, body, .num ck]) b).2.1.data =
        b.data ++ (header ++ length ++ bodyBytes ++ checksum)
      ∧ (encode ws n (.obj .sample_RootPacket [.num ty, .num len, body, .num ck]) b).1 =
        .obj .sample_RootPacket [.num ty, .num len1, body', .num ck1]
      ∧ header.length = 2 ∧ length.length = 4 ∧ checksum.length = 4
      ∧ ∀ length' checksum' : List Byte, length'.length = 4 → checksum'.length = 4 →
          ∃ len' ck' : Num, len'.bytes .le = length' ∧ ck'.bytes .le = checksum' ∧
            ∀ before after spare,
              decode wr m .sample_RootPacket (freshFields .sample_RootPacket)
                ⟨before ++ (header ++ length' ++ bodyBytes ++ checksum') ++ after, spare, before.length⟩ =
              ([.num ty, .num len', received body', .num ck'],
                ⟨before ++ (header ++ length' ++ bodyBytes ++ checksum') ++ after, spare,
                  before.length + (header ++ length' ++ bodyBytes ++ checksum').length⟩, none) := by
  obtain ⟨body', bytes, ck1, h1, h2, h3, _⟩ := C33_root ws n b ty len ck body hv hb hok
  obtain ⟨hc, _, hs⟩ := encode_ok ws n _ b hv hb hok
  have hv1 := settle_wellTyped ws.svc b.readable _ hv
  have hs1 : settle ws.svc b.readable (.obj .sample_RootPacket [.num ty, .num len, body, .num ck]) = (encode ws n (.obj .sample_RootPacket [.num ty, .num len, body, .num ck]) b).1 := by rw [hs]
  rw [hs1, h1, typed_root] at hv1
  obtain ⟨h_ty, _, hbody, hck⟩ := hv1
  refine ⟨ty.bytes .le, toBytes .le 4 bytes.length, bytes, ck1.bytes .le, body', .int (BitVec.ofNat 32 bytes.length), ck1, ?_, ?_, ?_, ?_, ?_, ?_⟩
  · rw [h1]; simp only [List.append_assoc]
  · rw [h1]
  · simp [h_ty, PTy.size]
  · simp
  · simp [hck, PTy.size]
  · intro L C hL hC
    obtain ⟨len', hl1, hl2⟩ := len4 .le L hL
    obtain ⟨ck2, hk1, hk2⟩ := len4 .le C hC
    refine ⟨len', ck2, hl2, hk2, ?_⟩
    have hv2 : wellTyped (.obj .sample_RootPacket [.num ty, .num len', body', .num ck2]) = true := by
      rw [typed_root]; exact ⟨h_ty, hl1, hbody, hk1⟩
    have hbl : blank (.obj .sample_RootPacket [.num ty, .num len', body', .num ck2]) = blank (.obj .sample_RootPacket [.num ty, .num len, body, .num ck]) := by
      have hf : blankField (.ext .sample_RootPacket 0) body' = blankField (.ext .sample_RootPacket 0) body := by
        rw [blankField_codec _ _ _ hbody, blankField_codec _ _ _ ((typed_root ..).mp hv).2.2.1, h3]
      show Val.obj .sample_RootPacket (blankFields [.num .i16, .len .i32, .ext .sample_RootPacket 0, .cksum .i32 "CRC32"] _) = Val.obj .sample_RootPacket (blankFields [.num .i16, .len .i32, .ext .sample_RootPacket 0, .cksum .i32 "CRC32"] _)
      simp only [blankFields, hf, blankField]
    obtain ⟨gs', g1, g2⟩ := C36_computed_fields_ignored wr m .sample_RootPacket _ _ hv2 hc hl hm hbl
    have him : image (.obj .sample_RootPacket [.num ty, .num len', body', .num ck2]) = ty.bytes .le ++ L ++ bytes ++ C := by
      show imageFields ⟨.le, .i16, .i16⟩ [.num .i16, .len .i32, .ext .sample_RootPacket 0, .cksum .i32 "CRC32"] _ = _
      simp only [imageFields, ext_image _ _ _ body' hbody, imageField, List.append_nil, List.append_assoc, hl2, h2, hk2]
    have hrec : gs' = [.num ty, .num len', received body', .num ck2] := by
      have : received (.obj .sample_RootPacket [.num ty, .num len', body', .num ck2]) = .obj .sample_RootPacket [.num ty, .num len', received body', .num ck2] := by
        show Val.obj .sample_RootPacket (receivedFields [.num .i16, .len .i32, .ext .sample_RootPacket 0, .cksum .i32 "CRC32"] _) = _
        simp only [receivedFields, receivedField_codec _ _ _ hbody, receivedField]
      rw [g1] at this
      cases this
      rfl
    rw [← him, ← hrec]
    exact g2

/-- **C36 violated (risk control).** Take any frame that was encoded successfully and that the receiver can follow; replace its four length bytes by
anything: the result decodes successfully, with the same header and the same body. -/
theorem C36_rc (ws wr : World) (n m : Nat) (b : WBuf) (ty ver len : Num) (body : Val)
    (hv : wellTyped (.obj .risk_RcBinary [.num ty, .num ver, .num len, body]) = true) (hb : b.Valid)
    (hok : (encode ws n (.obj .risk_RcBinary [.num ty, .num ver, .num len, body]) b).2.2 = none)
    (hl : legible wr (.obj .risk_RcBinary [.num ty, .num ver, .num len, body]))
    (hm : depth (.obj .risk_RcBinary [.num ty, .num ver, .num len, body]) ≤ m) :
    ∃ (header length bodyBytes : List Byte) (body' : Val) (len1 : Num),
      (encode ws n (.obj .risk_RcBinary [.num ty, .num ver, .num len, body]) b).2.1.data =
        b.data ++ (header ++ length ++ bodyBytes)
      ∧ (encode ws n (.obj .risk_RcBinary [.num ty, .num ver, .num len, body]) b).1 =
        .obj .risk_RcBinary [.num ty, .num ver, .num len1, body']
      ∧ header.length = 8 ∧ length.length = 4
      ∧ ∀ length' : List Byte, length'.length = 4 →
          ∃ len' : Num, len'.bytes .be = length' ∧
            ∀ before after spare,
              decode wr m .risk_RcBinary (freshFields .risk_RcBinary)
                ⟨before ++ (header ++ length' ++ bodyBytes) ++ after, spare, before.length⟩ =
              ([.num ty, .num ver, .num len', received body'],
                ⟨before ++ (header ++ length' ++ bodyBytes) ++ after, spare,
                  before.length + (header ++ length' ++ bodyBytes).length⟩, none) := by
  obtain ⟨body', bytes, h1, h2, h3, _⟩ := C33_rc ws n b ty ver len body hv hb hok
  obtain ⟨hc, _, hs⟩ := encode_ok ws n _ b hv hb hok
  have hv1 := settle_wellTyped ws.svc b.readable _ hv
  have hs1 : settle ws.svc b.readable (.obj .risk_RcBinary [.num ty, .num ver, .num len, body]) = (encode ws n (.obj .risk_RcBinary [.num ty, .num ver, .num len, body]) b).1 := by rw [hs]
  rw [hs1, h1, typed_rc] at hv1
  obtain ⟨h_ty, h_ver, _, hbody⟩ := hv1
  refine ⟨ty.bytes .be ++ ver.bytes .be, toBytes .be 4 bytes.length, bytes, body', .int (BitVec.ofNat 32 bytes.length), ?_, ?_, ?_, ?_, ?_⟩
  · rw [h1]; simp only [List.append_assoc]
  · rw [h1]
  · simp [h_ty, h_ver, PTy.size]
  · simp
  · intro L hL
    obtain ⟨len', hl1, hl2⟩ := len4 .be L hL
    refine ⟨len', hl2, ?_⟩
    have hv2 : wellTyped (.obj .risk_RcBinary [.num ty, .num ver, .num len', body']) = true := by
      rw [typed_rc]; exact ⟨h_ty, h_ver, hl1, hbody⟩
    have hbl : blank (.obj .risk_RcBinary [.num ty, .num ver, .num len', body']) = blank (.obj .risk_RcBinary [.num ty, .num ver, .num len, body]) := by
      have hf : blankField (.ext .risk_RcBinary 0) body' = blankField (.ext .risk_RcBinary 0) body := by
        rw [blankField_codec _ _ _ hbody, blankField_codec _ _ _ ((typed_rc ..).mp hv).2.2.2, h3]
      show Val.obj .risk_RcBinary (blankFields [.num .i32, .num .i32, .len .i32, .ext .risk_RcBinary 0] _) = Val.obj .risk_RcBinary (blankFields [.num .i32, .num .i32, .len .i32, .ext .risk_RcBinary 0] _)
      simp only [blankFields, hf, blankField]
    obtain ⟨gs', g1, g2⟩ := C36_computed_fields_ignored wr m .risk_RcBinary _ _ hv2 hc hl hm hbl
    have him : image (.obj .risk_RcBinary [.num ty, .num ver, .num len', body']) = ty.bytes .be ++ ver.bytes .be ++ L ++ bytes := by
      show imageFields ⟨.be, .i32, .i32⟩ [.num .i32, .num .i32, .len .i32, .ext .risk_RcBinary 0] _ = _
      simp only [imageFields, ext_image _ _ _ body' hbody, imageField, List.append_nil, List.append_assoc, hl2, h2]
    have hrec : gs' = [.num ty, .num ver, .num len', received body'] := by
      have : received (.obj .risk_RcBinary [.num ty, .num ver, .num len', body']) = .obj .risk_RcBinary [.num ty, .num ver, .num len', received body'] := by
        show Val.obj .risk_RcBinary (receivedFields [.num .i32, .num .i32, .len .i32, .ext .risk_RcBinary 0] _) = _
        simp only [receivedFields, receivedField_codec _ _ _ hbody, receivedField]
      rw [g1] at this
      cases this
      rfl
    rw [← him, ← hrec]
    exact g2

/-- **C36 violated.** A concrete frame whose length field says 77 and whose checksum field says 1 (its body is 22 bytes long) is accepted. -/
theorem C36_violated :
    ∃ (bytes : List Byte) (fs : List Val) (b' : RBuf),
      decode exSseWorld 3 .sse_SseBinary (freshFields .sse_SseBinary) ⟨bytes, [], 0⟩ = (fs, b', none)
      ∧ bytes.length = 42 ∧ b'.rd = 42 ∧ fs[2]? = some (.num ⟨.i32, 77⟩) ∧ fs[4]? = some (.num ⟨.i32, 1⟩)
      ∧ (exSseWorld.svc.getService "SSE_BIN").map (fun s => s.calcOn (bytes.take 38)) ≠ some 1 := by
  refine ⟨[0, 0, 0, 206, 0, 0, 0, 0, 0, 0, 0, 5, 0, 0, 0, 77,
      0, 1, 0x41, 0x42, 0x20, 0x20, 0x20, 0x20, 0x20, 0x20, 0, 0, 0, 1, 0, 0, 0, 0, 0, 0, 0, 2, 0, 0, 0, 1], _, _, rfl, by decide, by decide +kernel, rfl, rfl, by decide +kernel⟩

/-- The hypotheses of the C36 theorems are met by the frame `exCanonical`. -/
example : legible World.initial exCanonical :=
  (canonical_facts World.initial exCanonical (by decide +kernel) exCanonical_canonical).2.1

/-! ### C32: lists of length-prefixed strings -/

theorem receivedElems_vstr (xs : List Val) (h : elemsHaveType .str xs = true) :
    receivedElems .vstr xs = ((xs.map Val.text).filter (· ≠ [])).map fun s => .str (utf8Dec (utf8Enc s)) := by
  induction xs with
  | nil => rfl
  | cons v vs ih =>
    simp only [elemsHaveType, Bool.and_eq_true] at h
    simp only [receivedElems, List.map_cons, ih h.2]
    cases v with
    | null => simp [receivedElem, Val.text]
    | str s => by_cases hs : s = [] <;> simp [receivedElem, Val.text, hs]
    | _ => simp [elemHasType] at h

theorem blankElems_str (xs : List Val) (h : elemsHaveType .str xs = true) : blankElems xs = xs := by
  induction xs with
  | nil => rfl
  | cons v vs ih =>
    simp only [elemsHaveType, Bool.and_eq_true] at h
    rw [blankElems, ih h.2]
    cases v <;> first | rfl | simp [elemHasType] at h

theorem fieldsHaveType_get (ts : List FTy) (fs : List Val) (h : fieldsHaveType ts fs = true) (i : Nat) (t : FTy) (v : Val)
    (ht : ts[i]? = some t) (hv : fs[i]? = some v) : hasType t v = true := by
  induction fs generalizing ts i with
  | nil => simp at hv
  | cons x xs ih =>
    cases ts with
    | nil => simp at ht
    | cons s ss =>
      simp only [fieldsHaveType, Bool.and_eq_true] at h
      cases i with
      | zero => simp only [List.getElem?_cons_zero, Option.some.injEq] at ht hv; subst ht hv; exact h.1
      | succ i => exact ih ss h.2 i (by simpa using ht) (by simpa using hv)

/-- **C32 (what happens).** Encode and decode any message the receiver can follow.  A non-empty list of length-prefixed strings arrives
without its null and empty elements; the others keep their order and text. -/
theorem C32_list_received (ws wr : World) (n m : Nat) (c : Cls) (fs : List Val) (b : WBuf) (hv : wellTyped (.obj c fs) = true)
    (hb : b.Valid) (hok : (encode ws n (.obj c fs) b).2.2 = none) (hl : legible wr (.obj c fs)) (hm : depth (.obj c fs) ≤ m)
    (i : Nat) (xs : List Val) (hi : (wire c)[i]? = some (.list .vstr)) (hx : fs[i]? = some (.list xs)) (hne : xs ≠ []) :
    ∃ bytes fs', (encode ws n (.obj c fs) b).2.1.data = b.data ++ bytes
      ∧ (∀ before after spare, decode wr m c (freshFields c) ⟨before ++ bytes ++ after, spare, before.length⟩ =
          (fs', ⟨before ++ bytes ++ after, spare, before.length + bytes.length⟩, none))
      ∧ fs'[i]? = some (.list (((xs.map Val.text).filter (· ≠ [])).map fun s => .str (utf8Dec (utf8Enc s)))) := by
  obtain ⟨bytes, fs', h1, h2, h3⟩ := C23_general ws wr n m c fs b hv hb hok hl hm
  refine ⟨bytes, fs', h1, h3, ?_⟩
  have hbl := C37_only_computed_fields_change ws n _ b hv hb hok
  have he := (encode_ok ws n _ b hv hb hok).2.2
  obtain ⟨gs, hgs⟩ := settle_obj ws.svc b.readable c fs
  have hv' := settle_wellTyped ws.svc b.readable _ hv
  rw [he, hgs] at h2 hbl
  rw [hgs] at hv'
  simp only [received, Val.obj.injEq, true_and] at h2
  simp only [blank, Val.obj.injEq, true_and] at hbl
  have htl : ∀ fs : List Val, wellTyped (.obj c fs) = true → ∀ v, fs[i]? = some v → hasType (.list .str) v = true := by
    intro fs hv v hiv
    obtain ⟨_, _, h, ht⟩ := wellTyped_obj _ hv
    cases h
    refine fieldsHaveType_get _ _ ht i _ v ?_ hiv
    rw [type_table, List.getElem?_map, hi]; rfl
  have hgi : gs[i]? = some (.list xs) := by
    have hg : (blankFields (wire c) gs)[i]? = (blankFields (wire c) fs)[i]? := by rw [hbl]
    rw [blankFields_get _ _ i _ hi, blankFields_get _ _ i _ hi, hx] at hg
    have htx := htl fs hv _ hx
    simp only [hasType] at htx
    cases hgv : gs[i]? with
    | none => rw [hgv] at hg; cases hg
    | some v =>
      rw [hgv] at hg
      have htv := htl gs hv' _ hgv
      cases v <;> simp [hasType, blankField] at htv hg
      rw [blankElems_str _ htv, blankElems_str _ htx] at hg
      rw [hg]
  have htx := htl fs hv _ hx
  simp only [hasType] at htx
  rw [← h2, receivedFields_get _ _ i _ hi, hgi]
  simp only [Option.map_some, receivedField]
  rw [if_neg (by simpa using hne), receivedElems_vstr xs htx]

/-- **C32 (part that holds).** If no element is null or empty and all are valid text, the list arrives as it is.  (What is missing: lists
with null or empty elements, see `C32_violated`.) -/
theorem C32_no_empty_partial (ws wr : World) (n m : Nat) (c : Cls) (fs : List Val) (b : WBuf) (hv : wellTyped (.obj c fs) = true)
    (hb : b.Valid) (hok : (encode ws n (.obj c fs) b).2.2 = none) (hl : legible wr (.obj c fs)) (hm : depth (.obj c fs) ≤ m)
    (i : Nat) (xs : List Val) (hi : (wire c)[i]? = some (.list .vstr)) (hx : fs[i]? = some (.list xs)) (hne : xs ≠ [])
    (hel : ∀ x ∈ xs, ∃ s, x = .str s ∧ s ≠ [] ∧ validUtf16 s = true) :
    ∃ bytes fs', (encode ws n (.obj c fs) b).2.1.data = b.data ++ bytes
      ∧ (∀ before after spare, decode wr m c (freshFields c) ⟨before ++ bytes ++ after, spare, before.length⟩ =
          (fs', ⟨before ++ bytes ++ after, spare, before.length + bytes.length⟩, none))
      ∧ fs'[i]? = some (.list xs) := by
  obtain ⟨bytes, fs', h1, h2, h3⟩ := C32_list_received ws wr n m c fs b hv hb hok hl hm i xs hi hx hne
  refine ⟨bytes, fs', h1, h2, ?_⟩
  rw [h3]
  congr 2
  clear hx hne h3
  induction xs with
  | nil => rfl
  | cons x xs ih =>
    obtain ⟨s, rfl, hs, hval⟩ := hel x (by simp)
    have := ih (fun y hy => hel y (by simp [hy]))
    simp only [List.map_cons, Val.text]
    rw [List.filter_cons_of_pos (by simpa using hs), List.map_cons, this, utf8Dec_enc, sanitize_eq s hval]

/-- **C32 violated.** A list with a null or empty element never arrives as it is. -/
theorem C32_violated (ws wr : World) (n m : Nat) (c : Cls) (fs : List Val) (b : WBuf) (hv : wellTyped (.obj c fs) = true)
    (hb : b.Valid) (hok : (encode ws n (.obj c fs) b).2.2 = none) (hl : legible wr (.obj c fs)) (hm : depth (.obj c fs) ≤ m)
    (i : Nat) (xs : List Val) (hi : (wire c)[i]? = some (.list .vstr)) (hx : fs[i]? = some (.list xs))
    (x : Val) (hmem : x ∈ xs) (hempty : x = .null ∨ x = .str []) :
    ∃ bytes fs', (encode ws n (.obj c fs) b).2.1.data = b.data ++ bytes
      ∧ (∀ before after spare, decode wr m c (freshFields c) ⟨before ++ bytes ++ after, spare, before.length⟩ =
          (fs', ⟨before ++ bytes ++ after, spare, before.length + bytes.length⟩, none))
      ∧ ∃ ys, fs'[i]? = some (.list ys) ∧ ys.length < xs.length := by
  obtain ⟨bytes, fs', h1, h2, h3⟩ := C32_list_received ws wr n m c fs b hv hb hok hl hm i xs hi hx (List.ne_nil_of_mem hmem)
  refine ⟨bytes, fs', h1, h2, _, h3, ?_⟩
  rw [List.length_map]
  have ht : x.text = [] := by rcases hempty with rfl | rfl <;> rfl
  have : ((xs.map Val.text).filter (· ≠ [])).length < (xs.map Val.text).length := by
    apply List.length_filter_lt_length_iff_exists.mpr
    exact ⟨x.text, List.mem_map_of_mem hmem, by simp [ht]⟩
  simpa using this

/-- A message that meets the hypotheses: a string packet whose dynamic list is `["A", ""]`. -/
def exStrings : Val := .obj .sample_StringPacket
  [.null, .null, .str (js "x"), .str (js "x"), .str (js "x"), .str (js "x"),
    .list [.str (js "A"), .str []], .null, .null, .null, .null, .null]

example : wellTyped exStrings = true ∧ depth exStrings ≤ 1 ∧ (encode World.initial 1 exStrings ⟨[], 0, 100⟩).2.2 = none := by
  decide +kernel
example : legible World.initial exStrings := by
  have h : ∀ left, (left = true → js "x" ≠ []) := fun _ _ => by decide
  refine ⟨trivial, trivial, h _, h _, h _, h _, ⟨(by decide : countFits .i16 2), ?_⟩, trivial, trivial, trivial, trivial, trivial,
    trivial⟩
  exact ⟨(by decide +kernel : countFits .i16 (utf8Enc (js "A")).length), (by decide : countFits .i16 (utf8Enc []).length), trivial⟩

private theorem exCanonical_legible : legible World.initial exCanonical :=
  (canonical_facts World.initial exCanonical (by decide +kernel) exCanonical_canonical).2.1

/-- C36 on frames of each kind; in the first one the computed fields are replaced. -/
example := C36_computed_fields_ignored World.initial 3 .sse_SseBinary _
  [.num ⟨.i32, 206⟩, .num ⟨.i64, 5⟩, .num ⟨.i32, 7⟩,
    .obj .sse_ExecRptSync [.list [.obj .sse_ExecRptSync_SubExecRptSync [.str (js "AB"), .num ⟨.i32, 1⟩, .num ⟨.i64, 2⟩]]],
    .num ⟨.i32, 8⟩] (by decide +kernel) (by decide +kernel : complete exCanonical = true) exCanonical_legible (by decide +kernel) rfl
example := C36_sse World.initial World.initial 3 3 ⟨[9], 0, 100⟩ _ _ _ _ _ (by decide +kernel : wellTyped exCanonical = true) ⟨by decide, by decide⟩
  (by decide +kernel) exCanonical_legible (by decide +kernel)

set_option maxRecDepth 8000 in
example := C36_szse World.initial World.initial 3 3 ⟨[9], 0, 100⟩ ⟨.i32, 3⟩ ⟨.i32, 999⟩ ⟨.i32, 0x55⟩ (.obj .szse_Heartbeat []) (by decide +kernel)
  ⟨by decide, by decide⟩ (by decide +kernel) ⟨trivial, trivial, ⟨⟨_, rfl, rfl⟩, trivial⟩, trivial, trivial⟩ (by decide +kernel)

set_option maxRecDepth 8000 in
example := C36_root World.initial World.initial 3 3 ⟨[9], 0, 100⟩ ⟨.i16, 4⟩ ⟨.i32, 999⟩ ⟨.i32, 0x55⟩ (.obj .sample_EmptyPacket []) (by decide +kernel)
  ⟨by decide, by decide⟩ (by decide +kernel) ⟨trivial, trivial, ⟨⟨_, rfl, rfl⟩, trivial⟩, trivial, trivial⟩ (by decide +kernel)

set_option maxRecDepth 8000 in
example := C36_rc World.initial World.initial 3 3 ⟨[9], 0, 100⟩ ⟨.i32, 800001⟩ ⟨.i32, 1⟩ ⟨.i32, 999⟩
  (.obj .risk_RiskResult [.str (js "A"), .num ⟨.i8, 1⟩, .str (js "OK")]) (by decide +kernel)
  ⟨by decide, by decide⟩ (by decide +kernel)
  ⟨trivial, trivial, trivial, ⟨⟨_, rfl, rfl⟩, ⟨(by decide +kernel : countFits .i32 (utf8Enc (js "A")).length), trivial, (by decide +kernel : countFits .i32 (utf8Enc (js "OK")).length), trivial⟩⟩, trivial⟩ (by decide +kernel)

private theorem exStrings_legible (xs : List Val) (hx : xs = [.str (js "A"), .str []] ∨ xs = [.str (js "A")]) : legible World.initial (.obj .sample_StringPacket
    [.null, .null, .str (js "x"), .str (js "x"), .str (js "x"), .str (js "x"), .list xs, .null, .null, .null, .null, .null]) := by
  have h : ∀ left, (left = true → js "x" ≠ []) := fun _ _ => by decide
  refine ⟨trivial, trivial, h _, h _, h _, h _, ?_, trivial, trivial, trivial, trivial, trivial, trivial⟩
  rcases hx with rfl | rfl
  · exact ⟨(by decide : countFits .i16 2), (by decide +kernel : countFits .i16 (utf8Enc (js "A")).length), (by decide : countFits .i16 (utf8Enc []).length), trivial⟩
  · exact ⟨(by decide : countFits .i16 1), (by decide +kernel : countFits .i16 (utf8Enc (js "A")).length), trivial⟩

/-- `C32_list_received` on a list with an empty string, `C32_no_empty_partial` on a list without. -/
example := C32_list_received World.initial World.initial 1 1 _ _ ⟨[], 0, 100⟩ (by decide +kernel : wellTyped exStrings = true) ⟨by decide, by decide⟩
  (by decide +kernel) (exStrings_legible _ (.inl rfl)) (by decide +kernel) 6 [.str (js "A"), .str []] (by decide +kernel) rfl (by simp)
example := C32_no_empty_partial World.initial World.initial 1 1 .sample_StringPacket
  [.null, .null, .str (js "x"), .str (js "x"), .str (js "x"), .str (js "x"), .list [.str (js "A")], .null, .null, .null, .null, .null] ⟨[], 0, 100⟩
  (by decide +kernel) ⟨by decide, by decide⟩
  (by decide +kernel) (exStrings_legible _ (.inr rfl)) (by decide +kernel) 6 [.str (js "A")] (by decide +kernel) rfl (by simp)
  (by intro x hx; rw [List.mem_singleton] at hx; exact ⟨js "A", hx, by decide, by decide⟩)

end FinProto
