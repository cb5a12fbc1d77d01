import Verif.Proofs.EncodeFail
/-
Helper lemmas: the settled form of each frame.
-/
namespace FinProto

/-- A value of Java type `BinaryCodec`: null or a message. -/
theorem codec_cases (v : Val) (h : hasType .codec v = true) : v = .null ∨ wellTyped v = true := by
  cases v <;> simp [hasType, wellTyped] at h ⊢
  exact h

theorem ext_settle (svc : Registry) (k : Conv) (pre : List Byte) (fac : Fac) (key : Nat) (v : Val)
    (h : hasType .codec v = true) : settleField svc k pre (.ext fac key) v = settle svc pre v := by
  cases v <;> simp [hasType] at h <;> rfl

theorem ext_image (k : Conv) (fac : Fac) (key : Nat) (v : Val) (h : hasType .codec v = true) :
    imageField k (.ext fac key) v = image v := by
  cases v <;> simp [hasType] at h <;> rfl

theorem settle_codec (svc : Registry) (pre : List Byte) (v : Val) (h : hasType .codec v = true) :
    hasType .codec (settle svc pre v) = true ∧ blank (settle svc pre v) = blank v := by
  rcases codec_cases v h with rfl | h
  · exact ⟨rfl, rfl⟩
  · refine ⟨?_, blank_settle svc pre v h⟩
    have := settle_wellTyped svc pre v h
    obtain ⟨c, fs, hv, _⟩ := wellTyped_obj v h
    subst hv
    simpa [wellTyped, settle] using this

/-- The value of a checksum field after `encode`: computed over `covered` if the algorithm is registered, otherwise what the
caller had set. -/
def checksumAfter (svc : Registry) (alg : String) (covered : List Byte) (old : Num) : Num :=
  match svc.getService alg with
  | some s => .int (s.calcOn covered)
  | none => old

theorem cksum_settle (svc : Registry) (k : Conv) (pre : List Byte) (alg : String) (m : Num) :
    settleField svc k pre (.cksum .i32 alg) (.num m) = .num (checksumAfter svc alg pre m) := by
  simp only [settleField, checksumAfter, Registry.getService]
  cases svc alg <;> rfl

theorem bytes_int (o : Endian) (m : Nat) : (Num.int (BitVec.ofNat 32 m)).bytes o = toBytes o 4 m := by
  simp only [Num.bytes]
  exact toBytes_mod' _ 4 4 _ (Nat.le_refl _)

theorem settle_sse (svc : Registry) (pre : List Byte) (ty seq len ck : Num) (body : Val) (h : hasType .codec body = true) :
    ∃ body' ck', settle svc pre (.obj .sse_SseBinary [.num ty, .num seq, .num len, body, .num ck]) =
        .obj .sse_SseBinary [.num ty, .num seq, .num (.int (BitVec.ofNat 32 (image body').length)), body', .num ck']
      ∧ image (.obj .sse_SseBinary [.num ty, .num seq, .num (.int (BitVec.ofNat 32 (image body').length)), body', .num ck']) = ty.bytes .be ++ seq.bytes .be ++ toBytes .be 4 (image body').length ++ image body' ++ ck'.bytes .be
      ∧ blank body' = blank body
      ∧ ck' = checksumAfter svc "SSE_BIN" (pre ++ (ty.bytes .be ++ seq.bytes .be ++ toBytes .be 4 (image body').length ++ image body')) ck := by
  have hb := settle_codec svc (pre ++ ty.bytes .be ++ seq.bytes .be ++ List.replicate 4 0) body h
  obtain ⟨body', hbd⟩ : ∃ x, x = settle svc (pre ++ ty.bytes .be ++ seq.bytes .be ++ List.replicate 4 0) body := ⟨_, rfl⟩
  rw [← hbd] at hb
  refine ⟨body', _, ?_, ?_, hb.2, rfl⟩
  · show Val.obj .sse_SseBinary (settleFields svc ⟨.be, .i16, .i16⟩ pre
      [.num .i32, .num .i64, .len .i32, .ext .sse_SseBinary 0, .cksum .i32 "SSE_BIN"] _) = _
    rw [settleFields_other _ _ _ _ _ _ _ (by intro lt; simp), settleFields_other _ _ _ _ _ _ _ (by intro lt; simp),
      settleFields_len, settleFields_other _ _ _ _ _ _ _ (by intro lt; simp), cksum_settle]
    simp only [ext_settle _ _ _ _ _ _ h, settleField, imageField]
    rw [← hbd]
    simp only [ext_image _ _ _ _ hb.1, settleFields, countImage, PTy.size, List.append_assoc]
  · show imageFields ⟨.be, .i16, .i16⟩ [.num .i32, .num .i64, .len .i32, .ext .sse_SseBinary 0, .cksum .i32 "SSE_BIN"] _ = _
    simp only [imageFields, ext_image _ _ _ body' hb.1, imageField, List.append_nil, List.append_assoc, bytes_int]

theorem settle_szse (svc : Registry) (pre : List Byte) (ty len ck : Num) (body : Val) (h : hasType .codec body = true) :
    ∃ body' ck', settle svc pre (.obj .szse_SzseBinary [.num ty, .num len, body, .num ck]) =
        .obj .szse_SzseBinary [.num ty, .num (.int (BitVec.ofNat 32 (image body').length)), body', .num ck']
      ∧ image (.obj .szse_SzseBinary [.num ty, .num (.int (BitVec.ofNat 32 (image body').length)), body', .num ck']) = ty.bytes .be ++ toBytes .be 4 (image body').length ++ image body' ++ ck'.bytes .be
      ∧ blank body' = blank body
      ∧ ck' = checksumAfter svc "SZSE_BIN" (pre ++ (ty.bytes .be ++ toBytes .be 4 (image body').length ++ image body')) ck := by
  have hb := settle_codec svc (pre ++ ty.bytes .be ++ List.replicate 4 0) body h
  obtain ⟨body', hbd⟩ : ∃ x, x = settle svc (pre ++ ty.bytes .be ++ List.replicate 4 0) body := ⟨_, rfl⟩
  rw [← hbd] at hb
  refine ⟨body', _, ?_, ?_, hb.2, rfl⟩
  · show Val.obj .szse_SzseBinary (settleFields svc ⟨.be, .i32, .i32⟩ pre
      [.num .i32, .len .i32, .ext .szse_SzseBinary 0, .cksum .i32 "SZSE_BIN"] _) = _
    rw [settleFields_other _ _ _ _ _ _ _ (by intro lt; simp),
      settleFields_len, settleFields_other _ _ _ _ _ _ _ (by intro lt; simp), cksum_settle]
    simp only [ext_settle _ _ _ _ _ _ h, settleField, imageField]
    rw [← hbd]
    simp only [ext_image _ _ _ _ hb.1, settleFields, countImage, PTy.size, List.append_assoc]
  · show imageFields ⟨.be, .i32, .i32⟩ [.num .i32, .len .i32, .ext .szse_SzseBinary 0, .cksum .i32 "SZSE_BIN"] _ = _
    simp only [imageFields, ext_image _ _ _ body' hb.1, imageField, List.append_nil, List.append_assoc, bytes_int]

theorem settle_root (svc : Registry) (pre : List Byte) (ty len ck : Num) (body : Val) (h : hasType .codec body = true) :
    ∃ body' ck', settle svc pre (.obj .sample_RootPacket [.num ty, .num len, body, .num ck]) =
        .obj .sample_RootPacket [.num ty, .num (.int (BitVec.ofNat 32 (image body').length)), body', .num ck']
      ∧ image (.obj .sample_RootPacket [.num ty, .num (.int (BitVec.ofNat 32 (image body').length)), body', .num ck']) = ty.bytes .le ++ toBytes .le 4 (image body').length ++ image body' ++ ck'.bytes .le
      ∧ blank body' = blank body
      ∧ ck' = checksumAfter svc "CRC32" (pre ++ (ty.bytes .le ++ toBytes .le 4 (image body').length ++ image body')) ck := by
  have hb := settle_codec svc (pre ++ ty.bytes .le ++ List.replicate 4 0) body h
  obtain ⟨body', hbd⟩ : ∃ x, x = settle svc (pre ++ ty.bytes .le ++ List.replicate 4 0) body := ⟨_, rfl⟩
  rw [← hbd] at hb
  refine ⟨body', _, ?_, ?_, hb.2, rfl⟩
  · show Val.obj .sample_RootPacket (settleFields svc ⟨.le, .i16, .i16⟩ pre
      [.num .i16, .len .i32, .ext .sample_RootPacket 0, .cksum .i32 "CRC32"] _) = _
    rw [settleFields_other _ _ _ _ _ _ _ (by intro lt; simp),
      settleFields_len, settleFields_other _ _ _ _ _ _ _ (by intro lt; simp), cksum_settle]
    simp only [ext_settle _ _ _ _ _ _ h, settleField, imageField]
    rw [← hbd]
    simp only [ext_image _ _ _ _ hb.1, settleFields, countImage, PTy.size, List.append_assoc]
  · show imageFields ⟨.le, .i16, .i16⟩ [.num .i16, .len .i32, .ext .sample_RootPacket 0, .cksum .i32 "CRC32"] _ = _
    simp only [imageFields, ext_image _ _ _ body' hb.1, imageField, List.append_nil, List.append_assoc, bytes_int]

theorem settle_rc (svc : Registry) (pre : List Byte) (ty ver len : Num) (body : Val) (h : hasType .codec body = true) :
    ∃ body', settle svc pre (.obj .risk_RcBinary [.num ty, .num ver, .num len, body]) =
        .obj .risk_RcBinary [.num ty, .num ver, .num (.int (BitVec.ofNat 32 (image body').length)), body']
      ∧ image (.obj .risk_RcBinary [.num ty, .num ver, .num (.int (BitVec.ofNat 32 (image body').length)), body']) = ty.bytes .be ++ ver.bytes .be ++ toBytes .be 4 (image body').length ++ image body'
      ∧ blank body' = blank body := by
  have hb := settle_codec svc (pre ++ ty.bytes .be ++ ver.bytes .be ++ List.replicate 4 0) body h
  obtain ⟨body', hbd⟩ : ∃ x, x = settle svc (pre ++ ty.bytes .be ++ ver.bytes .be ++ List.replicate 4 0) body := ⟨_, rfl⟩
  rw [← hbd] at hb
  refine ⟨body', ?_, ?_, hb.2⟩
  · show Val.obj .risk_RcBinary (settleFields svc ⟨.be, .i32, .i32⟩ pre
      [.num .i32, .num .i32, .len .i32, .ext .risk_RcBinary 0] _) = _
    rw [settleFields_other _ _ _ _ _ _ _ (by intro lt; simp), settleFields_other _ _ _ _ _ _ _ (by intro lt; simp),
      settleFields_len, settleFields]
    simp only [ext_settle _ _ _ _ _ _ h, settleField, imageField]
    rw [← hbd]
    simp only [ext_image _ _ _ _ hb.1]
  · show imageFields ⟨.be, .i32, .i32⟩ [.num .i32, .num .i32, .len .i32, .ext .risk_RcBinary 0] _ = _
    simp only [imageFields, ext_image _ _ _ body' hb.1, imageField, List.append_nil, List.append_assoc, bytes_int]

end FinProto
