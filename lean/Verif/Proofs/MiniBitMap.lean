import Verif.Proofs.MiniChecksum
import Verif.Model.BitMap
/-
Helper lemmas: running the methods of the bit maps.
-/
namespace FinProto.Mini

variable {ms : Methods}

theorem assignVar_fld {conv : Ty → V → Except Exn V} {x : String} {v u w : V} {t : Ty} {st : St} (h : st.loc x = none) (hf : st.fld x = some u)
    (ht : u.ty = some t) (hc : conv t v = .ok w) : assignVar conv x v st = ({ st with fld := fun y => if y = x then some w else st.fld y }, .next) := by
  have hg : st.get x = some u := by simp [St.get, h, hf]
  simp [assignVar, hg, ht, hc, St.set, h]

theorem get_of_fld {st : St} {x : String} {v : V} (h : st.loc x = none) (hf : st.fld x = some v) : st.get x = some v := by simp [St.get, h, hf]

theorem narrow8 (v : BitVec 32) : (v.signExtend 64).setWidth 8 = v.setWidth 8 := by
  rw [← narrow v, BitVec.setWidth_setWidth_of_le _ (by decide), narrow]

theorem narrow16 (v : BitVec 32) : (v.signExtend 64).setWidth 16 = v.setWidth 16 := by
  rw [← narrow v, BitVec.setWidth_setWidth_of_le _ (by decide), narrow]

theorem castTo_byte (v : BitVec 32) : castTo .byte (.int v) = .ok (.byte (v.setWidth 8)) := by simp [castTo, V.long?, V.int?, narrow8]

theorem castTo_short (v : BitVec 32) : castTo .short (.int v) = .ok (.short (v.setWidth 16)) := by simp [castTo, V.long?, V.int?, narrow16]

theorem byte_int (v : BitVec 8) : (v.signExtend 32).setWidth 8 = v := by
  revert v; decide +kernel

theorem byte_or (v : BitVec 8) : (v.signExtend 32 ||| 0x80#32).setWidth 8 = v ||| 0x80#8 := by
  revert v; decide +kernel

theorem call_pos (m : Method) (hp : m.params = [(.int, "pos")]) (fld : String → Option V) (pos : BitVec 32) (out : WBuf) (b : RBuf) :
    call ms m [.int pos] fld out b = exec ms m.body ⟨fld, fun y => if y = "pos" then some (.int pos) else none, out, b⟩ := by
  simp only [call, hp, bindParams, assignTo, V.int?]

/-- `int bit = 1 << (k - pos);` -/
theorem exec_bit (k : Nat) (rest : List Stmt) (st : St) (pos : BitVec 32) (h : st.loc "pos" = some (.int pos)) :
    exec ms (.decl .int "bit" (some (.bin .shl (.dec 1) (.paren (.bin .sub (.dec k) (.var "pos"))))) :: rest) st =
      exec ms rest (st.setLoc "bit" (.int (shl1Int (BitVec.ofNat 32 k - pos)))) := by
  rw [exec_step (st' := st.setLoc "bit" (.int (shl1Int (BitVec.ofNat 32 k - pos))))]
  simp only [simple, eval, get_of_loc h, binary, V.int?, Op.int, assignTo, shl1Int]

/-- `long bit = 1L << (k - pos);` -/
theorem exec_bitLong (k : Nat) (rest : List Stmt) (st : St) (pos : BitVec 32) (h : st.loc "pos" = some (.int pos)) :
    exec ms (.decl .long "bit" (some (.bin .shl (.decL 1) (.paren (.bin .sub (.dec k) (.var "pos"))))) :: rest) st =
      exec ms rest (st.setLoc "bit" (.long (shl1Long (BitVec.ofNat 32 k - pos)))) := by
  rw [exec_step (st' := st.setLoc "bit" (.long (shl1Long (BitVec.ofNat 32 k - pos))))]
  simp [simple, eval, get_of_loc h, binary, V.int?, V.long?, Op.int, Op.isShift, Op.shiftLong, assignTo, shl1Long]

theorem posSt (fld : String → Option V) (pos : BitVec 32) (out : WBuf) (b : RBuf) (v : V) :
    (⟨fld, fun y => if y = "pos" then some (.int pos) else none, out, b⟩ : St).loc "pos" = some (.int pos) ∧
    ((⟨fld, fun y => if y = "pos" then some (.int pos) else none, out, b⟩ : St).setLoc "bit" v).loc "bit" = some v ∧
    ((⟨fld, fun y => if y = "pos" then some (.int pos) else none, out, b⟩ : St).setLoc "bit" v).loc "bits" = none ∧
    ((⟨fld, fun y => if y = "pos" then some (.int pos) else none, out, b⟩ : St)).loc "bits" = none := by
  simp [St.setLoc]

/-! ### set, clear, get -/

theorem exec_byteSet (fld : String → Option V) (bits : BitVec 8) (pos : BitVec 32) (out : WBuf) (b : RBuf) (hf : fld "bits" = some (.byte bits)) :
    ∃ st', call ms ByteBitMap.set [.int pos] fld out b = some (st', .next) ∧ st'.fld = withBits fld (.byte (FinProto.ByteBitMap.set bits pos)) ∧
      st'.out = out ∧ st'.inp = b := by
  rw [call_pos _ rfl]
  simp only [ByteBitMap.set]
  obtain ⟨h1, h2, h3, _⟩ := posSt fld pos out b (.int (shl1Int (BitVec.ofNat 32 7 - pos)))
  rw [exec_bit 7 _ _ pos h1]
  rw [exec_step (by
    simp only [simple, get_of_fld (v := .byte bits) h3 hf, eval, get_of_loc h2, binary, V.int?, Op.int]
    rw [assignVar_fld h3 hf rfl (castTo_byte _)]), exec_nil]
  exact ⟨_, rfl, rfl, rfl, rfl⟩

theorem exec_byteClear (fld : String → Option V) (bits : BitVec 8) (pos : BitVec 32) (out : WBuf) (b : RBuf) (hf : fld "bits" = some (.byte bits)) :
    ∃ st', call ms ByteBitMap.clear [.int pos] fld out b = some (st', .next) ∧ st'.fld = withBits fld (.byte (FinProto.ByteBitMap.clear bits pos)) ∧
      st'.out = out ∧ st'.inp = b := by
  rw [call_pos _ rfl]
  simp only [ByteBitMap.clear]
  obtain ⟨h1, h2, h3, _⟩ := posSt fld pos out b (.int (shl1Int (BitVec.ofNat 32 7 - pos)))
  rw [exec_bit 7 _ _ pos h1]
  rw [exec_step (by
    simp only [simple, get_of_fld (v := .byte bits) h3 hf, eval, get_of_loc h2, binary, V.int?, Op.int]
    rw [assignVar_fld h3 hf rfl (castTo_byte _)]), exec_nil]
  exact ⟨_, rfl, rfl, rfl, rfl⟩

theorem exec_byteGet (fld : String → Option V) (bits : BitVec 8) (pos : BitVec 32) (out : WBuf) (b : RBuf) (hf : fld "bits" = some (.byte bits)) :
    ∃ st', call ms ByteBitMap.get [.int pos] fld out b = some (st', .ret (.bool (FinProto.ByteBitMap.get bits pos))) ∧ st'.fld = fld ∧
      st'.out = out ∧ st'.inp = b := by
  rw [call_pos _ rfl]
  simp only [ByteBitMap.get]
  obtain ⟨h1, _, _, h4⟩ := posSt fld pos out b (.int 0)
  rw [exec_ret (v := .bool (FinProto.ByteBitMap.get bits pos)) (by
    simp only [eval, get_of_fld (v := .byte bits) h4 hf, get_of_loc h1, binary, V.int?, Op.int]; rfl)]
  exact ⟨_, rfl, rfl, rfl, rfl⟩

theorem exec_shortSet (fld : String → Option V) (bits : BitVec 16) (pos : BitVec 32) (out : WBuf) (b : RBuf) (hf : fld "bits" = some (.short bits)) :
    ∃ st', call ms ShortBitMap.set [.int pos] fld out b = some (st', .next) ∧ st'.fld = withBits fld (.short (FinProto.ShortBitMap.set bits pos)) ∧
      st'.out = out ∧ st'.inp = b := by
  rw [call_pos _ rfl]
  simp only [ShortBitMap.set]
  obtain ⟨h1, h2, h3, _⟩ := posSt fld pos out b (.int (shl1Int (BitVec.ofNat 32 15 - pos)))
  rw [exec_bit 15 _ _ pos h1]
  rw [exec_step (by
    simp only [simple, get_of_fld (v := .short bits) h3 hf, eval, get_of_loc h2, binary, V.int?, Op.int]
    rw [assignVar_fld h3 hf rfl (castTo_short _)]), exec_nil]
  exact ⟨_, rfl, rfl, rfl, rfl⟩

theorem exec_shortClear (fld : String → Option V) (bits : BitVec 16) (pos : BitVec 32) (out : WBuf) (b : RBuf) (hf : fld "bits" = some (.short bits)) :
    ∃ st', call ms ShortBitMap.clear [.int pos] fld out b = some (st', .next) ∧ st'.fld = withBits fld (.short (FinProto.ShortBitMap.clear bits pos)) ∧
      st'.out = out ∧ st'.inp = b := by
  rw [call_pos _ rfl]
  simp only [ShortBitMap.clear]
  obtain ⟨h1, h2, h3, _⟩ := posSt fld pos out b (.int (shl1Int (BitVec.ofNat 32 15 - pos)))
  rw [exec_bit 15 _ _ pos h1]
  rw [exec_step (by
    simp only [simple, get_of_fld (v := .short bits) h3 hf, eval, get_of_loc h2, binary, V.int?, Op.int]
    rw [assignVar_fld h3 hf rfl (castTo_short _)]), exec_nil]
  exact ⟨_, rfl, rfl, rfl, rfl⟩

theorem exec_shortGet (fld : String → Option V) (bits : BitVec 16) (pos : BitVec 32) (out : WBuf) (b : RBuf) (hf : fld "bits" = some (.short bits)) :
    ∃ st', call ms ShortBitMap.get [.int pos] fld out b = some (st', .ret (.bool (FinProto.ShortBitMap.get bits pos))) ∧ st'.fld = fld ∧
      st'.out = out ∧ st'.inp = b := by
  rw [call_pos _ rfl]
  simp only [ShortBitMap.get]
  obtain ⟨h1, _, _, h4⟩ := posSt fld pos out b (.int 0)
  rw [exec_ret (v := .bool (FinProto.ShortBitMap.get bits pos)) (by
    simp only [eval, get_of_fld (v := .short bits) h4 hf, get_of_loc h1, binary, V.int?, Op.int]; rfl)]
  exact ⟨_, rfl, rfl, rfl, rfl⟩

theorem exec_intSet (m : Method) (hm : m = IntBitMap.set ∨ m = IntBitMap.clear) (fld : String → Option V) (bits : BitVec 32) (pos : BitVec 32) (out : WBuf)
    (b : RBuf) (hf : fld "bits" = some (.int bits)) :
    ∃ st', call ms m [.int pos] fld out b = some (st', .next) ∧ st'.fld = withBits fld (.int (FinProto.IntBitMap.set bits pos)) ∧
      st'.out = out ∧ st'.inp = b := by
  have hm' : m = IntBitMap.set := by rcases hm with rfl | rfl <;> rfl
  subst hm'
  rw [call_pos _ rfl]
  simp only [IntBitMap.set]
  obtain ⟨h1, h2, h3, _⟩ := posSt fld pos out b (.int (shl1Int (BitVec.ofNat 32 31 - pos)))
  rw [exec_bit 31 _ _ pos h1]
  rw [exec_step (by
    simp only [simple, get_of_fld (v := .int bits) h3 hf, eval, get_of_loc h2, binary, V.int?, Op.int]
    rw [assignVar_fld h3 hf rfl (castTo_int _)]), exec_nil]
  exact ⟨_, rfl, rfl, rfl, rfl⟩

theorem exec_intGet (fld : String → Option V) (bits : BitVec 32) (pos : BitVec 32) (out : WBuf) (b : RBuf) (hf : fld "bits" = some (.int bits)) :
    ∃ st', call ms IntBitMap.get [.int pos] fld out b = some (st', .ret (.bool (FinProto.IntBitMap.get bits pos))) ∧ st'.fld = fld ∧
      st'.out = out ∧ st'.inp = b := by
  rw [call_pos _ rfl]
  simp only [IntBitMap.get]
  obtain ⟨h1, _, _, h4⟩ := posSt fld pos out b (.int 0)
  rw [exec_ret (v := .bool (FinProto.IntBitMap.get bits pos)) (by
    simp only [eval, get_of_fld (v := .int bits) h4 hf, get_of_loc h1, binary, V.int?, Op.int]; rfl)]
  exact ⟨_, rfl, rfl, rfl, rfl⟩

theorem exec_longSet (m : Method) (hm : m = LongBitMap.set ∨ m = LongBitMap.clear) (fld : String → Option V) (bits : BitVec 64) (pos : BitVec 32) (out : WBuf)
    (b : RBuf) (hf : fld "bits" = some (.long bits)) :
    ∃ st', call ms m [.int pos] fld out b = some (st', .next) ∧ st'.fld = withBits fld (.long (FinProto.LongBitMap.set bits pos)) ∧
      st'.out = out ∧ st'.inp = b := by
  have hm' : m = LongBitMap.set := by rcases hm with rfl | rfl <;> rfl
  subst hm'
  rw [call_pos _ rfl]
  simp only [LongBitMap.set]
  obtain ⟨h1, h2, h3, _⟩ := posSt fld pos out b (.long (shl1Long (BitVec.ofNat 32 63 - pos)))
  rw [exec_bitLong 63 _ _ pos h1]
  have hs : binary .or (.long bits) (.long (shl1Long (BitVec.ofNat 32 63 - pos))) = .ok (.long (bits ||| shl1Long (BitVec.ofNat 32 63 - pos))) := rfl
  rw [exec_step (by
    simp only [simple, get_of_fld (v := .long bits) h3 hf, eval, get_of_loc h2, hs]
    rw [assignVar_fld (t := .long) (w := .long (bits ||| shl1Long (BitVec.ofNat 32 63 - pos))) h3 hf rfl rfl]), exec_nil]
  exact ⟨_, rfl, rfl, rfl, rfl⟩

theorem exec_longGet (fld : String → Option V) (bits : BitVec 64) (pos : BitVec 32) (out : WBuf) (b : RBuf) (hf : fld "bits" = some (.long bits)) :
    ∃ st', call ms LongBitMap.get [.int pos] fld out b = some (st', .ret (.bool (FinProto.LongBitMap.get bits pos))) ∧ st'.fld = fld ∧
      st'.out = out ∧ st'.inp = b := by
  rw [call_pos _ rfl]
  simp only [LongBitMap.get]
  obtain ⟨h1, _, _, h4⟩ := posSt fld pos out b (.int 0)
  have hs1 : binary .sub (.int (BitVec.ofNat 32 63)) (.int pos) = .ok (.int (63#32 - pos)) := rfl
  have hs2 : binary .shl (.long (BitVec.ofNat 64 1)) (.int (63#32 - pos)) = .ok (.long (shl1Long (63#32 - pos))) := rfl
  have hs3 : binary .and (.long bits) (.long (shl1Long (63#32 - pos))) = .ok (.long (bits &&& shl1Long (63#32 - pos))) := rfl
  have hs4 : ∀ v, binary .ne (.long v) (.int (BitVec.ofNat 32 0)) = .ok (.bool (v != 0)) := by
    intro v
    simp [binary, V.int?, V.long?, Op.isShift, Op.long]
  rw [exec_ret (v := .bool (FinProto.LongBitMap.get bits pos)) (by
    simp only [eval, get_of_fld (v := .long bits) h4 hf, get_of_loc h1, hs1, hs2, hs3, hs4]; rfl)]
  exact ⟨_, rfl, rfl, rfl, rfl⟩

theorem exec_bitCount (k : Nat) (fld : String → Option V) (out : WBuf) (b : RBuf) :
    ∃ st', call ms ⟨[], [.ret (.dec k)]⟩ [] fld out b = some (st', .ret (.int (BitVec.ofNat 32 k))) ∧ st'.fld = fld ∧ st'.out = out ∧ st'.inp = b := by
  refine ⟨⟨fld, fun _ => none, out, b⟩, ?_, rfl, rfl, rfl⟩
  simp only [call, bindParams]
  exact exec_ret rfl

/-! ### write -/

theorem call_buf (m : Method) (hp : m.params = [(.buf, "buf")]) (fld : String → Option V) (out : WBuf) (b : RBuf) :
    call ms m [.buf] fld out b = exec ms m.body ⟨fld, fun y => if y = "buf" then some .buf else none, out, b⟩ := call_calc m hp fld out b

/-- `buf.writeByte(x)` for a `byte` variable. -/
theorem simple_writeByte {st : St} {x : String} {v : BitVec 8} (hb : st.get "buf" = some .buf) (hx : st.get x = some (.byte v)) :
    simple (.writeByte (.var "buf") (.var x)) st = some ({ st with out := (st.out.write [v]).1 }, ofErr (st.out.write [v]).2) := by
  simp only [simple, eval, hb, hx, V.int?, byte_int]
  rcases st.out.write [v] with ⟨b', _ | e⟩ <;> rfl

theorem exec_byteWrite (fld : String → Option V) (bits : BitVec 8) (out : WBuf) (b : RBuf) (hf : fld "bits" = some (.byte bits)) :
    ∃ st', call ms ByteBitMap.write [.buf] fld out b = some (st', ofErr (FinProto.ByteBitMap.write bits out).2) ∧ st'.fld = fld ∧
      st'.out = (FinProto.ByteBitMap.write bits out).1 ∧ st'.inp = b := by
  rw [call_buf _ rfl]
  simp only [ByteBitMap.write]
  rw [exec_simple (simple_writeByte (v := bits) (by simp [St.get]) (by simp [St.get, hf]))]
  unfold FinProto.ByteBitMap.write
  rcases hw : out.write [bits] with ⟨b', _ | e⟩
  · simp only [ofErr, andThen, exec_nil]
    exact ⟨_, rfl, rfl, rfl, rfl⟩
  · exact ⟨_, rfl, rfl, rfl, rfl⟩

theorem exec_shortWrite (fld : String → Option V) (bits : BitVec 16) (out : WBuf) (b : RBuf) (hf : fld "bits" = some (.short bits)) :
    ∃ st', call ms ShortBitMap.write [.buf] fld out b = some (st', ofErr (FinProto.ShortBitMap.write bits out).2) ∧ st'.fld = fld ∧
      st'.out = (FinProto.ShortBitMap.write bits out).1 ∧ st'.inp = b := by
  rw [call_buf _ rfl]
  simp only [ShortBitMap.write]
  generalize hst : (⟨fld, fun y => if y = "buf" then some .buf else none, out, b⟩ : St) = st
  have g1 : st.loc "buf" = some .buf := by rw [← hst]; simp
  have g2 : st.loc "bits" = none := by rw [← hst]; simp
  have g3 : st.fld = fld := by rw [← hst]
  have g4 : st.out = out := by rw [← hst]
  have g5 : st.inp = b := by rw [← hst]
  clear hst
  subst g3 g4 g5
  let hi0 : BitVec 8 := (((bits.signExtend 32).sshiftRight 8) &&& 0xFF#32).setWidth 8
  rw [exec_step (st' := st.setLoc "high" (.byte hi0)) (by
    simp only [simple, eval, get_of_fld (v := .short bits) g2 hf, binary, V.int?, Op.int, castTo_byte, assignTo]; rfl)]
  have k2 : (st.setLoc "high" (.byte hi0)).loc "bits" = none := by rw [loc_setLoc_ne (by decide)]; exact g2
  rw [exec_step (st' := (st.setLoc "high" (.byte hi0)).setLoc "low" (.byte (FinProto.ShortBitMap.low bits))) (by
    simp only [simple, eval, get_of_fld (v := .short bits) k2 hf, binary, V.int?, Op.int, castTo_byte, assignTo]; rfl)]
  have k3 : ((st.setLoc "high" (.byte hi0)).setLoc "low" (.byte (FinProto.ShortBitMap.low bits))).loc "high" = some (.byte hi0) := by
    rw [loc_setLoc_ne (by decide), loc_setLoc_same]
  rw [exec_step (st' := ((st.setLoc "high" (.byte hi0)).setLoc "low" (.byte (FinProto.ShortBitMap.low bits))).setLoc "high"
      (.byte (FinProto.ShortBitMap.high bits))) (by
    simp only [simple, get_of_loc k3, eval, binary, V.int?, Op.int]
    rw [assignVar_loc (t := .byte) k3 rfl (castTo_byte _), show BitVec.ofNat 32 128 = 0x80#32 from rfl, byte_or]
    rfl)]
  generalize hq : ((st.setLoc "high" (.byte hi0)).setLoc "low" (.byte (FinProto.ShortBitMap.low bits))).setLoc "high"
      (.byte (FinProto.ShortBitMap.high bits)) = q
  have q1 : q.loc "buf" = some .buf := by
    rw [← hq, loc_setLoc_ne (by decide), loc_setLoc_ne (by decide), loc_setLoc_ne (by decide)]; exact g1
  have q2 : q.loc "high" = some (.byte (FinProto.ShortBitMap.high bits)) := by rw [← hq, loc_setLoc_same]
  have q3 : q.loc "low" = some (.byte (FinProto.ShortBitMap.low bits)) := by rw [← hq, loc_setLoc_ne (by decide), loc_setLoc_same]
  have q4 : q.fld = st.fld ∧ q.out = st.out ∧ q.inp = st.inp := by rw [← hq]; exact ⟨rfl, rfl, rfl⟩
  clear hq
  rw [exec_simple (simple_writeByte (get_of_loc q1) (get_of_loc q2)), q4.2.1]
  unfold FinProto.ShortBitMap.write
  rcases hw : st.out.write [FinProto.ShortBitMap.high bits] with ⟨b', _ | e⟩
  · simp only [ofErr, andThen]
    rw [exec_simple (simple_writeByte (v := FinProto.ShortBitMap.low bits) (st := { q with out := b' }) (get_of_loc q1) (get_of_loc q3))]
    rcases b'.write [FinProto.ShortBitMap.low bits] with ⟨b2, _ | e⟩
    · simp only [andThen, exec_nil]
      exact ⟨_, rfl, q4.1, rfl, q4.2.2⟩
    · simp only [andThen]
      exact ⟨_, rfl, q4.1, rfl, q4.2.2⟩
  · exact ⟨_, rfl, q4.1, rfl, q4.2.2⟩

theorem dist4 : ∀ i < 4, ((BitVec.ofNat 32 24 - BitVec.ofNat 32 i * BitVec.ofNat 32 7) &&& 31#32).toNat = 24 - i * 7 := by decide

theorem dist8 : ∀ i < 8, ((BitVec.ofNat 32 49 - BitVec.ofNat 32 i * BitVec.ofNat 32 7) &&& 63#32).toNat = 49 - i * 7 := by decide

theorem exec_intWriteLoop (bits : BitVec 32) : ∀ (k i : Nat) (st : St), 4 - i = k → i ≤ 4 → st.loc "buf" = some .buf → st.loc "bits" = none →
    st.fld "bits" = some (.int bits) → st.loc "i" = some (.int (BitVec.ofNat 32 i)) →
    ∃ st', exec ms [.while (.bin .lt (.var "i") (.dec 4))
        ([.decl .byte "b" (some (.cast .byte (.paren (.bin .and
        (.paren (.bin .shr (.var "bits") (.paren (.bin .sub (.dec 24) (.bin .mul (.var "i") (.dec 7)))))) (.hex 0x7F))))),
      .when (.bin .lt (.var "i") (.dec 3)) (.opAssign "b" .or (.hex 0x80)),
      .writeByte (.var "buf") (.var "b")] ++ [.incr "i"])] st = some (st', ofErr (FinProto.IntBitMap.writeLoop bits k i st.out).2) ∧ st'.fld = st.fld ∧
      st'.out = (FinProto.IntBitMap.writeLoop bits k i st.out).1 ∧ st'.inp = st.inp
  | 0, i, st, hk, hi, h1, h2, h3, h4 => by
    have : i = 4 := by omega
    subst this
    rw [exec_while (st' := st) (v := false) (by simp [eval, get_of_loc h4, binary, V.int?, Op.int])]
    exact ⟨st, exec_nil st, rfl, rfl, rfl⟩
  | k + 1, i, st, hk, hi, h1, h2, h3, h4 => by
    have hlt : (BitVec.ofNat 32 i).toInt < 4 := by rw [toInt_ofNat32 (by omega)]; omega
    have hc : eval (.bin .lt (.var "i") (.dec 4)) st = (st, .ok (.bool true)) := by
      simp only [eval, get_of_loc h4, binary, V.int?, Op.int, show (BitVec.ofNat 32 4).toInt = 4 from rfl, hlt, decide_true]
    rw [exec_while hc, if_pos rfl]
    simp only [List.cons_append, List.nil_append]
    let b0 : BitVec 8 := ((bits.sshiftRight (24 - i * 7)) &&& 0x7F#32).setWidth 8
    rw [exec_step (st' := st.setLoc "b" (.byte b0)) (by
      simp only [simple, eval, get_of_fld h2 h3, get_of_loc h4, binary, V.int?, Op.int, castTo_byte, assignTo]
      rw [dist4 i (by omega)])]
    have g4 : (st.setLoc "b" (.byte b0)).loc "i" = some (.int (BitVec.ofNat 32 i)) := by rw [loc_setLoc_ne (by decide)]; exact h4
    have hc3 : eval (.bin .lt (.var "i") (.dec 3)) (st.setLoc "b" (.byte b0)) = (st.setLoc "b" (.byte b0), .ok (.bool (decide (i < 3)))) := by
      simp only [eval, get_of_loc g4, binary, V.int?, Op.int, show (BitVec.ofNat 32 3).toInt = 3 from rfl]
      rw [toInt_ofNat32 (by omega)]
      congr 4
      exact propext (by omega)
    have hif : exec ms (.when (.bin .lt (.var "i") (.dec 3)) (.opAssign "b" .or (.hex 0x80)) :: [.writeByte (.var "buf") (.var "b"), .incr "i"])
        (st.setLoc "b" (.byte b0)) = exec ms [.writeByte (.var "buf") (.var "b"), .incr "i"]
          (if i < 3 then (st.setLoc "b" (.byte b0)).setLoc "b" (.byte (FinProto.IntBitMap.outByte bits i)) else st.setLoc "b" (.byte b0)) := by
      rw [exec_when, exec_ite hc3]
      by_cases h : i < 3
      · rw [if_pos (by simpa using h), if_pos h]
        rw [exec_step (st' := (st.setLoc "b" (.byte b0)).setLoc "b" (.byte (FinProto.IntBitMap.outByte bits i))) (by
          have kb : (st.setLoc "b" (.byte b0)).loc "b" = some (.byte b0) := loc_setLoc_same
          simp only [simple, get_of_loc kb, eval, binary, V.int?, Op.int]
          rw [assignVar_loc (t := .byte) kb rfl (castTo_byte _), show BitVec.ofNat 32 128 = 0x80#32 from rfl, byte_or]
          simp only [FinProto.IntBitMap.outByte, h, if_true, b0]), exec_nil]
        rfl
      · rw [if_neg (by simpa using h), if_neg h, exec_nil]
        rfl
    rw [hif]
    generalize hq : (if i < 3 then (st.setLoc "b" (.byte b0)).setLoc "b" (.byte (FinProto.IntBitMap.outByte bits i)) else st.setLoc "b" (.byte b0)) = q
    have q0 : q.loc "b" = some (.byte (FinProto.IntBitMap.outByte bits i)) := by
      rw [← hq]
      split <;> rename_i h
      · rw [loc_setLoc_same]
      · rw [loc_setLoc_same]; simp only [FinProto.IntBitMap.outByte, h, if_false, b0]
    have qn : ∀ x, x ≠ "b" → q.loc x = st.loc x := by
      intro x hx
      rw [← hq]
      split
      · rw [loc_setLoc_ne hx, loc_setLoc_ne hx]
      · rw [loc_setLoc_ne hx]
    have q4 : q.fld = st.fld ∧ q.out = st.out ∧ q.inp = st.inp := by
      rw [← hq]; split <;> exact ⟨rfl, rfl, rfl⟩
    clear hq hif hc3 g4
    rw [exec_simple (simple_writeByte (get_of_loc (by rw [qn _ (by decide)]; exact h1)) (get_of_loc q0)), q4.2.1]
    rw [FinProto.IntBitMap.writeLoop]
    rcases hw : st.out.write [FinProto.IntBitMap.outByte bits i] with ⟨b', _ | e⟩
    · simp only [ofErr, andThen]
      have hst : ∀ q' : St, q'.loc = q.loc → simple (.incr "i") q' = some (q'.setLoc "i" (.int (BitVec.ofNat 32 i + 1)), .next) :=
        fun q' h => simple_incr (by rw [h, qn _ (by decide)]; exact h4)
      rw [exec_step (hst { q with out := b' } rfl), exec_nil, ofNat_add_one]
      simp only []
      obtain ⟨st', a1, a2, a3, a4⟩ := exec_intWriteLoop bits k (i + 1) (({ q with out := b' } : St).setLoc "i" (.int (BitVec.ofNat 32 (i + 1)))) (by omega) (by omega)
        (by rw [loc_setLoc_ne (by decide)]; show q.loc _ = _; rw [qn _ (by decide)]; exact h1)
        (by rw [loc_setLoc_ne (by decide)]; show q.loc _ = _; rw [qn _ (by decide)]; exact h2)
        (by show q.fld _ = _; rw [q4.1]; exact h3) loc_setLoc_same
      exact ⟨st', a1, by rw [a2]; exact q4.1, a3, by rw [a4]; exact q4.2.2⟩
    · exact ⟨_, rfl, q4.1, rfl, q4.2.2⟩

theorem exec_intWrite (fld : String → Option V) (bits : BitVec 32) (out : WBuf) (b : RBuf) (hf : fld "bits" = some (.int bits)) :
    ∃ st', call ms IntBitMap.write [.buf] fld out b = some (st', ofErr (FinProto.IntBitMap.write bits out).2) ∧ st'.fld = fld ∧
      st'.out = (FinProto.IntBitMap.write bits out).1 ∧ st'.inp = b := by
  rw [call_buf _ rfl]
  simp only [IntBitMap.write]
  rw [exec_for, exec_step (st' := (⟨fld, fun y => if y = "buf" then some .buf else none, out, b⟩ : St).setLoc "i" (.int (BitVec.ofNat 32 0)))
    (by simp only [simple, eval, assignTo, V.int?])]
  exact exec_intWriteLoop bits 4 0 ((⟨fld, fun y => if y = "buf" then some .buf else none, out, b⟩ : St).setLoc "i" (.int (BitVec.ofNat 32 0))) rfl (by omega)
    (by simp [St.setLoc]) (by simp [St.setLoc]) hf loc_setLoc_same

theorem castTo_byteLong (v : BitVec 64) : castTo .byte (.long v) = .ok (.byte (v.setWidth 8)) := rfl

theorem exec_longWriteLoop (bits : BitVec 64) : ∀ (k i : Nat) (st : St), 8 - i = k → i ≤ 8 → st.loc "buf" = some .buf →
    st.loc "val" = some (.long bits) → st.loc "i" = some (.int (BitVec.ofNat 32 i)) →
    ∃ st', exec ms [.while (.bin .lt (.var "i") (.dec 8))
        ([.decl .byte "b" (some (.cast .byte (.paren (.bin .and
        (.paren (.bin .shr (.var "val") (.paren (.bin .sub (.dec 49) (.bin .mul (.var "i") (.dec 7)))))) (.hex 0x7F))))),
      .when (.bin .lt (.var "i") (.dec 7)) (.opAssign "b" .or (.hex 0x80)),
      .writeByte (.var "buf") (.var "b")] ++ [.incr "i"])] st = some (st', ofErr (FinProto.LongBitMap.writeLoop bits k i st.out).2) ∧ st'.fld = st.fld ∧
      st'.out = (FinProto.LongBitMap.writeLoop bits k i st.out).1 ∧ st'.inp = st.inp
  | 0, i, st, hk, hi, h1, h3, h4 => by
    have : i = 8 := by omega
    subst this
    rw [exec_while (st' := st) (v := false) (by simp [eval, get_of_loc h4, binary, V.int?, Op.int])]
    exact ⟨st, exec_nil st, rfl, rfl, rfl⟩
  | k + 1, i, st, hk, hi, h1, h3, h4 => by
    have hlt : (BitVec.ofNat 32 i).toInt < 8 := by rw [toInt_ofNat32 (by omega)]; omega
    have hc : eval (.bin .lt (.var "i") (.dec 8)) st = (st, .ok (.bool true)) := by
      simp only [eval, get_of_loc h4, binary, V.int?, Op.int, show (BitVec.ofNat 32 8).toInt = 8 from rfl, hlt, decide_true]
    rw [exec_while hc, if_pos rfl]
    simp only [List.cons_append, List.nil_append]
    let b0 : BitVec 8 := ((bits.sshiftRight (49 - i * 7)) &&& 0x7F#64).setWidth 8
    rw [exec_step (st' := st.setLoc "b" (.byte b0)) (by
      have s1 : binary .mul (.int (BitVec.ofNat 32 i)) (.int (BitVec.ofNat 32 7)) = .ok (.int (BitVec.ofNat 32 i * BitVec.ofNat 32 7)) := rfl
      have s2 : binary .sub (.int (BitVec.ofNat 32 49)) (.int (BitVec.ofNat 32 i * BitVec.ofNat 32 7)) =
        .ok (.int (BitVec.ofNat 32 49 - BitVec.ofNat 32 i * BitVec.ofNat 32 7)) := rfl
      have s3 : binary .shr (.long bits) (.int (BitVec.ofNat 32 49 - BitVec.ofNat 32 i * BitVec.ofNat 32 7)) = .ok (.long (bits.sshiftRight (49 - i * 7))) := by
        rw [← dist8 i (by omega)]; rfl
      have s4 : binary .and (.long (bits.sshiftRight (49 - i * 7))) (.int (BitVec.ofNat 32 127)) = .ok (.long (bits.sshiftRight (49 - i * 7) &&& 0x7F#64)) := rfl
      simp only [simple, eval, get_of_loc h3, get_of_loc h4, s1, s2, s3, s4, castTo_byteLong, assignTo]
      rfl)]
    have g4 : (st.setLoc "b" (.byte b0)).loc "i" = some (.int (BitVec.ofNat 32 i)) := by rw [loc_setLoc_ne (by decide)]; exact h4
    have hc3 : eval (.bin .lt (.var "i") (.dec 7)) (st.setLoc "b" (.byte b0)) = (st.setLoc "b" (.byte b0), .ok (.bool (decide (i < 7)))) := by
      simp only [eval, get_of_loc g4, binary, V.int?, Op.int, show (BitVec.ofNat 32 7).toInt = 7 from rfl]
      rw [toInt_ofNat32 (by omega)]
      congr 4
      exact propext (by omega)
    have hif : exec ms (.when (.bin .lt (.var "i") (.dec 7)) (.opAssign "b" .or (.hex 0x80)) :: [.writeByte (.var "buf") (.var "b"), .incr "i"])
        (st.setLoc "b" (.byte b0)) = exec ms [.writeByte (.var "buf") (.var "b"), .incr "i"]
          (if i < 7 then (st.setLoc "b" (.byte b0)).setLoc "b" (.byte (FinProto.LongBitMap.outByte bits i)) else st.setLoc "b" (.byte b0)) := by
      rw [exec_when, exec_ite hc3]
      by_cases h : i < 7
      · rw [if_pos (by simpa using h), if_pos h]
        rw [exec_step (st' := (st.setLoc "b" (.byte b0)).setLoc "b" (.byte (FinProto.LongBitMap.outByte bits i))) (by
          have kb : (st.setLoc "b" (.byte b0)).loc "b" = some (.byte b0) := loc_setLoc_same
          simp only [simple, get_of_loc kb, eval, binary, V.int?, Op.int]
          rw [assignVar_loc (t := .byte) kb rfl (castTo_byte _), show BitVec.ofNat 32 128 = 0x80#32 from rfl, byte_or]
          simp only [FinProto.LongBitMap.outByte, h, if_true, b0]), exec_nil]
        rfl
      · rw [if_neg (by simpa using h), if_neg h, exec_nil]
        rfl
    rw [hif]
    generalize hq : (if i < 7 then (st.setLoc "b" (.byte b0)).setLoc "b" (.byte (FinProto.LongBitMap.outByte bits i)) else st.setLoc "b" (.byte b0)) = q
    have q0 : q.loc "b" = some (.byte (FinProto.LongBitMap.outByte bits i)) := by
      rw [← hq]
      split <;> rename_i h
      · rw [loc_setLoc_same]
      · rw [loc_setLoc_same]; simp only [FinProto.LongBitMap.outByte, h, if_false, b0]
    have qn : ∀ x, x ≠ "b" → q.loc x = st.loc x := by
      intro x hx
      rw [← hq]
      split
      · rw [loc_setLoc_ne hx, loc_setLoc_ne hx]
      · rw [loc_setLoc_ne hx]
    have q4 : q.fld = st.fld ∧ q.out = st.out ∧ q.inp = st.inp := by
      rw [← hq]; split <;> exact ⟨rfl, rfl, rfl⟩
    clear hq hif hc3 g4
    rw [exec_simple (simple_writeByte (get_of_loc (by rw [qn _ (by decide)]; exact h1)) (get_of_loc q0)), q4.2.1]
    rw [FinProto.LongBitMap.writeLoop]
    rcases hw : st.out.write [FinProto.LongBitMap.outByte bits i] with ⟨b', _ | e⟩
    · simp only [ofErr, andThen]
      have hst : ∀ q' : St, q'.loc = q.loc → simple (.incr "i") q' = some (q'.setLoc "i" (.int (BitVec.ofNat 32 i + 1)), .next) :=
        fun q' h => simple_incr (by rw [h, qn _ (by decide)]; exact h4)
      rw [exec_step (hst { q with out := b' } rfl), exec_nil, ofNat_add_one]
      simp only []
      obtain ⟨st', a1, a2, a3, a4⟩ := exec_longWriteLoop bits k (i + 1) (({ q with out := b' } : St).setLoc "i" (.int (BitVec.ofNat 32 (i + 1)))) (by omega) (by omega)
        (by rw [loc_setLoc_ne (by decide)]; show q.loc _ = _; rw [qn _ (by decide)]; exact h1)
        (by rw [loc_setLoc_ne (by decide)]; show q.loc _ = _; rw [qn _ (by decide)]; exact h3) loc_setLoc_same
      exact ⟨st', a1, by rw [a2]; exact q4.1, a3, by rw [a4]; exact q4.2.2⟩
    · exact ⟨_, rfl, q4.1, rfl, q4.2.2⟩

theorem exec_longWrite (fld : String → Option V) (bits : BitVec 64) (out : WBuf) (b : RBuf) (hf : fld "bits" = some (.long bits)) :
    ∃ st', call ms LongBitMap.write [.buf] fld out b = some (st', ofErr (FinProto.LongBitMap.write bits out).2) ∧ st'.fld = fld ∧
      st'.out = (FinProto.LongBitMap.write bits out).1 ∧ st'.inp = b := by
  rw [call_buf _ rfl]
  simp only [LongBitMap.write]
  generalize hst : (⟨fld, fun y => if y = "buf" then some .buf else none, out, b⟩ : St) = st
  have g1 : st.loc "buf" = some .buf := by rw [← hst]; simp
  have g2 : st.loc "bits" = none := by rw [← hst]; simp
  have g3 : st.fld = fld := by rw [← hst]
  have g4 : st.out = out := by rw [← hst]
  have g5 : st.inp = b := by rw [← hst]
  clear hst
  subst g3 g4 g5
  rw [exec_step (st' := st.setLoc "val" (.long bits)) (by simp only [simple, eval, get_of_fld g2 hf, assignTo, V.long?]),
    exec_for, exec_step (st' := (st.setLoc "val" (.long bits)).setLoc "i" (.int (BitVec.ofNat 32 0))) (by simp only [simple, eval, assignTo, V.int?])]
  exact exec_longWriteLoop bits 8 0 ((st.setLoc "val" (.long bits)).setLoc "i" (.int (BitVec.ofNat 32 0))) rfl (by omega)
    (by rw [loc_setLoc_ne (by decide), loc_setLoc_ne (by decide)]; exact g1) (by rw [loc_setLoc_ne (by decide), loc_setLoc_same]) loc_setLoc_same

/-! ### read -/

theorem eval_readByte {st : St} (h : st.loc "buf" = some .buf) :
    eval (.readByte (.var "buf")) st = ({ st with inp := (st.inp.readNum .be .i8).1 },
      match (st.inp.readNum .be .i8).2 with | .ok n => .ok (.byte (n.bits.setWidth 8)) | .error e => .error (ofJErr e)) := by
  simp only [eval, get_of_loc h]
  rcases st.inp.readNum .be .i8 with ⟨b, e | n⟩ <;> rfl

theorem exec_byteRead (fld : String → Option V) (bits : BitVec 8) (out : WBuf) (b : RBuf) (hf : fld "bits" = some (.byte bits)) :
    ∃ st', call ms ByteBitMap.read [.buf] fld out b = some (st', ofErr (FinProto.ByteBitMap.read bits b).2.2) ∧
      st'.fld "bits" = some (.byte (FinProto.ByteBitMap.read bits b).1) ∧ (∀ x, x ≠ "bits" → st'.fld x = fld x) ∧
      st'.out = out ∧ st'.inp = (FinProto.ByteBitMap.read bits b).2.1 := by
  rw [call_buf _ rfl]
  simp only [ByteBitMap.read]
  generalize hst : (⟨fld, fun y => if y = "buf" then some .buf else none, out, b⟩ : St) = st
  have g1 : st.loc "buf" = some .buf := by rw [← hst]; simp
  have g2 : st.loc "bits" = none := by rw [← hst]; simp
  have g3 : st.fld = fld := by rw [← hst]
  have g4 : st.out = out := by rw [← hst]
  have g5 : st.inp = b := by rw [← hst]
  clear hst
  subst g3 g4 g5
  have hev := eval_readByte g1
  unfold FinProto.ByteBitMap.read
  rcases hr : st.inp.readNum .be .i8 with ⟨b', e | n⟩
  · rw [hr] at hev
    rw [exec_throw (st' := { st with inp := b' }) (e := ofJErr e) (by simp only [simple, hev])]
    exact ⟨_, rfl, hf, fun _ _ => rfl, rfl, rfl⟩
  · rw [hr] at hev
    rw [exec_step (st' := { st with inp := b', fld := fun y => if y = "bits" then some (.byte (n.bits.setWidth 8)) else st.fld y }) (by
      simp only [simple, hev]
      rw [assignVar_fld (st := { st with inp := b' }) (t := .byte) (u := .byte bits) (w := .byte (n.bits.setWidth 8)) g2 hf rfl rfl]), exec_nil]
    exact ⟨_, rfl, by simp, fun x hx => by simp [hx], rfl, rfl⟩

theorem exec_shortRead (fld : String → Option V) (bits : BitVec 16) (out : WBuf) (b : RBuf) (hf : fld "bits" = some (.short bits)) :
    ∃ st', call ms ShortBitMap.read [.buf] fld out b = some (st', ofErr (FinProto.ShortBitMap.read bits b).2.2) ∧
      st'.fld "bits" = some (.short (FinProto.ShortBitMap.read bits b).1) ∧ (∀ x, x ≠ "bits" → st'.fld x = fld x) ∧
      st'.out = out ∧ st'.inp = (FinProto.ShortBitMap.read bits b).2.1 := by
  rw [call_buf _ rfl]
  simp only [ShortBitMap.read]
  generalize hst : (⟨fld, fun y => if y = "buf" then some .buf else none, out, b⟩ : St) = st
  have g1 : st.loc "buf" = some .buf := by rw [← hst]; simp
  have g2 : st.loc "bits" = none := by rw [← hst]; simp
  have g3 : st.fld = fld := by rw [← hst]
  have g4 : st.out = out := by rw [← hst]
  have g5 : st.inp = b := by rw [← hst]
  clear hst
  subst g3 g4 g5
  have hev := eval_readByte g1
  unfold FinProto.ShortBitMap.read
  rcases hr : st.inp.readNum .be .i8 with ⟨b', e | n⟩
  · rw [hr] at hev
    rw [exec_throw (st' := { st with inp := b' }) (e := ofJErr e) (by simp only [simple, hev])]
    exact ⟨_, rfl, hf, fun _ _ => rfl, rfl, rfl⟩
  · rw [hr] at hev
    rw [exec_step (st' := ({ st with inp := b' } : St).setLoc "b1" (.byte (n.bits.setWidth 8))) (by simp only [simple, hev, assignTo])]
    have k1 : (({ st with inp := b' } : St).setLoc "b1" (.byte (n.bits.setWidth 8))).loc "buf" = some .buf := by rw [loc_setLoc_ne (by decide)]; exact g1
    have k2 : (({ st with inp := b' } : St).setLoc "b1" (.byte (n.bits.setWidth 8))).loc "bits" = none := by rw [loc_setLoc_ne (by decide)]; exact g2
    have hev2 := eval_readByte k1
    have k3 : (({ st with inp := b' } : St).setLoc "b1" (.byte (n.bits.setWidth 8))).inp = b' := rfl
    rw [k3] at hev2
    dsimp only
    rcases hr2 : b'.readNum .be .i8 with ⟨b2, e | n2⟩
    · rw [hr2] at hev2
      rw [exec_throw (st' := { ({ st with inp := b' } : St).setLoc "b1" (.byte (n.bits.setWidth 8)) with inp := b2 }) (e := ofJErr e) (by simp only [simple, hev2])]
      exact ⟨_, rfl, hf, fun _ _ => rfl, rfl, rfl⟩
    · rw [hr2] at hev2
      rw [exec_step (st' := ({ ({ st with inp := b' } : St).setLoc "b1" (.byte (n.bits.setWidth 8)) with inp := b2 } : St).setLoc "b2" (.byte (n2.bits.setWidth 8)))
        (by simp only [simple, hev2, assignTo])]
      generalize hq : ({ ({ st with inp := b' } : St).setLoc "b1" (.byte (n.bits.setWidth 8)) with inp := b2 } : St).setLoc "b2" (.byte (n2.bits.setWidth 8)) = q
      have q1 : q.loc "b1" = some (.byte (n.bits.setWidth 8)) := by rw [← hq]; simp [St.setLoc]
      have q2 : q.loc "b2" = some (.byte (n2.bits.setWidth 8)) := by rw [← hq]; exact loc_setLoc_same
      have q3 : q.loc "bits" = none := by rw [← hq, loc_setLoc_ne (by decide)]; exact k2
      have q4 : q.fld = st.fld ∧ q.out = st.out ∧ q.inp = b2 := by rw [← hq]; exact ⟨rfl, rfl, rfl⟩
      clear hq
      rw [exec_step (st' := { q with fld := fun y => if y = "bits" then some (.short (FinProto.ShortBitMap.combine (n.bits.setWidth 8) (n2.bits.setWidth 8))) else q.fld y }) (by
        simp only [simple, eval, get_of_loc q1, get_of_loc q2, binary, V.int?, Op.int, castTo_short]
        rw [assignVar_fld (t := .short) (u := .short bits) q3 (by rw [q4.1]; exact hf) rfl (by rfl)]
        rfl), exec_nil]
      exact ⟨_, rfl, by simp, fun x hx => by simp [hx, q4.1], q4.2.1, q4.2.2⟩

theorem readNum_i8 {b b' : RBuf} {n : Num} (h : b.readNum .be .i8 = (b', .ok n)) :
    (n.bits.setWidth 8 : BitVec 8).signExtend 32 = n.bits.signExtend 32 ∧ b'.rd = b.rd + 1 ∧ b'.data = b.data ∧ b.rd + 1 ≤ b.data.length := by
  unfold RBuf.readNum at h
  split at h
  · rename_i hle
    simp only [Prod.mk.injEq, Except.ok.injEq] at h
    obtain ⟨rfl, rfl⟩ := h
    refine ⟨?_, rfl, rfl, hle⟩
    have : ∀ v : BitVec 8, (v.setWidth 8).signExtend 32 = v.signExtend 32 := by decide +kernel
    exact this _
  · simp at h

theorem exec_intReadLoop (fld0 : String → Option V) (out0 : WBuf) : ∀ (fuel : Nat) (bits shift : BitVec 32) (b : RBuf) (st : St), b.data.length - b.rd < fuel →
    st.loc "buf" = some .buf → st.loc "bits" = none → (∃ v, st.loc "cont" = some (.bool v)) → st.loc "shift" = some (.int shift) →
    st.fld "bits" = some (.int bits) → (∀ x, x ≠ "bits" → st.fld x = fld0 x) → st.out = out0 → st.inp = b →
    ∃ st', exec ms [.doWhile
      [.decl .byte "b" (some (.readByte (.var "buf"))),
       .assign "cont" (.bin .ne (.paren (.bin .and (.var "b") (.hex 0x80))) (.dec 0)),
       .opAssign "bits" .or (.bin .shl (.paren (.bin .and (.var "b") (.hex 0x7F))) (.var "shift")),
       .opAssign "shift" .add (.dec 7)]
      (.var "cont")] st = some (st', ofErr (FinProto.IntBitMap.readLoop fuel bits shift b).2.2) ∧
      st'.fld "bits" = some (.int (FinProto.IntBitMap.readLoop fuel bits shift b).1) ∧ (∀ x, x ≠ "bits" → st'.fld x = fld0 x) ∧
      st'.out = out0 ∧ st'.inp = (FinProto.IntBitMap.readLoop fuel bits shift b).2.1
  | 0, _, _, _, _, hfuel, _, _, _, _, _, _, _, _ => by omega
  | fuel + 1, bits, shift, b, st, hfuel, h1, h2, ⟨cv, h3⟩, h4, h5, h6, h7, h8 => by
    subst h8
    rw [exec_doWhile]
    have hev := eval_readByte h1
    rw [FinProto.IntBitMap.readLoop]
    rcases hr : st.inp.readNum .be .i8 with ⟨b', e | n⟩
    · rw [hr] at hev
      rw [exec_throw (st' := { st with inp := b' }) (e := ofJErr e) (by simp only [simple, hev])]
      exact ⟨_, rfl, h5, h6, h7, rfl⟩
    · rw [hr] at hev
      obtain ⟨hn, hrd, hdata, hle⟩ := readNum_i8 hr
      rw [exec_step (st' := ({ st with inp := b' } : St).setLoc "b" (.byte (n.bits.setWidth 8))) (by simp only [simple, hev, assignTo])]
      generalize hq : ({ st with inp := b' } : St).setLoc "b" (.byte (n.bits.setWidth 8)) = q
      have q0 : q.loc "b" = some (.byte (n.bits.setWidth 8)) := by rw [← hq]; exact loc_setLoc_same
      have qn : ∀ x, x ≠ "b" → q.loc x = st.loc x := by intro x hx; rw [← hq, loc_setLoc_ne hx]
      have q4 : q.fld = st.fld ∧ q.out = st.out ∧ q.inp = b' := by rw [← hq]; exact ⟨rfl, rfl, rfl⟩
      clear hq
      dsimp only
      generalize hx : n.bits.signExtend 32 = x at hn ⊢
      have hcont : eval (.bin .ne (.paren (.bin .and (.var "b") (.hex 0x80))) (.dec 0)) q = (q, .ok (.bool (x &&& 0x80#32 != 0#32))) := by
        simp only [eval, get_of_loc q0, binary, V.int?, Op.int, hn]
      have qc : q.loc "cont" = some (.bool cv) := by rw [qn _ (by decide)]; exact h3
      rw [exec_step (st' := q.setLoc "cont" (.bool (x &&& 0x80#32 != 0#32))) (by
        simp only [simple, hcont]
        rw [assignVar_loc (t := .boolean) qc rfl (by rfl)])]
      generalize hr0 : q.setLoc "cont" (.bool (x &&& 0x80#32 != 0#32)) = r
      have r0 : r.loc "b" = some (.byte (n.bits.setWidth 8)) := by rw [← hr0, loc_setLoc_ne (by decide)]; exact q0
      have rc : r.loc "cont" = some (.bool (x &&& 0x80#32 != 0#32)) := by rw [← hr0, loc_setLoc_same]
      have rn : ∀ y, y ≠ "b" → y ≠ "cont" → r.loc y = st.loc y := by intro y hy hy'; rw [← hr0, loc_setLoc_ne hy', qn y hy]
      have r4 : r.fld = st.fld ∧ r.out = st.out ∧ r.inp = b' := by rw [← hr0]; exact q4
      clear hr0 q0 qn q4 hcont qc
      have rs : r.loc "shift" = some (.int shift) := by rw [rn _ (by decide) (by decide)]; exact h4
      have rb : r.loc "bits" = none := by rw [rn _ (by decide) (by decide)]; exact h2
      have rf : r.fld "bits" = some (.int bits) := by rw [r4.1]; exact h5
      rw [exec_step (st' := { r with fld := fun y => if y = "bits" then some (.int (bits ||| ((x &&& 0x7F#32) <<< (shift &&& 31#32).toNat))) else r.fld y }) (by
        simp only [simple, get_of_fld rb rf, eval, get_of_loc r0, get_of_loc rs, binary, V.int?, Op.int, hn]
        rw [assignVar_fld rb rf rfl (castTo_int _)])]
      have hsh : ∀ r' : St, r'.loc = r.loc → simple (.opAssign "shift" .add (.dec 7)) r' = some (r'.setLoc "shift" (.int (shift + 7)), .next) := by
        intro r' h
        have hs : r'.loc "shift" = some (.int shift) := by rw [h]; exact rs
        simp only [simple, get_of_loc hs, eval, binary, V.int?, Op.int]
        rw [assignVar_loc hs rfl (castTo_int _)]
        rfl
      rw [exec_step (hsh { r with fld := fun y => if y = "bits" then some (.int (bits ||| ((x &&& 0x7F#32) <<< (shift &&& 31#32).toNat))) else r.fld y } rfl), exec_nil]
      simp only [andThen]
      generalize hw : ({ r with fld := fun y => if y = "bits" then some (.int (bits ||| ((x &&& 0x7F#32) <<< (shift &&& 31#32).toNat))) else r.fld y } : St).setLoc "shift"
        (.int (shift + 7)) = w
      have w1 : w.loc "cont" = some (.bool (x &&& 0x80#32 != 0#32)) := by rw [← hw, loc_setLoc_ne (by decide)]; exact rc
      have w2 : w.loc "shift" = some (.int (shift + 7)) := by rw [← hw, loc_setLoc_same]
      have wn : ∀ y, y ≠ "b" → y ≠ "cont" → y ≠ "shift" → w.loc y = st.loc y := by
        intro y hy hy' hy''; rw [← hw, loc_setLoc_ne hy'']; exact rn y hy hy'
      have w3 : w.fld "bits" = some (.int (bits ||| ((x &&& 0x7F#32) <<< (shift &&& 31#32).toNat))) := by rw [← hw]; simp [St.setLoc]
      have w4 : ∀ y, y ≠ "bits" → w.fld y = fld0 y := by
        intro y hy; rw [← hw]; simp only [St.setLoc, hy, if_false, r4.1]; exact h6 y hy
      have w5 : w.out = out0 ∧ w.inp = b' := by rw [← hw]; exact ⟨by show r.out = _; rw [r4.2.1, h7], r4.2.2⟩
      clear hw
      rw [exec_ite (st' := w) (v := (x &&& 0x80#32 != 0#32)) (by simp only [eval, get_of_loc w1])]
      by_cases hc : x &&& 0x80#32 = 0#32
      · rw [if_neg (by simpa using hc), if_neg (by simpa using hc), exec_nil]
        simp only [andThen, exec_nil]
        exact ⟨w, rfl, w3, w4, w5.1, w5.2⟩
      · rw [if_pos (by simpa using hc), if_pos (by simpa using hc)]
        obtain ⟨st', a1, a2, a3, a4, a5⟩ := exec_intReadLoop fld0 out0 fuel (bits ||| ((x &&& 0x7F#32) <<< (shift &&& 31#32).toNat)) (shift + 7) b' w
          (by rw [hrd, hdata]; omega) (by rw [wn _ (by decide) (by decide) (by decide)]; exact h1) (by rw [wn _ (by decide) (by decide) (by decide)]; exact h2)
          ⟨_, w1⟩ w2 w3 w4 w5.1 w5.2
        rw [a1]
        refine ⟨st', ?_, a2, a3, a4, a5⟩
        rcases (FinProto.IntBitMap.readLoop fuel (bits ||| ((x &&& 0x7F#32) <<< (shift &&& 31#32).toNat)) (shift + 7) b').2.2 with _ | e
        · simp [andThen, ofErr, exec_nil]
        · rfl

theorem exec_intRead (fld : String → Option V) (bits : BitVec 32) (out : WBuf) (b : RBuf) (hf : fld "bits" = some (.int bits)) :
    ∃ st', call ms IntBitMap.read [.buf] fld out b = some (st', ofErr (FinProto.IntBitMap.read bits b).2.2) ∧
      st'.fld "bits" = some (.int (FinProto.IntBitMap.read bits b).1) ∧ (∀ x, x ≠ "bits" → st'.fld x = fld x) ∧
      st'.out = out ∧ st'.inp = (FinProto.IntBitMap.read bits b).2.1 := by
  rw [call_buf _ rfl]
  simp only [IntBitMap.read]
  generalize hst : (⟨fld, fun y => if y = "buf" then some .buf else none, out, b⟩ : St) = st
  have g1 : st.loc "buf" = some .buf := by rw [← hst]; simp
  have g2 : st.loc "bits" = none := by rw [← hst]; simp
  have g3 : st.fld = fld := by rw [← hst]
  have g4 : st.out = out := by rw [← hst]
  have g5 : st.inp = b := by rw [← hst]
  clear hst
  subst g3 g4 g5
  rw [exec_step (st' := { st with fld := fun y => if y = "bits" then some (.int 0) else st.fld y }) (by
      simp only [simple, eval]
      rw [assignVar_fld (t := .int) g2 hf rfl (by rfl)]
      rfl),
    exec_step (st' := ({ st with fld := fun y => if y = "bits" then some (.int 0) else st.fld y } : St).setLoc "cont" (.bool false)) (by simp only [simple, Ty.default]),
    exec_step (st' := (({ st with fld := fun y => if y = "bits" then some (.int 0) else st.fld y } : St).setLoc "cont" (.bool false)).setLoc "shift" (.int 0))
      (by simp only [simple, eval, assignTo, V.int?]; rfl)]
  exact exec_intReadLoop st.fld st.out (st.inp.readable.length + 1) 0 0 st.inp _ (by simp [RBuf.readable])
    (by rw [loc_setLoc_ne (by decide), loc_setLoc_ne (by decide)]; exact g1) (by rw [loc_setLoc_ne (by decide), loc_setLoc_ne (by decide)]; exact g2)
    ⟨false, by rw [loc_setLoc_ne (by decide), loc_setLoc_same]⟩ loc_setLoc_same (by simp [St.setLoc]) (by intro x hx; simp [St.setLoc, hx]) rfl rfl

theorem exec_longReadLoop (fld0 : String → Option V) (out0 : WBuf) : ∀ (fuel : Nat) (bits : BitVec 64) (shift : BitVec 32) (b : RBuf) (st : St),
    b.data.length - b.rd < fuel →
    st.loc "buf" = some .buf → st.loc "bits" = none → (∃ v, st.loc "cont" = some (.bool v)) → st.loc "shift" = some (.int shift) →
    st.fld "bits" = some (.long bits) → (∀ x, x ≠ "bits" → st.fld x = fld0 x) → st.out = out0 → st.inp = b →
    ∃ st', exec ms [.doWhile
      [.decl .byte "b" (some (.readByte (.var "buf"))),
       .assign "cont" (.bin .ne (.paren (.bin .and (.var "b") (.hex 0x80))) (.dec 0)),
       .opAssign "bits" .or (.bin .shl (.paren (.cast .long (.paren (.bin .and (.var "b") (.hex 0x7F))))) (.var "shift")),
       .opAssign "shift" .add (.dec 7)]
      (.var "cont")] st = some (st', ofErr (FinProto.LongBitMap.readLoop fuel bits shift b).2.2) ∧
      st'.fld "bits" = some (.long (FinProto.LongBitMap.readLoop fuel bits shift b).1) ∧ (∀ x, x ≠ "bits" → st'.fld x = fld0 x) ∧
      st'.out = out0 ∧ st'.inp = (FinProto.LongBitMap.readLoop fuel bits shift b).2.1
  | 0, _, _, _, _, hfuel, _, _, _, _, _, _, _, _ => by omega
  | fuel + 1, bits, shift, b, st, hfuel, h1, h2, ⟨cv, h3⟩, h4, h5, h6, h7, h8 => by
    subst h8
    rw [exec_doWhile]
    have hev := eval_readByte h1
    rw [FinProto.LongBitMap.readLoop]
    rcases hr : st.inp.readNum .be .i8 with ⟨b', e | n⟩
    · rw [hr] at hev
      rw [exec_throw (st' := { st with inp := b' }) (e := ofJErr e) (by simp only [simple, hev])]
      exact ⟨_, rfl, h5, h6, h7, rfl⟩
    · rw [hr] at hev
      obtain ⟨hn, hrd, hdata, hle⟩ := readNum_i8 hr
      rw [exec_step (st' := ({ st with inp := b' } : St).setLoc "b" (.byte (n.bits.setWidth 8))) (by simp only [simple, hev, assignTo])]
      generalize hq : ({ st with inp := b' } : St).setLoc "b" (.byte (n.bits.setWidth 8)) = q
      have q0 : q.loc "b" = some (.byte (n.bits.setWidth 8)) := by rw [← hq]; exact loc_setLoc_same
      have qn : ∀ x, x ≠ "b" → q.loc x = st.loc x := by intro x hx; rw [← hq, loc_setLoc_ne hx]
      have q4 : q.fld = st.fld ∧ q.out = st.out ∧ q.inp = b' := by rw [← hq]; exact ⟨rfl, rfl, rfl⟩
      clear hq
      dsimp only
      generalize hx : n.bits.signExtend 32 = x at hn ⊢
      have hcont : eval (.bin .ne (.paren (.bin .and (.var "b") (.hex 0x80))) (.dec 0)) q = (q, .ok (.bool (x &&& 0x80#32 != 0#32))) := by
        simp only [eval, get_of_loc q0, binary, V.int?, Op.int, hn]
      have qc : q.loc "cont" = some (.bool cv) := by rw [qn _ (by decide)]; exact h3
      rw [exec_step (st' := q.setLoc "cont" (.bool (x &&& 0x80#32 != 0#32))) (by
        simp only [simple, hcont]
        rw [assignVar_loc (t := .boolean) qc rfl (by rfl)])]
      generalize hr0 : q.setLoc "cont" (.bool (x &&& 0x80#32 != 0#32)) = r
      have r0 : r.loc "b" = some (.byte (n.bits.setWidth 8)) := by rw [← hr0, loc_setLoc_ne (by decide)]; exact q0
      have rc : r.loc "cont" = some (.bool (x &&& 0x80#32 != 0#32)) := by rw [← hr0, loc_setLoc_same]
      have rn : ∀ y, y ≠ "b" → y ≠ "cont" → r.loc y = st.loc y := by intro y hy hy'; rw [← hr0, loc_setLoc_ne hy', qn y hy]
      have r4 : r.fld = st.fld ∧ r.out = st.out ∧ r.inp = b' := by rw [← hr0]; exact q4
      clear hr0 q0 qn q4 hcont qc
      have rs : r.loc "shift" = some (.int shift) := by rw [rn _ (by decide) (by decide)]; exact h4
      have rb : r.loc "bits" = none := by rw [rn _ (by decide) (by decide)]; exact h2
      have rf : r.fld "bits" = some (.long bits) := by rw [r4.1]; exact h5
      have hexp : eval (.bin .shl (.paren (.cast .long (.paren (.bin .and (.var "b") (.hex 0x7F))))) (.var "shift")) r =
          (r, .ok (.long (((x &&& 0x7F#32).signExtend 64) <<< (shift &&& 63#32).toNat))) := by
        have s1 : binary .and (.byte (n.bits.setWidth 8)) (.int (BitVec.ofNat 32 0x7F)) = .ok (.int (x &&& 0x7F#32)) := by
          simp only [binary, V.int?, Op.int, hn]
        have s2 : castTo .long (.int (x &&& 0x7F#32)) = .ok (.long ((x &&& 0x7F#32).signExtend 64)) := rfl
        have s3 : binary .shl (.long ((x &&& 0x7F#32).signExtend 64)) (.int shift) = .ok (.long (((x &&& 0x7F#32).signExtend 64) <<< (shift &&& 63#32).toNat)) := rfl
        simp only [eval, get_of_loc r0, get_of_loc rs, s1, s2, s3]
      have s4 : binary .or (.long bits) (.long (((x &&& 0x7F#32).signExtend 64) <<< (shift &&& 63#32).toNat)) =
        .ok (.long (bits ||| (((x &&& 0x7F#32).signExtend 64) <<< (shift &&& 63#32).toNat))) := rfl
      rw [exec_step (st' := { r with fld := fun y => if y = "bits" then some (.long (bits ||| (((x &&& 0x7F#32).signExtend 64) <<< (shift &&& 63#32).toNat))) else r.fld y }) (by
        simp only [simple, get_of_fld rb rf, hexp, s4]
        rw [assignVar_fld (t := .long) rb rf rfl (by rfl)])]
      have hsh : ∀ r' : St, r'.loc = r.loc → simple (.opAssign "shift" .add (.dec 7)) r' = some (r'.setLoc "shift" (.int (shift + 7)), .next) := by
        intro r' h
        have hs : r'.loc "shift" = some (.int shift) := by rw [h]; exact rs
        simp only [simple, get_of_loc hs, eval, binary, V.int?, Op.int]
        rw [assignVar_loc hs rfl (castTo_int _)]
        rfl
      rw [exec_step (hsh { r with fld := fun y => if y = "bits" then some (.long (bits ||| (((x &&& 0x7F#32).signExtend 64) <<< (shift &&& 63#32).toNat))) else r.fld y } rfl), exec_nil]
      simp only [andThen]
      generalize hw : ({ r with fld := fun y => if y = "bits" then some (.long (bits ||| (((x &&& 0x7F#32).signExtend 64) <<< (shift &&& 63#32).toNat))) else r.fld y } : St).setLoc "shift"
        (.int (shift + 7)) = w
      have w1 : w.loc "cont" = some (.bool (x &&& 0x80#32 != 0#32)) := by rw [← hw, loc_setLoc_ne (by decide)]; exact rc
      have w2 : w.loc "shift" = some (.int (shift + 7)) := by rw [← hw, loc_setLoc_same]
      have wn : ∀ y, y ≠ "b" → y ≠ "cont" → y ≠ "shift" → w.loc y = st.loc y := by
        intro y hy hy' hy''; rw [← hw, loc_setLoc_ne hy'']; exact rn y hy hy'
      have w3 : w.fld "bits" = some (.long (bits ||| (((x &&& 0x7F#32).signExtend 64) <<< (shift &&& 63#32).toNat))) := by rw [← hw]; simp [St.setLoc]
      have w4 : ∀ y, y ≠ "bits" → w.fld y = fld0 y := by
        intro y hy; rw [← hw]; simp only [St.setLoc, hy, if_false, r4.1]; exact h6 y hy
      have w5 : w.out = out0 ∧ w.inp = b' := by rw [← hw]; exact ⟨by show r.out = _; rw [r4.2.1, h7], r4.2.2⟩
      clear hw
      rw [exec_ite (st' := w) (v := (x &&& 0x80#32 != 0#32)) (by simp only [eval, get_of_loc w1])]
      by_cases hc : x &&& 0x80#32 = 0#32
      · rw [if_neg (by simpa using hc), if_neg (by simpa using hc), exec_nil]
        simp only [andThen, exec_nil]
        exact ⟨w, rfl, w3, w4, w5.1, w5.2⟩
      · rw [if_pos (by simpa using hc), if_pos (by simpa using hc)]
        obtain ⟨st', a1, a2, a3, a4, a5⟩ := exec_longReadLoop fld0 out0 fuel (bits ||| (((x &&& 0x7F#32).signExtend 64) <<< (shift &&& 63#32).toNat)) (shift + 7) b' w
          (by rw [hrd, hdata]; omega) (by rw [wn _ (by decide) (by decide) (by decide)]; exact h1) (by rw [wn _ (by decide) (by decide) (by decide)]; exact h2)
          ⟨_, w1⟩ w2 w3 w4 w5.1 w5.2
        rw [a1]
        refine ⟨st', ?_, a2, a3, a4, a5⟩
        rcases (FinProto.LongBitMap.readLoop fuel (bits ||| (((x &&& 0x7F#32).signExtend 64) <<< (shift &&& 63#32).toNat)) (shift + 7) b').2.2 with _ | e
        · simp [andThen, ofErr, exec_nil]
        · rfl

theorem exec_longRead (fld : String → Option V) (bits : BitVec 64) (out : WBuf) (b : RBuf) (hf : fld "bits" = some (.long bits)) :
    ∃ st', call ms LongBitMap.read [.buf] fld out b = some (st', ofErr (FinProto.LongBitMap.read bits b).2.2) ∧
      st'.fld "bits" = some (.long (FinProto.LongBitMap.read bits b).1) ∧ (∀ x, x ≠ "bits" → st'.fld x = fld x) ∧
      st'.out = out ∧ st'.inp = (FinProto.LongBitMap.read bits b).2.1 := by
  rw [call_buf _ rfl]
  simp only [LongBitMap.read]
  generalize hst : (⟨fld, fun y => if y = "buf" then some .buf else none, out, b⟩ : St) = st
  have g1 : st.loc "buf" = some .buf := by rw [← hst]; simp
  have g2 : st.loc "bits" = none := by rw [← hst]; simp
  have g3 : st.fld = fld := by rw [← hst]
  have g4 : st.out = out := by rw [← hst]
  have g5 : st.inp = b := by rw [← hst]
  clear hst
  subst g3 g4 g5
  rw [exec_step (st' := { st with fld := fun y => if y = "bits" then some (.long 0) else st.fld y }) (by
      simp only [simple, eval]
      rw [assignVar_fld (t := .long) (w := .long 0) g2 hf rfl (by rfl)]),
    exec_step (st' := ({ st with fld := fun y => if y = "bits" then some (.long 0) else st.fld y } : St).setLoc "cont" (.bool false)) (by simp only [simple, Ty.default]),
    exec_step (st' := (({ st with fld := fun y => if y = "bits" then some (.long 0) else st.fld y } : St).setLoc "cont" (.bool false)).setLoc "shift" (.int 0))
      (by simp only [simple, eval, assignTo, V.int?]; rfl)]
  exact exec_longReadLoop st.fld st.out (st.inp.readable.length + 1) 0 0 st.inp _ (by simp [RBuf.readable])
    (by rw [loc_setLoc_ne (by decide), loc_setLoc_ne (by decide)]; exact g1) (by rw [loc_setLoc_ne (by decide), loc_setLoc_ne (by decide)]; exact g2)
    ⟨false, by rw [loc_setLoc_ne (by decide), loc_setLoc_same]⟩ loc_setLoc_same (by simp [St.setLoc]) (by intro x hx; simp [St.setLoc, hx]) rfl rfl

end FinProto.Mini
