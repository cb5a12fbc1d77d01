import Verif.Proofs.MiniBitMap
import Verif.Props.FixedInt
import Verif.Props.Checksum
/-
C83: the module `codec`, statement by statement.

`Model/Codec.lean` has the text of the methods (compared with the files by tools/roundtrip.py) and `Model/Mini.lean` the meaning of Java statements.  The theorems say
that running the text has exactly the effect of the functions that C01–C21 and C63 are about.
-/
namespace FinProto

open Mini

/-! ### BinaryCodec -/

/-- **C83.** `padChar(byteBuf, len, padChar)`. -/
theorem C83_pad_char (fld : String → Option V) (out : WBuf) (inp : RBuf) (len : BitVec 32) (c : JChar) :
    Gives (call BinaryCodec.methods BinaryCodec.padChar [.buf, .int len, .char c] fld out inp) fld (padCharInt out len.toInt c).1 inp
      (ofErr (padCharInt out len.toInt c).2) := by
  have h := exec_callPad c len ⟨fld, fun y => if y = "c" then some (.char c) else if y = "n" then some (.int len) else if y = "b" then some .buf else none, out, inp⟩
    [.var "b", .var "n", .var "c"] [] (by simp [evals, eval, St.get])
  have hpad : padCharInt out len.toInt c = padChar out len.toInt.toNat c := by
    unfold padCharInt
    split
    · rfl
    · rw [show len.toInt.toNat = 0 by omega]; rfl
  obtain ⟨st', a1, a2, a3, a4⟩ := exec_padLoop (ms := BinaryCodec.methods) c [] len.toInt.toNat len
    ⟨fld, fun y => if y = "padChar" then some (.char c) else if y = "len" then some (.int len) else if y = "byteBuf" then some .buf else none, out, inp⟩
    rfl (by simp) (by simp) (by simp)
  rw [List.append_nil] at a4
  refine ⟨st', ?_, a3, by rw [hpad]; exact a1, a2⟩
  have hcall : call BinaryCodec.methods BinaryCodec.padChar [.buf, .int len, .char c] fld out inp = exec BinaryCodec.methods BinaryCodec.padChar.body
    ⟨fld, fun y => if y = "padChar" then some (.char c) else if y = "len" then some (.int len) else if y = "byteBuf" then some .buf else none, out, inp⟩ := rfl
  rw [hcall, a4, hpad]
  dsimp only
  rcases (padChar out len.toInt.toNat c).2 with _ | e
  · exact exec_nil st'
  · rfl

/-- **C83.** `writeFixedString(byteBuf, value, len, padChar, padLeft)` for every text whose UTF-8 form is a Java array, every width, pad character and side. -/
theorem C83_write_fixed (fld : String → Option V) (out : WBuf) (inp : RBuf) (value : Option JStr) (len : BitVec 32) (pad : JChar) (padLeft : Bool)
    (hv : ∀ s, value = some s → (utf8Enc s).length < 2 ^ 31) :
    Gives (call BinaryCodec.methods BinaryCodec.writeFixedString5 [.buf, .str value, .int len, .char pad, .bool padLeft] fld out inp) fld
      (writeFixedStringInt out value len pad padLeft).1 inp (ofErr (writeFixedStringInt out value len pad padLeft).2) := by
  obtain ⟨st', h1, h2, h3, h4⟩ := call_write5 fld out inp value len pad padLeft hv
  exact ⟨st', h1, h4, h2, h3⟩

/-- **C83.** `writeFixedString(byteBuf, value, len)`. -/
theorem C83_write_fixed_default (fld : String → Option V) (out : WBuf) (inp : RBuf) (value : Option JStr) (len : BitVec 32)
    (hv : ∀ s, value = some s → (utf8Enc s).length < 2 ^ 31) :
    Gives (call BinaryCodec.methods BinaryCodec.writeFixedString3 [.buf, .str value, .int len] fld out inp) fld
      (writeFixedStringInt3 out value len).1 inp (ofErr (writeFixedStringInt3 out value len).2) := by
  obtain ⟨st', h1, h2, h3, h4⟩ := call_write3 fld out inp value len hv
  exact ⟨st', h1, h4, h2, h3⟩

/-- **C83.** `trimByChar(s, ch, padLeft)` for every text. -/
theorem C83_trim (fld : String → Option V) (out : WBuf) (inp : RBuf) (s : JStr) (ch : JChar) (padLeft : Bool) (hs : s.length < 2 ^ 31) :
    Gives (call BinaryCodec.methods BinaryCodec.trimByChar [.str (some s), .char ch, .bool padLeft] fld out inp) fld out inp
      (.ret (.str (some (trimByChar s ch padLeft)))) := by
  obtain ⟨st', h1, h2, h3, h4⟩ := exec_trim (ms := BinaryCodec.methods) s ch padLeft hs
    ⟨fld, fun y => if y = "padLeft" then some (.bool padLeft) else if y = "ch" then some (.char ch) else if y = "s" then some (.str (some s)) else none, out, inp⟩
    (by simp) (by simp) (by simp)
  exact ⟨st', h1, h4, h2, h3⟩

/-- **C83.** `readFixedString(byteBuf, len, trimPadChar, padLeft)` on every buffer, for every width, pad character and side. -/
theorem C83_read_fixed (fld : String → Option V) (out : WBuf) (inp : RBuf) (len : BitVec 32) (pad : JChar) (padLeft : Bool) :
    Gives (call BinaryCodec.methods BinaryCodec.readFixedString4 [.buf, .int len, .char pad, .bool padLeft] fld out inp) fld out
      (readFixedStringInt inp len pad padLeft).1 (ofText (readFixedStringInt inp len pad padLeft).2) := by
  obtain ⟨st', h1, h2, h3, h4⟩ := call_read4 fld out inp len pad padLeft
  refine ⟨st', ?_, h4, h2, h3⟩
  rw [h1]
  rcases (readFixedStringInt inp len pad padLeft).2 with e | s <;> rfl

/-- **C83.** `readFixedString(byteBuf, len)`. -/
theorem C83_read_fixed_default (fld : String → Option V) (out : WBuf) (inp : RBuf) (len : BitVec 32) :
    Gives (call BinaryCodec.methods BinaryCodec.readFixedString2 [.buf, .int len] fld out inp) fld out
      (readFixedStringInt2 inp len).1 (ofText (readFixedStringInt2 inp len).2) := by
  obtain ⟨st', h1, h2, h3, h4⟩ := call_read2 fld out inp len
  refine ⟨st', ?_, h4, h2, h3⟩
  rw [h1]
  rcases (readFixedStringInt2 inp len).2 with e | s <;> rfl

/-- **C83.** Put together, without any of the functions in between: writing a text with the default padding and room for it appends its field, and reading the width back
gives the text, unless it ends in a blank; this is what the statements of the two Java methods do. -/
theorem C83_fixed_round_trip (fld : String → Option V) (out : WBuf) (inp : RBuf) (s : JStr) (len : BitVec 32) (hlen : 0 ≤ len.toInt)
    (hcap : out.data.length + len.toInt.toNat ≤ out.maxCap) (hfit : (utf8Enc s).length ≤ len.toInt.toNat) (hvalid : validUtf16 s = true)
    (hlast : s.getLast? ≠ some 0x20) (post spare : List Byte) :
    let field := utf8Enc s ++ List.replicate (len.toInt.toNat - (utf8Enc s).length) (0x20 : Byte)
    Gives (call BinaryCodec.methods BinaryCodec.writeFixedString3 [.buf, .str (some s), .int len] fld out inp) fld
      { out with data := out.data ++ field } inp .next
    ∧ Gives (call BinaryCodec.methods BinaryCodec.readFixedString2 [.buf, .int len] fld out ⟨out.data ++ field ++ post, spare, out.data.length⟩) fld out
      ⟨out.data ++ field ++ post, spare, out.data.length + len.toInt.toNat⟩ (.ret (.str (some s))) := by
  have hl := toInt_lt len
  have hd := C63_defaults out ⟨out.data ++ (utf8Enc s ++ List.replicate (len.toInt.toNat - (utf8Enc s).length) (0x20 : Byte)) ++ post, spare, out.data.length⟩
    (some s) len hlen
  have hf : fixedField len.toInt.toNat 0x20 false s = utf8Enc s ++ List.replicate (len.toInt.toNat - (utf8Enc s).length) (0x20 : Byte) := by
    unfold fixedField
    rw [List.take_of_length_le hfit]
    rfl
  have hw := C01_default_padding out (some s) len.toInt.toNat hcap
  simp only [Option.getD_some, hf] at hw
  have hr := (C02_default_round_trip out s len.toInt.toNat hcap hfit hvalid post spare).2 (by simpa [touchesPad] using hlast)
  have hrb := C02_read_back out (some s) len.toInt.toNat 0x20 false (by simp) hcap post spare
  constructor
  · have h := C83_write_fixed_default fld out inp (some s) len (by intro t ht; obtain rfl := Option.some.inj ht; omega)
    rw [hd.1, hw.1] at h
    exact h
  · have h := C83_read_fixed_default fld out
      ⟨out.data ++ (utf8Enc s ++ List.replicate (len.toInt.toNat - (utf8Enc s).length) (0x20 : Byte)) ++ post, spare, out.data.length⟩ len
    rw [hd.2] at h
    have e1 : writeFixedString out (some s) len.toInt.toNat 0x20 false = writeFixedString3 out (some s) len.toInt.toNat := rfl
    rw [e1, hw.1] at hrb
    rw [hw.1] at hr
    have e2 : ∀ o, readFixedString o len.toInt.toNat 0x20 false = readFixedString2 o len.toInt.toNat := fun _ => rfl
    rw [e2] at hrb
    rw [hrb] at hr
    dsimp only at hr
    rw [hrb, hr] at h
    exact h

/-! ### Checksums -/

/-- **C83.** The static initialisers fill a new `int[256]` with the tables. -/
theorem C83_tables (fld : String → Option V) (out : WBuf) (inp : RBuf) (h : fld "CRC_TABLE" = some (.ints (List.replicate 256 0))) :
    Gives (exec noMethods Crc16.init ⟨fld, fun _ => none, out, inp⟩) (fun y => if y = "CRC_TABLE" then some (.ints crc16Table) else fld y) out inp .next
    ∧ Gives (exec noMethods Crc32.init ⟨fld, fun _ => none, out, inp⟩) (fun y => if y = "CRC_TABLE" then some (.ints crc32Table) else fld y) out inp .next := by
  constructor
  · obtain ⟨st', a1, a2, a3, a4, a5⟩ := exec_crc16Init (ms := noMethods) ⟨fld, fun _ => none, out, inp⟩ rfl h
    refine ⟨st', a1, funext fun y => ?_, a4, a5⟩
    split
    · rename_i hy; rw [hy]; exact a2
    · rename_i hy; exact a3 y hy
  · obtain ⟨st', a1, a2, a3, a4, a5⟩ := exec_crc32Init (ms := noMethods) ⟨fld, fun _ => none, out, inp⟩ rfl h
    refine ⟨st', a1, funext fun y => ?_, a4, a5⟩
    split
    · rename_i hy; rw [hy]; exact a2
    · rename_i hy; exact a3 y hy

/-- **C83.** With these tables the `calc` methods return CRC-16/MODBUS and CRC-32/ISO-HDLC of the readable bytes, and leave the buffer as it was. -/
theorem C83_crc (fld : String → Option V) (out : WBuf) (b : RBuf) (hrd : b.rd ≤ b.data.length) (hlen : b.data.length < 2 ^ 31) :
    (fld "CRC_TABLE" = some (.ints crc16Table) →
      Gives (call noMethods Crc16.calcMethod [.buf] fld out b) fld out b (.ret (.int ((crc16Modbus b.readable).setWidth 32))))
    ∧ (fld "CRC_TABLE" = some (.ints crc32Table) →
      Gives (call noMethods Crc32.calcMethod [.buf] fld out b) fld out b (.ret (.int (crc32IsoHdlc b.readable)))) := by
  constructor
  · intro h
    obtain ⟨st', h1, h2, h3, h4⟩ := exec_crc16Calc (ms := noMethods) fld out b h hrd hlen
    refine ⟨st', ?_, h2, h3, h4⟩
    rw [h1, crc16Calc_eq, crc16_eq]
    rfl
  · intro h
    obtain ⟨st', h1, h2, h3, h4⟩ := exec_crc32Calc (ms := noMethods) fld out b h hrd hlen
    refine ⟨st', ?_, h2, h3, h4⟩
    rw [h1, crc32Calc_eq, crc32_eq]
    rfl

/-- **C83.** The two byte sums return the sum of the readable bytes modulo 256. -/
theorem C83_sums (fld : String → Option V) (out : WBuf) (b : RBuf) (hrd : b.rd ≤ b.data.length) (hlen : b.data.length < 2 ^ 31) :
    Gives (call noMethods SseBin.calcMethod [.buf] fld out b) fld out b (.ret (.int (BitVec.ofNat 32 (byteSum b.readable % 256))))
    ∧ Gives (call noMethods SzseBin.calcMethod [.buf] fld out b) fld out b (.ret (.int (BitVec.ofNat 32 (byteSum b.readable % 256)))) := by
  constructor
  · obtain ⟨st', h1, h2, h3, h4⟩ := exec_sseBinCalc (ms := noMethods) fld out b hrd hlen
    refine ⟨st', ?_, h2, h3, h4⟩
    obtain ⟨v, hv, hv2, _⟩ := C10_sse_sum b
    rw [h1, hv]
    have : v = BitVec.ofNat 32 (byteSum b.readable % 256) := by
      apply BitVec.eq_of_toNat_eq; rw [hv2]; simp; omega
    rw [this]
    rfl
  · obtain ⟨st', h1, h2, h3, h4⟩ := exec_szseBinCalc (ms := noMethods) fld out b hrd hlen
    refine ⟨st', ?_, h2, h3, h4⟩
    obtain ⟨_, ⟨v, hv, hv2⟩, _⟩ := C11_szse_sum b hlen
    rw [h1, hv]
    have : v = BitVec.ofNat 32 (byteSum b.readable % 256) := by
      apply BitVec.eq_of_toNat_eq; rw [hv2]; simp; omega
    rw [this]
    rfl

/-- **C83.** And they are the functions the model uses. -/
theorem C83_calc (fld : String → Option V) (out : WBuf) (b : RBuf) (hrd : b.rd ≤ b.data.length) (hlen : b.data.length < 2 ^ 31) :
    (fld "CRC_TABLE" = some (.ints crc16Table) → Gives (call noMethods Crc16.calcMethod [.buf] fld out b) fld out b (ofCalc (crc16Calc b)))
    ∧ (fld "CRC_TABLE" = some (.ints crc32Table) → Gives (call noMethods Crc32.calcMethod [.buf] fld out b) fld out b (ofCalc (crc32Calc b)))
    ∧ Gives (call noMethods SseBin.calcMethod [.buf] fld out b) fld out b (ofCalc (sseBinCalc b))
    ∧ Gives (call noMethods SzseBin.calcMethod [.buf] fld out b) fld out b (ofCalc (szseBinCalc b)) :=
  ⟨fun h => exec_crc16Calc fld out b h hrd hlen, fun h => exec_crc32Calc fld out b h hrd hlen, exec_sseBinCalc fld out b hrd hlen,
    exec_szseBinCalc fld out b hrd hlen⟩

/-! ### Bit maps -/

/-- **C83.** `ByteBitMap`, for every `int` position, every content and every buffer. -/
theorem C83_byte_bit_map (fld : String → Option V) (bits : BitVec 8) (pos : BitVec 32) (out : WBuf) (b : RBuf) (hf : fld "bits" = some (.byte bits)) :
    Gives (call noMethods Mini.ByteBitMap.set [.int pos] fld out b) (withBits fld (.byte (ByteBitMap.set bits pos))) out b .next
    ∧ Gives (call noMethods Mini.ByteBitMap.clear [.int pos] fld out b) (withBits fld (.byte (ByteBitMap.clear bits pos))) out b .next
    ∧ Gives (call noMethods Mini.ByteBitMap.get [.int pos] fld out b) fld out b (.ret (.bool (ByteBitMap.get bits pos)))
    ∧ Gives (call noMethods Mini.ByteBitMap.write [.buf] fld out b) fld (ByteBitMap.write bits out).1 b (ofErr (ByteBitMap.write bits out).2)
    ∧ Gives (call noMethods Mini.ByteBitMap.read [.buf] fld out b) (withBits fld (.byte (ByteBitMap.read bits b).1)) out (ByteBitMap.read bits b).2.1
        (ofErr (ByteBitMap.read bits b).2.2)
    ∧ Gives (call noMethods Mini.ByteBitMap.bitCount [] fld out b) fld out b (.ret (.int (BitVec.ofNat 32 ByteBitMap.bitCount))) := by
  refine ⟨exec_byteSet fld bits pos out b hf, exec_byteClear fld bits pos out b hf, exec_byteGet fld bits pos out b hf, exec_byteWrite fld bits out b hf, ?_,
    exec_bitCount 8 fld out b⟩
  obtain ⟨st', a1, a2, a3, a4, a5⟩ := exec_byteRead (ms := noMethods) fld bits out b hf
  refine ⟨st', a1, funext fun y => ?_, a4, a5⟩
  unfold withBits
  split
  · rename_i hy; rw [hy]; exact a2
  · rename_i hy; exact a3 y hy

/-- **C83.** `ShortBitMap`. -/
theorem C83_short_bit_map (fld : String → Option V) (bits : BitVec 16) (pos : BitVec 32) (out : WBuf) (b : RBuf) (hf : fld "bits" = some (.short bits)) :
    Gives (call noMethods Mini.ShortBitMap.set [.int pos] fld out b) (withBits fld (.short (ShortBitMap.set bits pos))) out b .next
    ∧ Gives (call noMethods Mini.ShortBitMap.clear [.int pos] fld out b) (withBits fld (.short (ShortBitMap.clear bits pos))) out b .next
    ∧ Gives (call noMethods Mini.ShortBitMap.get [.int pos] fld out b) fld out b (.ret (.bool (ShortBitMap.get bits pos)))
    ∧ Gives (call noMethods Mini.ShortBitMap.write [.buf] fld out b) fld (ShortBitMap.write bits out).1 b (ofErr (ShortBitMap.write bits out).2)
    ∧ Gives (call noMethods Mini.ShortBitMap.read [.buf] fld out b) (withBits fld (.short (ShortBitMap.read bits b).1)) out (ShortBitMap.read bits b).2.1
        (ofErr (ShortBitMap.read bits b).2.2)
    ∧ Gives (call noMethods Mini.ShortBitMap.bitCount [] fld out b) fld out b (.ret (.int (BitVec.ofNat 32 ShortBitMap.bitCount))) := by
  refine ⟨exec_shortSet fld bits pos out b hf, exec_shortClear fld bits pos out b hf, exec_shortGet fld bits pos out b hf, exec_shortWrite fld bits out b hf, ?_,
    exec_bitCount 16 fld out b⟩
  obtain ⟨st', a1, a2, a3, a4, a5⟩ := exec_shortRead (ms := noMethods) fld bits out b hf
  refine ⟨st', a1, funext fun y => ?_, a4, a5⟩
  unfold withBits
  split
  · rename_i hy; rw [hy]; exact a2
  · rename_i hy; exact a3 y hy

/-- **C83.** `IntBitMap`; in particular the loop of `read` always ends. -/
theorem C83_int_bit_map (fld : String → Option V) (bits : BitVec 32) (pos : BitVec 32) (out : WBuf) (b : RBuf) (hf : fld "bits" = some (.int bits)) :
    Gives (call noMethods Mini.IntBitMap.set [.int pos] fld out b) (withBits fld (.int (IntBitMap.set bits pos))) out b .next
    ∧ Gives (call noMethods Mini.IntBitMap.clear [.int pos] fld out b) (withBits fld (.int (IntBitMap.clear bits pos))) out b .next
    ∧ Gives (call noMethods Mini.IntBitMap.get [.int pos] fld out b) fld out b (.ret (.bool (IntBitMap.get bits pos)))
    ∧ Gives (call noMethods Mini.IntBitMap.write [.buf] fld out b) fld (IntBitMap.write bits out).1 b (ofErr (IntBitMap.write bits out).2)
    ∧ Gives (call noMethods Mini.IntBitMap.read [.buf] fld out b) (withBits fld (.int (IntBitMap.read bits b).1)) out (IntBitMap.read bits b).2.1
        (ofErr (IntBitMap.read bits b).2.2)
    ∧ Gives (call noMethods Mini.IntBitMap.bitCount [] fld out b) fld out b (.ret (.int (BitVec.ofNat 32 IntBitMap.bitCount))) := by
  refine ⟨exec_intSet _ (.inl rfl) fld bits pos out b hf, exec_intSet _ (.inr rfl) fld bits pos out b hf, exec_intGet fld bits pos out b hf,
    exec_intWrite fld bits out b hf, ?_, exec_bitCount 32 fld out b⟩
  obtain ⟨st', a1, a2, a3, a4, a5⟩ := exec_intRead (ms := noMethods) fld bits out b hf
  refine ⟨st', a1, funext fun y => ?_, a4, a5⟩
  unfold withBits
  split
  · rename_i hy; rw [hy]; exact a2
  · rename_i hy; exact a3 y hy

/-- **C83.** `LongBitMap`. -/
theorem C83_long_bit_map (fld : String → Option V) (bits : BitVec 64) (pos : BitVec 32) (out : WBuf) (b : RBuf) (hf : fld "bits" = some (.long bits)) :
    Gives (call noMethods Mini.LongBitMap.set [.int pos] fld out b) (withBits fld (.long (LongBitMap.set bits pos))) out b .next
    ∧ Gives (call noMethods Mini.LongBitMap.clear [.int pos] fld out b) (withBits fld (.long (LongBitMap.clear bits pos))) out b .next
    ∧ Gives (call noMethods Mini.LongBitMap.get [.int pos] fld out b) fld out b (.ret (.bool (LongBitMap.get bits pos)))
    ∧ Gives (call noMethods Mini.LongBitMap.write [.buf] fld out b) fld (LongBitMap.write bits out).1 b (ofErr (LongBitMap.write bits out).2)
    ∧ Gives (call noMethods Mini.LongBitMap.read [.buf] fld out b) (withBits fld (.long (LongBitMap.read bits b).1)) out (LongBitMap.read bits b).2.1
        (ofErr (LongBitMap.read bits b).2.2)
    ∧ Gives (call noMethods Mini.LongBitMap.bitCount [] fld out b) fld out b (.ret (.int (BitVec.ofNat 32 LongBitMap.bitCount))) := by
  refine ⟨exec_longSet _ (.inl rfl) fld bits pos out b hf, exec_longSet _ (.inr rfl) fld bits pos out b hf, exec_longGet fld bits pos out b hf,
    exec_longWrite fld bits out b hf, ?_, exec_bitCount 64 fld out b⟩
  obtain ⟨st', a1, a2, a3, a4, a5⟩ := exec_longRead (ms := noMethods) fld bits out b hf
  refine ⟨st', a1, funext fun y => ?_, a4, a5⟩
  unfold withBits
  split
  · rename_i hy; rw [hy]; exact a2
  · rename_i hy; exact a3 y hy

/-! ### The hypotheses can be met -/

/-- `"ab"` in a field of four bytes, behind one byte, with a byte following. -/
example : (0 : Int) ≤ (4#32).toInt ∧ (WBuf.mk [7] 0 9).data.length + (4#32).toInt.toNat ≤ (WBuf.mk [7] 0 9).maxCap
    ∧ (utf8Enc (js "ab")).length ≤ (4#32).toInt.toNat ∧ validUtf16 (js "ab") = true ∧ (js "ab").getLast? ≠ some 0x20 := by decide

example : Gives (call BinaryCodec.methods BinaryCodec.readFixedString2 [.buf, .int 4] (fun _ => none) ⟨[7], 0, 9⟩ ⟨[7, 0x61, 0x62, 0x20, 0x20, 9], [], 1⟩)
    (fun _ => none) ⟨[7], 0, 9⟩ ⟨[7, 0x61, 0x62, 0x20, 0x20, 9], [], 5⟩ (.ret (.str (some (js "ab")))) :=
  (C83_fixed_round_trip (fun _ => none) ⟨[7], 0, 9⟩ ⟨[], [], 0⟩ (js "ab") 4 (by decide) (by decide) (by decide) (by decide) (by decide) [9] []).2

/-- A continued `int` map: two bytes, of which the first has the high bit set. -/
example : Gives (call noMethods Mini.IntBitMap.read [.buf] (withBits (fun _ => none) (.int 5)) ⟨[], 0, 9⟩ ⟨[0x83, 0x01, 0x55], [], 0⟩)
    (withBits (withBits (fun _ => none) (.int 5)) (.int 131)) ⟨[], 0, 9⟩ ⟨[0x83, 0x01, 0x55], [], 2⟩ .next :=
  (C83_int_bit_map (withBits (fun _ => none) (.int 5)) 5 0 ⟨[], 0, 9⟩ ⟨[0x83, 0x01, 0x55], [], 0⟩ rfl).2.2.2.2.1

/-- The check value of CRC-32. -/
example : Gives (call noMethods Crc32.calcMethod [.buf] (fun y => if y = "CRC_TABLE" then some (.ints crc32Table) else none) ⟨[], 0, 9⟩
      ⟨7 :: utf8Enc (js "123456789"), [5], 1⟩)
    (fun y => if y = "CRC_TABLE" then some (.ints crc32Table) else none) ⟨[], 0, 9⟩ ⟨7 :: utf8Enc (js "123456789"), [5], 1⟩ (.ret (.int 0xCBF43926)) := by
  have h := (C83_crc (fun y => if y = "CRC_TABLE" then some (.ints crc32Table) else none) ⟨[], 0, 9⟩ ⟨7 :: utf8Enc (js "123456789"), [5], 1⟩
    (by decide) (by decide)).2 rfl
  rwa [show crc32IsoHdlc (RBuf.readable ⟨7 :: utf8Enc (js "123456789"), [5], 1⟩) = 0xCBF43926 by decide +kernel] at h

/-- `C83_write_fixed`, `C83_write_fixed_default`, `C83_trim`. -/
example := C83_write_fixed (fun _ => none) ⟨[7], 0, 9⟩ ⟨[], [], 0⟩ (some (js "ab")) 4 0x30 true (by intro s h; cases h; decide)
example := C83_write_fixed_default (fun _ => none) ⟨[7], 0, 9⟩ ⟨[], [], 0⟩ (some (js "ab")) 4 (by intro s h; cases h; decide)
example := C83_trim (fun _ => none) ⟨[7], 0, 9⟩ ⟨[], [], 0⟩ (js "0ab00") 0x30 true (by decide)

/-- `C83_tables`, `C83_sums`, `C83_calc`. -/
example := C83_tables (fun y => if y = "CRC_TABLE" then some (.ints (List.replicate 256 0)) else none) ⟨[], 0, 9⟩ ⟨[], [], 0⟩ rfl
example := C83_sums (fun _ => none) ⟨[], 0, 9⟩ ⟨[1, 0xFF, 0xFF], [9], 1⟩ (by decide) (by decide)
example := (C83_calc (fun y => if y = "CRC_TABLE" then some (.ints crc16Table) else none) ⟨[], 0, 9⟩ ⟨[1, 0xFF, 0xFF], [9], 1⟩ (by decide) (by decide)).1 rfl

/-- `C83_byte_bit_map`, `C83_short_bit_map`. -/
example := C83_byte_bit_map (withBits (fun _ => none) (.byte 5)) 5 6 ⟨[], 0, 9⟩ ⟨[0x83], [], 0⟩ rfl
example := C83_short_bit_map (withBits (fun _ => none) (.short 5)) 5 9 ⟨[], 0, 9⟩ ⟨[0x83, 1], [], 0⟩ rfl

end FinProto
