import Verif.Model.BinaryCodec
/-
BinaryCodec.java:13-38 and 58-69 once more, with the width as the Java `int` it is declared as, negative values included.
-/
namespace FinProto

/-- `padChar(byteBuf, len, padChar)`, BinaryCodec.java:33-38: `while (len > 0)`. -/
def padCharInt (b : WBuf) (len : Int) (c : JChar) : WBuf × Option JErr :=
  if 0 < len then padChar b len.toNat c else (b, none)

/-- `byteBuf.writeBytes(bytes, 0, n)` for `n ≤ bytes.length`: Netty's `ensureWritable` rejects a negative `n` with `IllegalArgumentException`
before anything is written. [BinaryCodec.java:26] -/
def WBuf.writeBytesInt (b : WBuf) (bytes : List Byte) (n : Int) : WBuf × Option JErr :=
  if n < 0 then (b, some .illegalArgument) else b.write (bytes.take n.toNat)

/-- `writeFixedString(byteBuf, value, len, padChar, padLeft)`, BinaryCodec.java:17-31. -/
def writeFixedStringInt (b : WBuf) (value : Option JStr) (len : BitVec 32) (pad : JChar) (padLeft : Bool) : WBuf × Option JErr :=
  match value with
  | some (c :: cs) =>
    let bytes := utf8Enc (c :: cs)
    let writedLen : Int := min (bytes.length : Int) len.toInt
    let r1 := if padLeft && decide (writedLen < len.toInt) then padCharInt b (len.toInt - writedLen) pad else (b, none)
    match r1 with
    | (b1, some e) => (b1, some e)
    | (b1, none) =>
      match b1.writeBytesInt bytes writedLen with
      | (b2, some e) => (b2, some e)
      | (b2, none) => if !padLeft && decide (writedLen < len.toInt) then padCharInt b2 (len.toInt - writedLen) pad else (b2, none)
  | _ => if !padLeft && decide (0 < len.toInt) then padCharInt b len.toInt pad else (b, none)

/-- `writeFixedString(byteBuf, value, len)`, BinaryCodec.java:13-15. -/
def writeFixedStringInt3 (b : WBuf) (value : Option JStr) (len : BitVec 32) : WBuf × Option JErr :=
  writeFixedStringInt b value len 0x20 false

/-- `byteBuf.readCharSequence(len, UTF_8).toString()` on a heap buffer: for a negative `len` the `String` constructor throws
`StringIndexOutOfBoundsException`, a subclass of `IndexOutOfBoundsException`, before the reader
index moves. [BinaryCodec.java:63] -/
def RBuf.readTextInt (b : RBuf) (len : BitVec 32) : RBuf × Except JErr JStr :=
  if len.toInt < 0 then (b, .error .indexOutOfBounds) else b.readText len.toInt.toNat

/-- `readFixedString(byteBuf, len, trimPadChar, padLeft)`, BinaryCodec.java:62-69. -/
def readFixedStringInt (b : RBuf) (len : BitVec 32) (pad : JChar) (padLeft : Bool) : RBuf × Except JErr JStr :=
  match b.readTextInt len with
  | (b', .error e) => (b', .error e)
  | (b', .ok value) => if padLeft then (b', .ok (trimByChar value pad true)) else (b', .ok (trimByChar value pad false))

/-- `readFixedString(byteBuf, len)`, BinaryCodec.java:58-60. -/
def readFixedStringInt2 (b : RBuf) (len : BitVec 32) : RBuf × Except JErr JStr :=
  readFixedStringInt b len 0x20 false

end FinProto
