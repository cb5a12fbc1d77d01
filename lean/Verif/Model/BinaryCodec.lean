import Verif.Model.Buf
/-
Model of codec/src/main/java/com/finproto/codec/BinaryCodec.java.
A Java `String` that may be `null` is an `Option JStr`.
-/
namespace FinProto

/-- `StringUtil.isNullOrEmpty` (Netty), used in BinaryCodec.java:20 and in every
length-prefixed string of the message classes. -/
def isNullOrEmpty (s : Option JStr) : Bool :=
  match s with
  | none => true
  | some s => s.isEmpty

/-- `padChar(byteBuf, len, padChar)`, BinaryCodec.java:33-38.  `writeByte` keeps the
low 8 bits of the char.  `len ≤ 0` writes nothing, so a `Nat` count is exact. -/
def padChar (b : WBuf) : Nat → JChar → WBuf × Option JErr
  | 0, _ => (b, none)
  | n + 1, c =>
    match b.write [c.setWidth 8] with
    | (b', none) => padChar b' n c
    | (b', some e) => (b', some e)

/-- `writeFixedString(byteBuf, value, len, padChar, padLeft)`, BinaryCodec.java:17-31, for `len ≥ 0`
(`len` is a non-negative constant at every call in the repository). -/
def writeFixedString (b : WBuf) (value : Option JStr) (len : Nat) (pad : JChar) (padLeft : Bool) :
    WBuf × Option JErr :=
  match value with
  | some (c :: cs) =>
    let bytes := utf8Enc (c :: cs)
    let writedLen := min bytes.length len
    let r1 := if padLeft && writedLen < len then padChar b (len - writedLen) pad else (b, none)
    match r1 with
    | (b1, some e) => (b1, some e)
    | (b1, none) =>
      match b1.write (bytes.take writedLen) with
      | (b2, some e) => (b2, some e)
      | (b2, none) => if !padLeft && writedLen < len then padChar b2 (len - writedLen) pad else (b2, none)
  | _ =>
    -- null or empty: writedLen = 0
    if !padLeft && 0 < len then padChar b (len - 0) pad else (b, none)

/-- `writeFixedString(byteBuf, value, len)`, BinaryCodec.java:13-15. -/
def writeFixedString3 (b : WBuf) (value : Option JStr) (len : Nat) : WBuf × Option JErr :=
  writeFixedString b value len 0x20 false

/-- The `while (start < len && s.charAt(start) == ch) start++` loop, BinaryCodec.java:45-48: what remains. -/
def trimStart (ch : JChar) : JStr → JStr
  | [] => []
  | c :: cs => if c = ch then trimStart ch cs else c :: cs

/-- The `while (end > 0 && s.charAt(end - 1) == ch) end--` loop, BinaryCodec.java:49-53; the argument is
`end`, the result the final `end`. -/
def trimEndIdx (s : JStr) (ch : JChar) : Nat → Nat
  | 0 => 0
  | n + 1 => if s[n]? = some ch then trimEndIdx s ch n else n + 1

/-- `trimByChar(s, ch, padLeft)`, BinaryCodec.java:40-56. -/
def trimByChar (s : JStr) (ch : JChar) (padLeft : Bool) : JStr :=
  if padLeft then trimStart ch s
  else s.take (trimEndIdx s ch s.length)

/-- `readFixedString(byteBuf, len, trimPadChar, padLeft)`, BinaryCodec.java:62-69, for `len ≥ 0`. -/
def readFixedString (b : RBuf) (len : Nat) (pad : JChar) (padLeft : Bool) : RBuf × Except JErr JStr :=
  match b.readText len with
  | (b', .error e) => (b', .error e)
  | (b', .ok value) => if padLeft then (b', .ok (trimByChar value pad true)) else (b', .ok (trimByChar value pad false))

/-- `readFixedString(byteBuf, len)`, BinaryCodec.java:58-60. -/
def readFixedString2 (b : RBuf) (len : Nat) : RBuf × Except JErr JStr :=
  readFixedString b len 0x20 false

end FinProto
