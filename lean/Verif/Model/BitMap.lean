import Verif.Model.Buf
/-
Model of codec/src/main/java/com/finproto/bitmap/{Byte,Short,Int,Long}BitMap.java.
Positions are Java `int`s.  Java masks shift distances: `1 << k` uses `k & 31`, `1L << k` uses `k & 63`.
-/
namespace FinProto

/-- Java `1 << k` for an `int` k. [IntBitMap.java:10] -/
def shl1Int (k : BitVec 32) : BitVec 32 := 1#32 <<< (k &&& 31#32).toNat

/-- Java `1L << k` for an `int` k. [LongBitMap.java:10] -/
def shl1Long (k : BitVec 32) : BitVec 64 := 1#64 <<< (k &&& 63#32).toNat

namespace ByteBitMap
/-- ByteBitMap.java:9-12: `bits |= bit` on a `byte` field (widen, or, narrow). -/
def set (bits : BitVec 8) (pos : BitVec 32) : BitVec 8 := (bits.signExtend 32 ||| shl1Int (7#32 - pos)).setWidth 8
/-- ByteBitMap.java:15-18. -/
def clear (bits : BitVec 8) (pos : BitVec 32) : BitVec 8 := (bits.signExtend 32 &&& ~~~ shl1Int (7#32 - pos)).setWidth 8
/-- ByteBitMap.java:21-23. -/
def get (bits : BitVec 8) (pos : BitVec 32) : Bool := bits.signExtend 32 &&& shl1Int (7#32 - pos) != 0
/-- ByteBitMap.java:26-28. -/
def write (bits : BitVec 8) (b : WBuf) : WBuf × Option JErr := b.write [bits]
/-- ByteBitMap.java:31-33. -/
def read (bits : BitVec 8) (b : RBuf) : BitVec 8 × RBuf × Option JErr :=
  match b.readNum .be .i8 with
  | (b', .ok n) => (n.bits.setWidth 8, b', none)
  | (b', .error e) => (bits, b', some e)
/-- ByteBitMap.java:36-38. -/
def bitCount : Nat := 8
end ByteBitMap

namespace ShortBitMap
/-- ShortBitMap.java:9-12. -/
def set (bits : BitVec 16) (pos : BitVec 32) : BitVec 16 := (bits.signExtend 32 ||| shl1Int (15#32 - pos)).setWidth 16
/-- ShortBitMap.java:15-18. -/
def clear (bits : BitVec 16) (pos : BitVec 32) : BitVec 16 := (bits.signExtend 32 &&& ~~~ shl1Int (15#32 - pos)).setWidth 16
/-- ShortBitMap.java:21-23. -/
def get (bits : BitVec 16) (pos : BitVec 32) : Bool := bits.signExtend 32 &&& shl1Int (15#32 - pos) != 0
/-- `high` of ShortBitMap.java:27 and 29. -/
def high (bits : BitVec 16) : BitVec 8 := (((bits.signExtend 32).sshiftRight 8) &&& 0xFF#32).setWidth 8 ||| 0x80#8
/-- `low` of ShortBitMap.java:28. -/
def low (bits : BitVec 16) : BitVec 8 := (bits.signExtend 32 &&& 0xFF#32).setWidth 8
/-- ShortBitMap.java:26-32: two separate `writeByte` calls. -/
def write (bits : BitVec 16) (b : WBuf) : WBuf × Option JErr :=
  match b.write [high bits] with
  | (b', some e) => (b', some e)
  | (b', none) => b'.write [low bits]
/-- The value assembled in ShortBitMap.java:38. -/
def combine (b1 b2 : BitVec 8) : BitVec 16 :=
  (((b1.signExtend 32 &&& 0x7F#32) <<< 8) ||| (b2.signExtend 32 &&& 0x7F#32)).setWidth 16
/-- ShortBitMap.java:35-39. -/
def read (bits : BitVec 16) (b : RBuf) : BitVec 16 × RBuf × Option JErr :=
  match b.readNum .be .i8 with
  | (b', .error e) => (bits, b', some e)
  | (b', .ok n1) =>
    match b'.readNum .be .i8 with
    | (b'', .error e) => (bits, b'', some e)
    | (b'', .ok n2) => (combine (n1.bits.setWidth 8) (n2.bits.setWidth 8), b'', none)
/-- ShortBitMap.java:42-44. -/
def bitCount : Nat := 16
end ShortBitMap

namespace IntBitMap
/-- IntBitMap.java:9-12. -/
def set (bits : BitVec 32) (pos : BitVec 32) : BitVec 32 := bits ||| shl1Int (31#32 - pos)
/-- IntBitMap.java:15-18 (sic: `bits |= bit`). -/
def clear (bits : BitVec 32) (pos : BitVec 32) : BitVec 32 := bits ||| shl1Int (31#32 - pos)
/-- IntBitMap.java:21-23. -/
def get (bits : BitVec 32) (pos : BitVec 32) : Bool := bits &&& shl1Int (31#32 - pos) != 0
/-- Byte `i` of IntBitMap.java:28-29 (`24 - i * 7` is 24, 17, 10, 3: never negative). -/
def outByte (bits : BitVec 32) (i : Nat) : BitVec 8 :=
  let b : BitVec 8 := ((bits.sshiftRight (24 - i * 7)) &&& 0x7F#32).setWidth 8
  if i < 3 then b ||| 0x80#8 else b
/-- The loop of IntBitMap.java:27-31 from index `i`, with `n` iterations to go. -/
def writeLoop (bits : BitVec 32) : Nat → Nat → WBuf → WBuf × Option JErr
  | 0, _, b => (b, none)
  | n + 1, i, b =>
    match b.write [outByte bits i] with
    | (b', none) => writeLoop bits n (i + 1) b'
    | (b', some e) => (b', some e)
/-- IntBitMap.java:26-32. -/
def write (bits : BitVec 32) (b : WBuf) : WBuf × Option JErr := writeLoop bits 4 0 b
/-- The do-while loop of IntBitMap.java:39-44 with the current `bits` and `shift`.  `fuel` bounds the iterations; each
iteration reads one byte, so `readable + 1` iterations always suffice (theorem C21). -/
def readLoop : Nat → BitVec 32 → BitVec 32 → RBuf → BitVec 32 × RBuf × Option JErr
  | 0, bits, _, b => (bits, b, some .stackOverflow)
  | fuel + 1, bits, shift, b =>
    match b.readNum .be .i8 with
    | (b', .error e) => (bits, b', some e)
    | (b', .ok n) =>
      let x : BitVec 32 := n.bits.signExtend 32
      let bits' := bits ||| ((x &&& 0x7F#32) <<< (shift &&& 31#32).toNat)
      if x &&& 0x80#32 ≠ 0 then readLoop fuel bits' (shift + 7) b' else (bits', b', none)
/-- IntBitMap.java:35-45. -/
def read (_bits : BitVec 32) (b : RBuf) : BitVec 32 × RBuf × Option JErr :=
  readLoop (b.readable.length + 1) 0 0 b
/-- IntBitMap.java:48-50. -/
def bitCount : Nat := 32
end IntBitMap

namespace LongBitMap
/-- LongBitMap.java:9-12. -/
def set (bits : BitVec 64) (pos : BitVec 32) : BitVec 64 := bits ||| shl1Long (63#32 - pos)
/-- LongBitMap.java:15-18 (sic: `bits |= bit`). -/
def clear (bits : BitVec 64) (pos : BitVec 32) : BitVec 64 := bits ||| shl1Long (63#32 - pos)
/-- LongBitMap.java:21-23. -/
def get (bits : BitVec 64) (pos : BitVec 32) : Bool := bits &&& shl1Long (63#32 - pos) != 0
/-- Byte `i` of LongBitMap.java:29-30 (`49 - i * 7` is 49 … 0: never negative). -/
def outByte (bits : BitVec 64) (i : Nat) : BitVec 8 :=
  let b : BitVec 8 := ((bits.sshiftRight (49 - i * 7)) &&& 0x7F#64).setWidth 8
  if i < 7 then b ||| 0x80#8 else b
/-- The loop of LongBitMap.java:28-32. -/
def writeLoop (bits : BitVec 64) : Nat → Nat → WBuf → WBuf × Option JErr
  | 0, _, b => (b, none)
  | n + 1, i, b =>
    match b.write [outByte bits i] with
    | (b', none) => writeLoop bits n (i + 1) b'
    | (b', some e) => (b', some e)
/-- LongBitMap.java:26-33. -/
def write (bits : BitVec 64) (b : WBuf) : WBuf × Option JErr := writeLoop bits 8 0 b
/-- The do-while loop of LongBitMap.java:40-45. -/
def readLoop : Nat → BitVec 64 → BitVec 32 → RBuf → BitVec 64 × RBuf × Option JErr
  | 0, bits, _, b => (bits, b, some .stackOverflow)
  | fuel + 1, bits, shift, b =>
    match b.readNum .be .i8 with
    | (b', .error e) => (bits, b', some e)
    | (b', .ok n) =>
      let x : BitVec 32 := n.bits.signExtend 32
      let bits' := bits ||| (((x &&& 0x7F#32).signExtend 64) <<< (shift &&& 63#32).toNat)
      if x &&& 0x80#32 ≠ 0 then readLoop fuel bits' (shift + 7) b' else (bits', b', none)
/-- LongBitMap.java:36-46. -/
def read (_bits : BitVec 64) (b : RBuf) : BitVec 64 × RBuf × Option JErr :=
  readLoop (b.readable.length + 1) 0 0 b
/-- LongBitMap.java:49-51. -/
def bitCount : Nat := 64
end LongBitMap

end FinProto
