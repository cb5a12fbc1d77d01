import Verif.Model.Utf8
/-
The part of Netty's `ByteBuf` (4.1.100.Final, heap or pooled heap buffer) used by
fin-proto-java.  Library model; part of the trusted base.

A buffer is seen through two views.  `WBuf` is what writing needs: the written bytes
`[0, writerIndex)`, the reader index and the maximum capacity.  `RBuf` is what reading
needs: additionally the bytes of the backing array behind the writer index (`spare`),
because `readCharSequence` is checked only against the backing array.
-/
namespace FinProto

/-- A buffer as `encode` uses it. [SseBinary.java:61] -/
structure WBuf where
  /-- bytes `[0, writerIndex)` -/
  data : List Byte
  /-- readerIndex -/
  rd : Nat
  /-- maxCapacity -/
  maxCap : Nat
  deriving DecidableEq, Repr

/-- A buffer as `decode` and `calc` use it. [SseBinary.java:83] -/
structure RBuf where
  /-- bytes `[0, writerIndex)` -/
  data : List Byte
  /-- bytes of the backing array from the writer index on (stale content) -/
  spare : List Byte
  /-- readerIndex -/
  rd : Nat
  deriving DecidableEq, Repr

/-- Bytes `[readerIndex, writerIndex)`. [Crc32ChecksumService.java:27-28] -/
def WBuf.readable (b : WBuf) : List Byte := b.data.drop b.rd

/-- Netty's invariant `readerIndex ≤ writerIndex ≤ maxCapacity`. [Crc32ChecksumService.java:27-28]
-/
def WBuf.Valid (b : WBuf) : Prop := b.rd ≤ b.data.length ∧ b.data.length ≤ b.maxCap

/-- Bytes `[readerIndex, writerIndex)`. [Crc32ChecksumService.java:27-28] -/
def RBuf.readable (b : RBuf) : List Byte := b.data.drop b.rd

/-- `writerIndex()`. [SseBinary.java:64] -/
def WBuf.wr (b : WBuf) : Nat := b.data.length

/-- `writeByte/Short/Int/Long/...`, `writeBytes`: append all bytes, or throw
`IndexOutOfBoundsException` (and write nothing) when they do not fit below `maxCapacity`.
[SseBinary.java:62-65, StringPacket.java:130-131] -/
def WBuf.write (b : WBuf) (bs : List Byte) : WBuf × Option JErr :=
  if b.data.length + bs.length ≤ b.maxCap then ({ b with data := b.data ++ bs }, none)
  else (b, some .indexOutOfBounds)

/-- Replace `bs.length` bytes from position `i` on. [SseBinary.java:73] -/
def overwrite (d : List Byte) (i : Nat) (bs : List Byte) : List Byte :=
  d.take i ++ bs ++ d.drop (i + bs.length)

/-- `setInt/setIntLE(index, v)`: overwrite already allocated bytes; throws when the range is not inside
the buffer. (Simplification: the capacity is taken to be the writer index; the code only
overwrites bytes it has written.) [SseBinary.java:73, RootPacket.java:63] -/
def WBuf.set (b : WBuf) (i : Nat) (bs : List Byte) : WBuf × Option JErr :=
  if i + bs.length ≤ b.data.length then ({ b with data := overwrite b.data i bs }, none)
  else (b, some .indexOutOfBounds)

/-- `readByte/Short/Int/Long/...`: checked against the writer index. [SseBinary.java:84-86] -/
def RBuf.readNum (b : RBuf) (e : Endian) (t : PTy) : RBuf × Except JErr Num :=
  if b.rd + t.size ≤ b.data.length then
    ({ b with rd := b.rd + t.size }, .ok (Num.ofBytes e t ((b.data.drop b.rd).take t.size)))
  else (b, .error .indexOutOfBounds)

/-- `readCharSequence(len, UTF_8).toString()` for `len ≥ 0`: Netty decodes straight from the backing array
(`ByteBufUtil.decodeString`), so the only check is against the end of that array
(`StringIndexOutOfBoundsException`, a subclass of `IndexOutOfBoundsException`);
`len = 0` gives `""` without any check. The reader index then advances by `len`
without a check against the writer index. [BinaryCodec.java:63, StringPacket.java:215] -/
def RBuf.readText (b : RBuf) (len : Nat) : RBuf × Except JErr JStr :=
  if len = 0 then (b, .ok [])
  else if b.rd + len ≤ (b.data ++ b.spare).length then
    ({ b with rd := b.rd + len }, .ok (utf8Dec (((b.data ++ b.spare).drop b.rd).take len)))
  else (b, .error .indexOutOfBounds)

end FinProto
