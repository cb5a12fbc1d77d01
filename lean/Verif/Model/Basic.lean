/-
Java values used by fin-proto-java: bytes, UTF-16 strings, primitive types, byte orders.
Library model (JDK / Netty); part of the trusted base.
-/
namespace FinProto

/-- A Java `byte` / one octet of a Netty buffer. [BasicPacket.java:16] -/
abbrev Byte := BitVec 8

/-- A Java `char`: one UTF-16 code unit (surrogates allowed, paired or not). [BinaryCodec.java:18
(`char padChar`)] -/
abbrev JChar := BitVec 16

/-- A non-null Java `String`: any sequence of UTF-16 code units. [StringPacket.java:13-18] -/
abbrev JStr := List JChar

/-- Java literal from a Lean literal (characters of the Basic Multilingual Plane only).
[SseBinary.java:75, SseBinary.java:204] -/
def js (s : String) : JStr := s.toList.map fun c => BitVec.ofNat 16 c.toNat

/-- The throwables that the modelled code can raise.  `illTyped` is not a Java
exception: it marks model states a Java program cannot reach because it would
not compile (e.g. a `String` stored in an `int` field). [SseBinary.java:204
(`IllegalArgumentException`); the others come from the JVM and Netty, e.g. at NestedPacket.java:41
(null) and SseBinary.java:84 (too few bytes)] -/
inductive JErr
  | indexOutOfBounds
  | illegalArgument
  | nullPointer
  | stackOverflow
  | illTyped
  deriving DecidableEq, Repr

/-- Byte order of a multi-byte Netty accessor (`writeInt` = `be`, `writeIntLE` = `le`).
[SseBinary.java:62, RootPacket.java:55] -/
inductive Endian
  | be
  | le
  deriving DecidableEq, Repr

/-- Java primitive types that occur in messages. [BasicPacket.java:11-21] -/
inductive PTy
  | i8 | i16 | i32 | i64 | f32 | f64
  deriving DecidableEq, Repr

/-- Width in bytes. [BasicPacket.java:212-222] -/
def PTy.size : PTy → Nat
  | .i8 => 1 | .i16 => 2 | .i32 => 4 | .i64 => 8 | .f32 => 4 | .f64 => 8

/-- Is it an integer type? [BasicPacket.java:11-21] -/
def PTy.isInt : PTy → Bool
  | .i8 | .i16 | .i32 | .i64 => true
  | .f32 | .f64 => false

/-- Width in bits. [BasicPacket.java:11-21] -/
abbrev PTy.bits (t : PTy) : Nat := 8 * t.size

/-- A primitive value: its type and its bit pattern (two's complement for the
integers, raw IEEE bits for `float`/`double`). [BasicPacket.java:11-21] -/
structure Num where
  ty : PTy
  bits : BitVec ty.bits
  deriving DecidableEq, Repr

/-- Java's implicit conversion of a primitive argument: identity, or sign-extension /
truncation between integer types (`writeShort(int)` keeps the low 16 bits,
assigning a `short` to an `int` sign-extends).  `none` where Java needs floating-point
conversion (does not occur). [RootPacket.java:53 (`writeShortLE(int)` of a `short`),
NestedPacket.java:45] -/
def Num.convert (n : Num) (t : PTy) : Option Num :=
  if h : n.ty = t then some ⟨t, h ▸ n.bits⟩
  else if n.ty.isInt && t.isInt then some ⟨t, n.bits.signExtend t.bits⟩
  else none

/-- The `k` low-order bytes of a natural number, least significant first. [RootPacket.java:53-55] -/
def leBytes : Nat → Nat → List Byte
  | 0, _ => []
  | k + 1, v => BitVec.ofNat 8 v :: leBytes k (v / 256)

/-- Value of a byte sequence, least significant byte first. [RootPacket.java:74-75] -/
def leVal : List Byte → Nat
  | [] => 0
  | b :: bs => b.toNat + 256 * leVal bs

/-- `k` bytes of `v` in the given byte order. [SseBinary.java:62-65, RootPacket.java:53-55] -/
def toBytes (e : Endian) (k v : Nat) : List Byte :=
  match e with
  | .le => leBytes k v
  | .be => (leBytes k v).reverse

/-- Unsigned value of a byte sequence in the given byte order. [SseBinary.java:84-86,
RootPacket.java:74-75] -/
def ofBytes (e : Endian) (bs : List Byte) : Nat :=
  match e with
  | .le => leVal bs
  | .be => leVal bs.reverse

/-- The bytes Netty's `writeXxx[LE]` emits for a value. [SseBinary.java:62-65,
BasicPacket.java:212-222] -/
def Num.bytes (e : Endian) (n : Num) : List Byte := toBytes e n.ty.size n.bits.toNat

/-- The value Netty's `readXxx[LE]` builds from `t.size` bytes. [SseBinary.java:84-86,
BasicPacket.java:315-325] -/
def Num.ofBytes (e : Endian) (t : PTy) (bs : List Byte) : Num :=
  ⟨t, BitVec.ofNat t.bits (FinProto.ofBytes e bs)⟩

/-- A Java `int` as primitive value. [SseBinary.java:65, SseBinary.java:72] -/
abbrev Num.int (v : BitVec 32) : Num := ⟨.i32, v⟩

end FinProto
