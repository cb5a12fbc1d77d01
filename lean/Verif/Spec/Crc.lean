import Verif.Model.Basic
/-
Specification of the checksums, independent of the lookup tables and loops of the implementation.
-/
namespace FinProto

/-- The eight bits of a byte in the order a reflected CRC consumes them: least significant first. -/
def byteBits (b : Byte) : List Bool := (List.range 8).map fun i => b.getLsbD i

/-- All bits of a message, in that order. -/
def msgBits (bs : List Byte) : List Bool := bs.flatMap byteBits

/-- The textbook reflected CRC register: shift right by one, and xor the polynomial in if the bit shifted out differs from
the message bit. -/
def crcBit {w : Nat} (poly : BitVec w) (reg : BitVec w) (bit : Bool) : BitVec w :=
  if reg.getLsbD 0 != bit then (reg >>> 1) ^^^ poly else reg >>> 1

/-- CRC with (reflected) polynomial, initial value and final xor, over the bits of a message. -/
def crcRef {w : Nat} (poly init xorOut : BitVec w) (bs : List Byte) : BitVec w :=
  (msgBits bs).foldl (crcBit poly) init ^^^ xorOut

/-- CRC-16/MODBUS: polynomial 0x8005 (reflected 0xA001), init 0xFFFF, no final xor. -/
def crc16Modbus : List Byte → BitVec 16 := crcRef 0xA001#16 0xFFFF#16 0#16

/-- CRC-32/ISO-HDLC: polynomial 0x04C11DB7 (reflected 0xEDB88320), init and final xor all ones. -/
def crc32IsoHdlc : List Byte → BitVec 32 := crcRef 0xEDB88320#32 0xFFFFFFFF#32 0xFFFFFFFF#32

/-- The sum of the bytes read as numbers 0..255. -/
def byteSum (bs : List Byte) : Nat := (bs.map (·.toNat)).sum

end FinProto
