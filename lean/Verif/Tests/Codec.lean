import Verif.Tests.Common
/-
The unit tests of /repo/codec/src/test, transcribed by hand.
-/
namespace FinProto.Tests.Codec

/-- `Unpooled.buffer()` -/
def empty : WBuf := ⟨[], 0, 0x7FFFFFFF⟩

/-- `String.trim` -/
def trim (s : JStr) : JStr := ((s.dropWhile fun c => c.toNat ≤ 0x20).reverse.dropWhile fun c => c.toNat ≤ 0x20).reverse

def bytes (s : String) : List Byte := s.toList.map fun c => BitVec.ofNat 8 c.toNat

/-- BinaryCodecTest.java:28 -/
example : writeFixedString3 empty (some (js "hello")) 8 = (⟨bytes "hello   ", 0, 0x7FFFFFFF⟩, none) := by decide +kernel

/-- BinaryCodecTest.java:41 -/
example : writeFixedString3 empty none 5 = (⟨bytes "     ", 0, 0x7FFFFFFF⟩, none) := by decide +kernel

/-- BinaryCodecTest.java:54 -/
example : writeFixedString3 empty (some []) 4 = (⟨bytes "    ", 0, 0x7FFFFFFF⟩, none) := by decide +kernel

/-- BinaryCodecTest.java:67 -/
example : writeFixedString3 empty (some (js "this is too long")) 5 = (⟨bytes "this ", 0, 0x7FFFFFFF⟩, none) := by decide +kernel

/-- BinaryCodecTest.java:80 -/
example : let r := readFixedString2 ⟨[0] ++ bytes "hello" ++ [0, 0], [], 0⟩ 8;
    r.2.toOption.map trim = some (js "hello") ∧ r.1.rd = 8 := by decide +kernel

/-- BinaryCodecTest.java:97 -/
example : let s : JStr := [0x3053, 0x3093, 0x306B, 0x3061, 0x306F];
    (readFixedString2 ⟨utf8Enc s, [], 0⟩ (utf8Enc s).length).2.toOption = some s := by decide +kernel

/-- BinaryCodecTest.java:111 -/
example : let w := writeFixedString3 empty (some (js "test")) 10; 0 < w.1.data.length
    ∧ (readFixedString2 ⟨w.1.data, [], 0⟩ 10).2.toOption.map trim = some (js "test") := by decide +kernel

/-- BinaryCodecTest.java:124 -/
example : let w := writeFixedString3 empty (some (js "decode_test")) 10;
    (readFixedString2 ⟨w.1.data, [], 0⟩ 10).1.rd = w.1.data.length := by decide +kernel

/-- BinaryCodecTest.java:142 -/
example : let w := writeFixedString3 empty (some (js "test")) 10; 0 < w.1.data.length
    ∧ (readFixedString2 ⟨w.1.data, [], 0⟩ 10).1.rd = w.1.data.length := by decide +kernel

/-- Crc16ChecksumServiceTest.java:11 -/
example : (crc16Calc ⟨bytes "123456789", [], 0⟩).toOption = some 0x4B37#32 := by decide +kernel

/-- Crc32ChecksumServiceTest.java:11 -/
example : (crc32Calc ⟨bytes "123456789", [], 0⟩).toOption = some 0xCBF43926#32 := by decide +kernel

/-- ByteBitMapTest.java:11 -/
example : (List.range 8).all (fun i => ByteBitMap.get 0 (BitVec.ofNat 32 i) == false)
    ∧ let bm := ByteBitMap.set (ByteBitMap.set (ByteBitMap.set 0 0) 3) 7;
      (List.range 8).all fun i => ByteBitMap.get bm (BitVec.ofNat 32 i) == (i == 0 || i == 3 || i == 7) := by decide +kernel

/-- ByteBitMapTest.java:34 -/
example : let bm := ByteBitMap.set (ByteBitMap.set 0 0) 5;
    ByteBitMap.get bm 0 = true ∧ ByteBitMap.get bm 5 = true
      ∧ ByteBitMap.get (ByteBitMap.clear bm 0) 0 = false ∧ ByteBitMap.get (ByteBitMap.clear bm 0) 5 = true
      ∧ ByteBitMap.get (ByteBitMap.clear (ByteBitMap.clear bm 0) 5) 5 = false := by decide +kernel

/-- ByteBitMapTest.java:51 -/
example : let bm := ByteBitMap.set (ByteBitMap.set (ByteBitMap.set 0 1) 4) 7;
    let w := ByteBitMap.write bm empty;
    w.1.data.length = 1 ∧ (List.range 8).all fun i =>
      ByteBitMap.get bm (BitVec.ofNat 32 i) == ByteBitMap.get (ByteBitMap.read 0 ⟨w.1.data, [], 0⟩).1 (BitVec.ofNat 32 i) := by decide +kernel

/-- ByteBitMapTest.java:72 -/
example : (List.range 256).all (fun mask =>
    let bm := (List.range 8).foldl (fun bm pos => if (mask >>> (7 - pos)) % 2 == 1 then ByteBitMap.set bm (BitVec.ofNat 32 pos) else bm) 0
    let w := ByteBitMap.write bm empty
    (List.range 8).all fun i =>
      ByteBitMap.get bm (BitVec.ofNat 32 i) == ByteBitMap.get (ByteBitMap.read 0 ⟨w.1.data, [], 0⟩).1 (BitVec.ofNat 32 i)) := by decide +kernel

end FinProto.Tests.Codec
