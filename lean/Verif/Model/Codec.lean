import Verif.Model.Mini
/-
The methods of the module `codec`, statement by statement (the registry of checksum services is in `Checksum.lean`).  `Tests/RenderCodec.lean` prints them, and
`tools/roundtrip.py` compares what is printed with the files in /repo.
-/
namespace FinProto.Mini

/-! ### codec/src/main/java/com/finproto/codec/BinaryCodec.java -/
namespace BinaryCodec

/-- BinaryCodec.java:13-15. -/
def writeFixedString3 : Method :=
  ⟨[(.buf, "byteBuf"), (.string, "value"), (.int, "len")],
   [.call "writeFixedString" [.var "byteBuf", .var "value", .var "len", .chr 0x20, .lit false]]⟩

/-- BinaryCodec.java:17-31. -/
def writeFixedString5 : Method :=
  ⟨[(.buf, "byteBuf"), (.string, "value"), (.int, "len"), (.char, "padChar"), (.boolean, "padLeft")],
   [.decl .int "writedLen" (some (.dec 0)),
    .ite (.not (.isNullOrEmpty (.var "value")))
      [.decl .bytes "bytes" (some (.utf8 (.var "value"))),
       .assign "writedLen" (.min (.arrayLength (.var "bytes")) (.var "len")),
       .ite (.land (.var "padLeft") (.bin .lt (.var "writedLen") (.var "len")))
         [.call "padChar" [.var "byteBuf", .bin .sub (.var "len") (.var "writedLen"), .var "padChar"]] [],
       .writeBytes (.var "byteBuf") (.var "bytes") (.dec 0) (.var "writedLen")] [],
    .ite (.land (.not (.var "padLeft")) (.bin .lt (.var "writedLen") (.var "len")))
      [.call "padChar" [.var "byteBuf", .bin .sub (.var "len") (.var "writedLen"), .var "padChar"]] []]⟩

/-- BinaryCodec.java:33-38. -/
def padChar : Method :=
  ⟨[(.buf, "byteBuf"), (.int, "len"), (.char, "padChar")],
   [.while (.bin .gt (.var "len") (.dec 0)) [.writeByte (.var "byteBuf") (.var "padChar"), .decr "len"]]⟩

/-- BinaryCodec.java:40-56. -/
def trimByChar : Method :=
  ⟨[(.string, "s"), (.char, "ch"), (.boolean, "padLeft")],
   [.decl .int "len" (some (.length (.var "s"))),
    .decl .int "start" (some (.dec 0)),
    .decl .int "end" (some (.var "len")),
    .ite (.var "padLeft")
      [.while (.land (.bin .lt (.var "start") (.var "len")) (.bin .eq (.charAt (.var "s") (.var "start")) (.var "ch"))) [.incr "start"]]
      [.while (.land (.bin .gt (.var "end") (.dec 0)) (.bin .eq (.charAt (.var "s") (.bin .sub (.var "end") (.dec 1))) (.var "ch"))) [.decr "end"]],
    .ret (.substring (.var "s") (.var "start") (.var "end"))]⟩

/-- BinaryCodec.java:58-60. -/
def readFixedString2 : Method :=
  ⟨[(.buf, "byteBuf"), (.int, "len")],
   [.retCall "readFixedString" [.var "byteBuf", .var "len", .chr 0x20, .lit false]]⟩

/-- BinaryCodec.java:62-69. -/
def readFixedString4 : Method :=
  ⟨[(.buf, "byteBuf"), (.int, "len"), (.char, "trimPadChar"), (.boolean, "padLeft")],
   [.decl .string "value" (some (.readText (.var "byteBuf") (.var "len"))),
    .ite (.var "padLeft")
      [.retCall "trimByChar" [.var "value", .var "trimPadChar", .lit true]]
      [.retCall "trimByChar" [.var "value", .var "trimPadChar", .lit false]]]⟩

/-- The methods of `BinaryCodec` that call each other. [BinaryCodec.java:13-69] -/
def methods : Methods := fun m k =>
  match m, k with
  | "writeFixedString", 3 => some writeFixedString3
  | "writeFixedString", 5 => some writeFixedString5
  | "padChar", 3 => some padChar
  | "trimByChar", 3 => some trimByChar
  | "readFixedString", 2 => some readFixedString2
  | "readFixedString", 4 => some readFixedString4
  | _, _ => none

end BinaryCodec

/-! ### The checksum services -/

/-- A class without methods that call each other. [BinaryCodec.java:13-69] -/
def noMethods : Methods := fun _ _ => none

namespace Crc16

/-- The static initialiser, Crc16ChecksumService.java:10-22. -/
def init : List Stmt :=
  [.for "i" (.dec 0) (.bin .lt (.var "i") (.dec 256))
    [.decl .int "crc" (some (.var "i")),
     .for "j" (.dec 0) (.bin .lt (.var "j") (.dec 8))
       [.ite (.bin .ne (.paren (.bin .and (.var "crc") (.dec 1))) (.dec 0))
         [.assign "crc" (.bin .xor (.paren (.bin .ushr (.var "crc") (.dec 1))) (.hex 0xA001))]
         [.opAssign "crc" .ushr (.dec 1)]],
     .store "CRC_TABLE" (.var "i") (.var "crc")]]

/-- Crc16ChecksumService.java:25-36. -/
def calcMethod : Method :=
  ⟨[(.buf, "buf")],
   [.decl .int "crc" (some (.hex 0xFFFF)),
    .decl .int "readerIndex" (some (.readerIndex (.var "buf"))),
    .decl .int "readableBytes" (some (.readableBytes (.var "buf"))),
    .for "i" (.dec 0) (.bin .lt (.var "i") (.var "readableBytes"))
      [.decl .int "b" (some (.getUnsignedByte (.var "buf") (.bin .add (.var "readerIndex") (.var "i")))),
       .assign "crc" (.bin .xor (.paren (.bin .ushr (.var "crc") (.dec 8)))
         (.index (.var "CRC_TABLE") (.bin .and (.paren (.bin .xor (.var "crc") (.var "b"))) (.hex 0xFF))))],
    .ret (.bin .and (.var "crc") (.hex 0xFFFF))]⟩

end Crc16

namespace Crc32

/-- The static initialiser, Crc32ChecksumService.java:10-22. -/
def init : List Stmt :=
  [.for "i" (.dec 0) (.bin .lt (.var "i") (.dec 256))
    [.decl .int "c" (some (.var "i")),
     .for "j" (.dec 0) (.bin .lt (.var "j") (.dec 8))
       [.ite (.bin .ne (.paren (.bin .and (.var "c") (.dec 1))) (.dec 0))
         [.assign "c" (.bin .xor (.hex 0xEDB88320) (.paren (.bin .ushr (.var "c") (.dec 1))))]
         [.opAssign "c" .ushr (.dec 1)]],
     .store "CRC_TABLE" (.var "i") (.var "c")]]

/-- Crc32ChecksumService.java:25-36. -/
def calcMethod : Method :=
  ⟨[(.buf, "buf")],
   [.decl .int "crc" (some (.hex 0xFFFFFFFF)),
    .decl .int "readerIndex" (some (.readerIndex (.var "buf"))),
    .decl .int "readableBytes" (some (.readableBytes (.var "buf"))),
    .for "i" (.dec 0) (.bin .lt (.var "i") (.var "readableBytes"))
      [.decl .int "b" (some (.getUnsignedByte (.var "buf") (.bin .add (.var "readerIndex") (.var "i")))),
       .assign "crc" (.bin .xor (.index (.var "CRC_TABLE") (.bin .and (.paren (.bin .xor (.var "crc") (.var "b"))) (.hex 0xFF)))
         (.paren (.bin .ushr (.var "crc") (.dec 8))))],
    .ret (.bin .xor (.var "crc") (.hex 0xFFFFFFFF))]⟩

end Crc32

/-- SseBinChecksumService.java:12-22. -/
def SseBin.calcMethod : Method :=
  ⟨[(.buf, "buf")],
   [.decl .int "readerIndex" (some (.readerIndex (.var "buf"))),
    .decl .int "readableBytes" (some (.readableBytes (.var "buf"))),
    .decl .int "checksum" (some (.dec 0)),
    .for "i" (.dec 0) (.bin .lt (.var "i") (.var "readableBytes"))
      [.decl .int "b" (some (.getUnsignedByte (.var "buf") (.bin .add (.var "readerIndex") (.var "i")))),
       .assign "checksum" (.bin .and (.paren (.bin .add (.var "checksum") (.var "b"))) (.hex 0xFF))],
    .ret (.var "checksum")]⟩

/-- SzseBinChecksumService.java:12-22. -/
def SzseBin.calcMethod : Method :=
  ⟨[(.buf, "buf")],
   [.decl .int "readerIndex" (some (.readerIndex (.var "buf"))),
    .decl .int "readableBytes" (some (.readableBytes (.var "buf"))),
    .decl .long "sum" (some (.dec 0)),
    .for "i" (.dec 0) (.bin .lt (.var "i") (.var "readableBytes"))
      [.opAssign "sum" .add (.getUnsignedByte (.var "buf") (.bin .add (.var "readerIndex") (.var "i")))],
    .ret (.cast .int (.paren (.bin .rem (.var "sum") (.dec 256))))]⟩

/-! ### The bit maps.  The field is `bits`. -/

namespace ByteBitMap

/-- ByteBitMap.java:9-12. -/
def set : Method :=
  ⟨[(.int, "pos")],
   [.decl .int "bit" (some (.bin .shl (.dec 1) (.paren (.bin .sub (.dec 7) (.var "pos"))))), .opAssign "bits" .or (.var "bit")]⟩

/-- ByteBitMap.java:15-18. -/
def clear : Method :=
  ⟨[(.int, "pos")],
   [.decl .int "bit" (some (.bin .shl (.dec 1) (.paren (.bin .sub (.dec 7) (.var "pos"))))), .opAssign "bits" .and (.compl (.var "bit"))]⟩

/-- ByteBitMap.java:21-23. -/
def get : Method :=
  ⟨[(.int, "pos")],
   [.ret (.bin .ne (.paren (.bin .and (.var "bits") (.paren (.bin .shl (.dec 1) (.paren (.bin .sub (.dec 7) (.var "pos"))))))) (.dec 0))]⟩

/-- ByteBitMap.java:26-28. -/
def write : Method := ⟨[(.buf, "buf")], [.writeByte (.var "buf") (.var "bits")]⟩

/-- ByteBitMap.java:31-33. -/
def read : Method := ⟨[(.buf, "buf")], [.assign "bits" (.readByte (.var "buf"))]⟩

/-- ByteBitMap.java:36-38. -/
def bitCount : Method := ⟨[], [.ret (.dec 8)]⟩

end ByteBitMap

namespace ShortBitMap

/-- ShortBitMap.java:9-12. -/
def set : Method :=
  ⟨[(.int, "pos")],
   [.decl .int "bit" (some (.bin .shl (.dec 1) (.paren (.bin .sub (.dec 15) (.var "pos"))))), .opAssign "bits" .or (.var "bit")]⟩

/-- ShortBitMap.java:15-18. -/
def clear : Method :=
  ⟨[(.int, "pos")],
   [.decl .int "bit" (some (.bin .shl (.dec 1) (.paren (.bin .sub (.dec 15) (.var "pos"))))), .opAssign "bits" .and (.compl (.var "bit"))]⟩

/-- ShortBitMap.java:21-23. -/
def get : Method :=
  ⟨[(.int, "pos")],
   [.ret (.bin .ne (.paren (.bin .and (.var "bits") (.paren (.bin .shl (.dec 1) (.paren (.bin .sub (.dec 15) (.var "pos"))))))) (.dec 0))]⟩

/-- ShortBitMap.java:26-32. -/
def write : Method :=
  ⟨[(.buf, "buf")],
   [.decl .byte "high" (some (.cast .byte (.paren (.bin .and (.paren (.bin .shr (.var "bits") (.dec 8))) (.hex 0xFF))))),
    .decl .byte "low" (some (.cast .byte (.paren (.bin .and (.var "bits") (.hex 0xFF))))),
    .opAssign "high" .or (.hex 0x80),
    .writeByte (.var "buf") (.var "high"),
    .writeByte (.var "buf") (.var "low")]⟩

/-- ShortBitMap.java:35-39. -/
def read : Method :=
  ⟨[(.buf, "buf")],
   [.decl .byte "b1" (some (.readByte (.var "buf"))),
    .decl .byte "b2" (some (.readByte (.var "buf"))),
    .assign "bits" (.cast .short (.paren (.bin .or
      (.paren (.bin .shl (.paren (.bin .and (.var "b1") (.hex 0x7F))) (.dec 8)))
      (.paren (.bin .and (.var "b2") (.hex 0x7F))))))]⟩

/-- ShortBitMap.java:42-44. -/
def bitCount : Method := ⟨[], [.ret (.dec 16)]⟩

end ShortBitMap

namespace IntBitMap

/-- IntBitMap.java:9-12. -/
def set : Method :=
  ⟨[(.int, "pos")],
   [.decl .int "bit" (some (.bin .shl (.dec 1) (.paren (.bin .sub (.dec 31) (.var "pos"))))), .opAssign "bits" .or (.var "bit")]⟩

/-- IntBitMap.java:15-18 (sic). -/
def clear : Method :=
  ⟨[(.int, "pos")],
   [.decl .int "bit" (some (.bin .shl (.dec 1) (.paren (.bin .sub (.dec 31) (.var "pos"))))), .opAssign "bits" .or (.var "bit")]⟩

/-- IntBitMap.java:21-23. -/
def get : Method :=
  ⟨[(.int, "pos")],
   [.ret (.bin .ne (.paren (.bin .and (.var "bits") (.paren (.bin .shl (.dec 1) (.paren (.bin .sub (.dec 31) (.var "pos"))))))) (.dec 0))]⟩

/-- IntBitMap.java:26-32. -/
def write : Method :=
  ⟨[(.buf, "buf")],
   [.for "i" (.dec 0) (.bin .lt (.var "i") (.dec 4))
     [.decl .byte "b" (some (.cast .byte (.paren (.bin .and
        (.paren (.bin .shr (.var "bits") (.paren (.bin .sub (.dec 24) (.bin .mul (.var "i") (.dec 7)))))) (.hex 0x7F))))),
      .when (.bin .lt (.var "i") (.dec 3)) (.opAssign "b" .or (.hex 0x80)),
      .writeByte (.var "buf") (.var "b")]]⟩

/-- IntBitMap.java:35-45. -/
def read : Method :=
  ⟨[(.buf, "buf")],
   [.assign "bits" (.dec 0),
    .decl .boolean "cont" none,
    .decl .int "shift" (some (.dec 0)),
    .doWhile
      [.decl .byte "b" (some (.readByte (.var "buf"))),
       .assign "cont" (.bin .ne (.paren (.bin .and (.var "b") (.hex 0x80))) (.dec 0)),
       .opAssign "bits" .or (.bin .shl (.paren (.bin .and (.var "b") (.hex 0x7F))) (.var "shift")),
       .opAssign "shift" .add (.dec 7)]
      (.var "cont")]⟩

/-- IntBitMap.java:48-50. -/
def bitCount : Method := ⟨[], [.ret (.dec 32)]⟩

end IntBitMap

namespace LongBitMap

/-- LongBitMap.java:9-12. -/
def set : Method :=
  ⟨[(.int, "pos")],
   [.decl .long "bit" (some (.bin .shl (.decL 1) (.paren (.bin .sub (.dec 63) (.var "pos"))))), .opAssign "bits" .or (.var "bit")]⟩

/-- LongBitMap.java:15-18 (sic). -/
def clear : Method :=
  ⟨[(.int, "pos")],
   [.decl .long "bit" (some (.bin .shl (.decL 1) (.paren (.bin .sub (.dec 63) (.var "pos"))))), .opAssign "bits" .or (.var "bit")]⟩

/-- LongBitMap.java:21-23. -/
def get : Method :=
  ⟨[(.int, "pos")],
   [.ret (.bin .ne (.paren (.bin .and (.var "bits") (.paren (.bin .shl (.decL 1) (.paren (.bin .sub (.dec 63) (.var "pos"))))))) (.dec 0))]⟩

/-- LongBitMap.java:26-33. -/
def write : Method :=
  ⟨[(.buf, "buf")],
   [.decl .long "val" (some (.var "bits")),
    .for "i" (.dec 0) (.bin .lt (.var "i") (.dec 8))
     [.decl .byte "b" (some (.cast .byte (.paren (.bin .and
        (.paren (.bin .shr (.var "val") (.paren (.bin .sub (.dec 49) (.bin .mul (.var "i") (.dec 7)))))) (.hex 0x7F))))),
      .when (.bin .lt (.var "i") (.dec 7)) (.opAssign "b" .or (.hex 0x80)),
      .writeByte (.var "buf") (.var "b")]]⟩

/-- LongBitMap.java:36-46. -/
def read : Method :=
  ⟨[(.buf, "buf")],
   [.assign "bits" (.dec 0),
    .decl .boolean "cont" none,
    .decl .int "shift" (some (.dec 0)),
    .doWhile
      [.decl .byte "b" (some (.readByte (.var "buf"))),
       .assign "cont" (.bin .ne (.paren (.bin .and (.var "b") (.hex 0x80))) (.dec 0)),
       .opAssign "bits" .or (.bin .shl (.paren (.cast .long (.paren (.bin .and (.var "b") (.hex 0x7F))))) (.var "shift")),
       .opAssign "shift" .add (.dec 7)]
      (.var "cont")]⟩

/-- LongBitMap.java:49-51. -/
def bitCount : Method := ⟨[], [.ret (.dec 64)]⟩

end LongBitMap

end FinProto.Mini
