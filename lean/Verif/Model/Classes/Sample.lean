import Verif.Model.IR
/- GENERATED by tools/gen.py from the Java sources in /repo; do not edit. -/

namespace FinProto

/-! ### sample-bin/src/main/java/com/finproto/sample/messages/BasicPacket.java:10-514 -/
namespace Sample.BasicPacket
/-- Fields, BasicPacket.java:11-32. -/
def fields : List (String × FTy) := [("fieldI8", .prim .i8), ("fieldI16", .prim .i16), ("fieldI32", .prim .i32), ("fieldI64", .prim .i64), ("fieldChar", .str), ("fieldU8", .prim .i8), ("fieldU16", .prim .i16), ("fieldU32", .prim .i32), ("fieldU64", .prim .i64), ("fieldF32", .prim .f32), ("fieldF64", .prim .f64), ("fieldI8List", .list (.prim .i8)), ("fieldI16List", .list (.prim .i16)), ("fieldI32List", .list (.prim .i32)), ("fieldI64List", .list (.prim .i64)), ("fieldCharList", .list (.str)), ("fieldU8List", .list (.prim .i8)), ("fieldU16List", .list (.prim .i16)), ("fieldU32List", .list (.prim .i32)), ("fieldU64List", .list (.prim .i64)), ("fieldF32List", .list (.prim .f32)), ("fieldF64List", .list (.prim .f64))]
/-- Accessors (property, getter field, setter field), BasicPacket.java:34-210. -/
def acc : List (String × Nat × Nat) := [("FieldI8", 0, 0), ("FieldI16", 1, 1), ("FieldI32", 2, 2), ("FieldI64", 3, 3), ("FieldChar", 4, 4), ("FieldU8", 5, 5), ("FieldU16", 6, 6), ("FieldU32", 7, 7), ("FieldU64", 8, 8), ("FieldF32", 9, 9), ("FieldF64", 10, 10), ("FieldI8List", 11, 11), ("FieldI16List", 12, 12), ("FieldI32List", 13, 13), ("FieldI64List", 14, 14), ("FieldCharList", 15, 15), ("FieldU8List", 16, 16), ("FieldU16List", 17, 17), ("FieldU32List", 18, 18), ("FieldU64List", 19, 19), ("FieldF32List", 20, 20), ("FieldF64List", 21, 21)]
/-- `encode`, BasicPacket.java:210-311. -/
def enc : List EncStmt := [
  .num 0 .i8 .be,  -- 212: fieldI8
  .num 1 .i16 .le,  -- 213: fieldI16
  .num 2 .i32 .le,  -- 214: fieldI32
  .num 3 .i64 .le,  -- 215: fieldI64
  .fixed 4 1 0x30 true,  -- 216: fieldChar
  .num 5 .i8 .be,  -- 217: fieldU8
  .num 6 .i16 .le,  -- 218: fieldU16
  .num 7 .i32 .le,  -- 219: fieldU32
  .num 8 .i64 .le,  -- 220: fieldU64
  .num 9 .f32 .le,  -- 221: fieldF32
  .num 10 .f64 .le,  -- 222: fieldF64
  .list 11 .i16 .i16 .le (.num .i8 .be),  -- 229: fieldI8List
  .list 12 .i16 .i16 .le (.num .i16 .le),  -- 237: fieldI16List
  .list 13 .i16 .i16 .le (.num .i32 .le),  -- 245: fieldI32List
  .list 14 .i16 .i16 .le (.num .i64 .le),  -- 253: fieldI64List
  .list 15 .i16 .i16 .le (.fixed 1 0x30 true),  -- 261: fieldCharList
  .list 16 .i16 .i16 .le (.num .i8 .be),  -- 269: fieldU8List
  .list 17 .i16 .i16 .le (.num .i16 .le),  -- 277: fieldU16List
  .list 18 .i16 .i16 .le (.num .i32 .le),  -- 285: fieldU32List
  .list 19 .i16 .i16 .le (.num .i64 .le),  -- 293: fieldU64List
  .list 20 .i16 .i16 .le (.num .f32 .le),  -- 301: fieldF32List
  .list 21 .i16 .i16 .le (.num .f64 .le)  -- 309: fieldF64List
]
/-- `decode`, BasicPacket.java:313-403. -/
def dec : List DecStmt := [
  .num 0 .i8 .be,  -- 315: fieldI8
  .num 1 .i16 .le,  -- 316: fieldI16
  .num 2 .i32 .le,  -- 317: fieldI32
  .num 3 .i64 .le,  -- 318: fieldI64
  .fixed 4 1 0x30 true,  -- 319: fieldChar
  .num 5 .i8 .be,  -- 320: fieldU8
  .num 6 .i16 .le,  -- 321: fieldU16
  .num 7 .i32 .le,  -- 322: fieldU32
  .num 8 .i64 .le,  -- 323: fieldU64
  .num 9 .f32 .le,  -- 324: fieldF32
  .num 10 .f64 .le,  -- 325: fieldF64
  .list 11 .i16 .le (.num .i8 .be),  -- 331: fieldI8List
  .list 12 .i16 .le (.num .i16 .le),  -- 338: fieldI16List
  .list 13 .i16 .le (.num .i32 .le),  -- 345: fieldI32List
  .list 14 .i16 .le (.num .i64 .le),  -- 352: fieldI64List
  .list 15 .i16 .le (.fixed 1 0x30 true),  -- 359: fieldCharList
  .list 16 .i16 .le (.num .i8 .be),  -- 366: fieldU8List
  .list 17 .i16 .le (.num .i16 .le),  -- 373: fieldU16List
  .list 18 .i16 .le (.num .i32 .le),  -- 380: fieldU32List
  .list 19 .i16 .le (.num .i64 .le),  -- 387: fieldU64List
  .list 20 .i16 .le (.num .f32 .le),  -- 394: fieldF32List
  .list 21 .i16 .le (.num .f64 .le)  -- 401: fieldF64List
]
/-- `hashCode`, BasicPacket.java:405. -/
def hash : HashBody := .fields [0, 1, 2, 3, 4, 5, 6, 7, 8, 9, 10, 11, 12, 13, 14, 15, 16, 17, 18, 19, 20, 21]
/-- `equals`, BasicPacket.java:432. -/
def eqs : List (Nat × Nat) := [(0, 0), (1, 1), (2, 2), (3, 3), (4, 4), (5, 5), (6, 6), (7, 7), (8, 8), (9, 9), (10, 10), (11, 11), (12, 12), (13, 13), (14, 14), (15, 15), (16, 16), (17, 17), (18, 18), (19, 19), (20, 20), (21, 21)]
/-- `toString`, BasicPacket.java:465. -/
def str : List StrPart := [.lit "BasicPacket [", .lit "fieldI8=", .field 0, .lit ", fieldI16=", .field 1, .lit ", fieldI32=", .field 2, .lit ", fieldI64=", .field 3, .lit ", fieldChar=", .field 4, .lit ", fieldU8=", .field 5, .lit ", fieldU16=", .field 6, .lit ", fieldU32=", .field 7, .lit ", fieldU64=", .field 8, .lit ", fieldF32=", .field 9, .lit ", fieldF64=", .field 10, .lit ", fieldI8List=", .field 11, .lit ", fieldI16List=", .field 12, .lit ", fieldI32List=", .field 13, .lit ", fieldI64List=", .field 14, .lit ", fieldCharList=", .field 15, .lit ", fieldU8List=", .field 16, .lit ", fieldU16List=", .field 17, .lit ", fieldU32List=", .field 18, .lit ", fieldU64List=", .field 19, .lit ", fieldF32List=", .field 20, .lit ", fieldF64List=", .field 21, .lit "]"]
/-- sample-bin/src/main/java/com/finproto/sample/messages/BasicPacket.java:10-514 -/
def decl : ClassDecl := ⟨"BasicPacket", fields, acc, enc, dec, hash, eqs, str⟩
end Sample.BasicPacket

/-! ### sample-bin/src/main/java/com/finproto/sample/messages/EmptyPacket.java:7-35 -/
namespace Sample.EmptyPacket
/-- Fields (none), EmptyPacket.java:7. -/
def fields : List (String × FTy) := []
/-- Accessors (property, getter field, setter field), EmptyPacket.java:7. -/
def acc : List (String × Nat × Nat) := []
/-- `encode`, EmptyPacket.java:9-10. -/
def enc : List EncStmt := [
]
/-- `decode`, EmptyPacket.java:12-13. -/
def dec : List DecStmt := [
]
/-- `hashCode`, EmptyPacket.java:15. -/
def hash : HashBody := .self
/-- `equals`, EmptyPacket.java:20. -/
def eqs : List (Nat × Nat) := []
/-- `toString`, EmptyPacket.java:31. -/
def str : List StrPart := [.lit "EmptyPacket []"]
/-- sample-bin/src/main/java/com/finproto/sample/messages/EmptyPacket.java:7-35 -/
def decl : ClassDecl := ⟨"EmptyPacket", fields, acc, enc, dec, hash, eqs, str⟩
end Sample.EmptyPacket

/-! ### sample-bin/src/main/java/com/finproto/sample/messages/NestedPacket.java:10-179 -/
namespace Sample.NestedPacket
/-- Fields, NestedPacket.java:11-13. -/
def fields : List (String × FTy) := [("subPacket", .obj .sample_SubPacket), ("subPacketList", .list (.obj .sample_SubPacket)), ("inerPacket", .obj .sample_NestedPacket_InerPacket)]
/-- Accessors (property, getter field, setter field), NestedPacket.java:15-39. -/
def acc : List (String × Nat × Nat) := [("SubPacket", 0, 0), ("SubPacketList", 1, 1), ("InerPacket", 2, 2)]
/-- `encode`, NestedPacket.java:39-51. -/
def enc : List EncStmt := [
  .obj 0,  -- 41: subPacket
  .list 1 .i16 .i16 .le (.obj),  -- 48: subPacketList
  .obj 2  -- 50: inerPacket
]
/-- `decode`, NestedPacket.java:53-72. -/
def dec : List DecStmt := [
  .obj 0 .sample_SubPacket,  -- 55: subPacket
  .list 1 .i16 .le (.obj .sample_SubPacket),  -- 66: subPacketList
  .obj 2 .sample_NestedPacket_InerPacket  -- 68: inerPacket
]
/-- `hashCode`, NestedPacket.java:74. -/
def hash : HashBody := .fields [0, 1, 2]
/-- `equals`, NestedPacket.java:79. -/
def eqs : List (Nat × Nat) := [(0, 0), (1, 1), (2, 2)]
/-- `toString`, NestedPacket.java:93. -/
def str : List StrPart := [.lit "NestedPacket [", .lit "subPacket=", .field 0, .lit ", subPacketList=", .field 1, .lit ", inerPacket=", .field 2, .lit "]"]
/-- sample-bin/src/main/java/com/finproto/sample/messages/NestedPacket.java:10-179 -/
def decl : ClassDecl := ⟨"NestedPacket", fields, acc, enc, dec, hash, eqs, str⟩
end Sample.NestedPacket

/-! ### sample-bin/src/main/java/com/finproto/sample/messages/NestedPacket.java:106-178 -/
namespace Sample.NestedPacket_InerPacket
/-- Fields, NestedPacket.java:107-108. -/
def fields : List (String × FTy) := [("fieldU32", .prim .i32), ("fieldI16List", .list (.prim .i16))]
/-- Accessors (property, getter field, setter field), NestedPacket.java:110-126. -/
def acc : List (String × Nat × Nat) := [("FieldU32", 0, 0), ("FieldI16List", 1, 1)]
/-- `encode`, NestedPacket.java:126-137. -/
def enc : List EncStmt := [
  .num 0 .i32 .le,  -- 128: fieldU32
  .list 1 .i16 .i16 .le (.num .i16 .le)  -- 135: fieldI16List
]
/-- `decode`, NestedPacket.java:139-149. -/
def dec : List DecStmt := [
  .num 0 .i32 .le,  -- 141: fieldU32
  .list 1 .i16 .le (.num .i16 .le)  -- 147: fieldI16List
]
/-- `hashCode`, NestedPacket.java:151. -/
def hash : HashBody := .fields [0, 1]
/-- `equals`, NestedPacket.java:156. -/
def eqs : List (Nat × Nat) := [(0, 0), (1, 1)]
/-- `toString`, NestedPacket.java:169. -/
def str : List StrPart := [.lit "InerPacket [", .lit "fieldU32=", .field 0, .lit ", fieldI16List=", .field 1, .lit "]"]
/-- sample-bin/src/main/java/com/finproto/sample/messages/NestedPacket.java:106-178 -/
def decl : ClassDecl := ⟨"InerPacket", fields, acc, enc, dec, hash, eqs, str⟩
end Sample.NestedPacket_InerPacket

/-! ### sample-bin/src/main/java/com/finproto/sample/messages/RootPacket.java:13-146 -/
namespace Sample.RootPacket
/-- Fields, RootPacket.java:14-17. -/
def fields : List (String × FTy) := [("msgType", .prim .i16), ("payloadLen", .prim .i32), ("payload", .codec), ("checksum", .prim .i32)]
/-- Accessors (property, getter field, setter field), RootPacket.java:19-51. -/
def acc : List (String × Nat × Nat) := [("MsgType", 0, 0), ("PayloadLen", 1, 1), ("Payload", 2, 2), ("Checksum", 3, 3)]
/-- `encode`, RootPacket.java:51-70. -/
def enc : List EncStmt := [
  .num 0 .i16 .le,  -- 53: msgType
  .save 0,  -- 54: int payloadLenPos
  .zero .i32 .le,  -- 55: write(0)
  .save 1,  -- 57: int payloadStart
  .objOpt 2,  -- 58: payload
  .save 2,  -- 61: int payloadEnd
  .setLen 1 2 1,  -- 62: payloadLen = payloadEnd - payloadStart
  .patch 0 1 .i32 .le,  -- 63: set(payloadLenPos, payloadLen)
  .checksum 3 "CRC32",  -- 64: checksum
  .num 3 .i32 .le  -- 69: checksum
]
/-- `decode`, RootPacket.java:72-79. -/
def dec : List DecStmt := [
  .num 0 .i16 .le,  -- 74: msgType
  .num 1 .i32 .le,  -- 75: payloadLen
  .create 2 .sample_RootPacket 0,  -- 76: payload
  .call 2,  -- 77: payload
  .num 3 .i32 .le  -- 78: checksum
]
/-- `hashCode`, RootPacket.java:81. -/
def hash : HashBody := .fields [0, 1, 2, 3]
/-- `equals`, RootPacket.java:86. -/
def eqs : List (Nat × Nat) := [(0, 0), (1, 1), (2, 2), (3, 3)]
/-- `toString`, RootPacket.java:101. -/
def str : List StrPart := [.lit "RootPacket [", .lit "msgType=", .field 0, .lit ", payloadLen=", .field 1, .lit ", payload=", .field 2, .lit ", checksum=", .field 3, .lit "]"]
/-- sample-bin/src/main/java/com/finproto/sample/messages/RootPacket.java:13-146 -/
def decl : ClassDecl := ⟨"RootPacket", fields, acc, enc, dec, hash, eqs, str⟩
end Sample.RootPacket

/-! ### sample-bin/src/main/java/com/finproto/sample/messages/StringPacket.java:12-356 -/
namespace Sample.StringPacket
/-- Fields, StringPacket.java:13-24. -/
def fields : List (String × FTy) := [("fieldDynamicString", .str), ("fieldDynamicString1", .str), ("fieldFixedString1", .str), ("fieldFixedString10", .str), ("fieldFixedString10Pad", .str), ("fieldFixedString10PadWithNullTerminator", .str), ("fieldDynamicStringList", .list (.str)), ("fieldDynamicString1List", .list (.str)), ("fieldFixedString1List", .list (.str)), ("fieldFixedString10List", .list (.str)), ("fieldFixedString10ListPad", .list (.str)), ("fieldFixedString10PadWithNullTerminatorList", .list (.str))]
/-- Accessors (property, getter field, setter field), StringPacket.java:26-124. -/
def acc : List (String × Nat × Nat) := [("FieldDynamicString", 0, 0), ("FieldDynamicString1", 1, 1), ("FieldFixedString1", 2, 2), ("FieldFixedString10", 3, 3), ("FieldFixedString10Pad", 4, 4), ("FieldFixedString10PadWithNullTerminator", 5, 5), ("FieldDynamicStringList", 6, 6), ("FieldDynamicString1List", 7, 7), ("FieldFixedString1List", 8, 8), ("FieldFixedString10List", 9, 9), ("FieldFixedString10ListPad", 10, 10), ("FieldFixedString10PadWithNullTerminatorList", 11, 11)]
/-- `encode`, StringPacket.java:124-208. -/
def enc : List EncStmt := [
  .dyn 0 .i16 .i16 .le,  -- 126: fieldDynamicString
  .dyn 1 .i16 .i16 .le,  -- 134: fieldDynamicString1
  .fixed 2 1 0x30 true,  -- 142: fieldFixedString1
  .fixed 3 10 0x30 true,  -- 143: fieldFixedString10
  .fixed 4 10 0x20 true,  -- 144: fieldFixedString10Pad
  .fixed 5 10 0x0 false,  -- 145: fieldFixedString10PadWithNullTerminator
  .list 6 .i16 .i16 .le (.dyn .i16 .i16 .le),  -- 158: fieldDynamicStringList
  .list 7 .i16 .i16 .le (.dyn .i16 .i16 .le),  -- 172: fieldDynamicString1List
  .list 8 .i16 .i16 .le (.fixed 1 0x30 true),  -- 180: fieldFixedString1List
  .list 9 .i16 .i16 .le (.fixed 10 0x30 true),  -- 188: fieldFixedString10List
  .list 10 .i16 .i16 .le (.fixed 10 0x30 false),  -- 196: fieldFixedString10ListPad
  .list 11 .i16 .i16 .le (.fixed 10 0x0 false)  -- 206: fieldFixedString10PadWithNullTerminatorList
]
/-- `decode`, StringPacket.java:210-281. -/
def dec : List DecStmt := [
  .dyn 0 .i16 .le,  -- 212: fieldDynamicString
  .dyn 1 .i16 .le,  -- 217: fieldDynamicString1
  .fixed 2 1 0x30 true,  -- 222: fieldFixedString1
  .fixed 3 10 0x30 true,  -- 223: fieldFixedString10
  .fixed 4 10 0x20 true,  -- 224: fieldFixedString10Pad
  .fixed 5 10 0x0 false,  -- 225: fieldFixedString10PadWithNullTerminator
  .list 6 .i16 .le (.dyn .i16 .le),  -- 237: fieldDynamicStringList
  .list 7 .i16 .le (.dyn .i16 .le),  -- 250: fieldDynamicString1List
  .list 8 .i16 .le (.fixed 1 0x30 true),  -- 257: fieldFixedString1List
  .list 9 .i16 .le (.fixed 10 0x30 true),  -- 264: fieldFixedString10List
  .list 10 .i16 .le (.fixed 10 0x30 false),  -- 271: fieldFixedString10ListPad
  .list 11 .i16 .le (.fixed 10 0x0 false)  -- 279: fieldFixedString10PadWithNullTerminatorList
]
/-- `hashCode`, StringPacket.java:283. -/
def hash : HashBody := .fields [0, 1, 2, 3, 4, 5, 6, 7, 8, 9, 10, 11]
/-- `equals`, StringPacket.java:300. -/
def eqs : List (Nat × Nat) := [(0, 0), (1, 1), (2, 2), (3, 3), (4, 4), (5, 5), (6, 6), (7, 7), (8, 8), (9, 9), (10, 10), (11, 11)]
/-- `toString`, StringPacket.java:327. -/
def str : List StrPart := [.lit "StringPacket [", .lit "fieldDynamicString=", .field 0, .lit ", fieldDynamicString1=", .field 1, .lit ", fieldFixedString1=", .field 2, .lit ", fieldFixedString10=", .field 3, .lit ", fieldFixedString10Pad=", .field 4, .lit ", fieldFixedString10PadWithNullTerminator=", .field 5, .lit ", fieldDynamicStringList=", .field 6, .lit ", fieldDynamicString1List=", .field 7, .lit ", fieldFixedString1List=", .field 8, .lit ", fieldFixedString10List=", .field 9, .lit ", fieldFixedString10ListPad=", .field 10, .lit ", fieldFixedString10PadWithNullTerminatorList=", .field 11, .lit "]"]
/-- sample-bin/src/main/java/com/finproto/sample/messages/StringPacket.java:12-356 -/
def decl : ClassDecl := ⟨"StringPacket", fields, acc, enc, dec, hash, eqs, str⟩
end Sample.StringPacket

/-! ### sample-bin/src/main/java/com/finproto/sample/messages/SubPacket.java:10-82 -/
namespace Sample.SubPacket
/-- Fields, SubPacket.java:11-12. -/
def fields : List (String × FTy) := [("fieldU32", .prim .i32), ("fieldI16List", .list (.prim .i16))]
/-- Accessors (property, getter field, setter field), SubPacket.java:14-30. -/
def acc : List (String × Nat × Nat) := [("FieldU32", 0, 0), ("FieldI16List", 1, 1)]
/-- `encode`, SubPacket.java:30-41. -/
def enc : List EncStmt := [
  .num 0 .i32 .le,  -- 32: fieldU32
  .list 1 .i16 .i16 .le (.num .i16 .le)  -- 39: fieldI16List
]
/-- `decode`, SubPacket.java:43-53. -/
def dec : List DecStmt := [
  .num 0 .i32 .le,  -- 45: fieldU32
  .list 1 .i16 .le (.num .i16 .le)  -- 51: fieldI16List
]
/-- `hashCode`, SubPacket.java:55. -/
def hash : HashBody := .fields [0, 1]
/-- `equals`, SubPacket.java:60. -/
def eqs : List (Nat × Nat) := [(0, 0), (1, 1)]
/-- `toString`, SubPacket.java:73. -/
def str : List StrPart := [.lit "SubPacket [", .lit "fieldU32=", .field 0, .lit ", fieldI16List=", .field 1, .lit "]"]
/-- sample-bin/src/main/java/com/finproto/sample/messages/SubPacket.java:10-82 -/
def decl : ClassDecl := ⟨"SubPacket", fields, acc, enc, dec, hash, eqs, str⟩
end Sample.SubPacket

end FinProto
