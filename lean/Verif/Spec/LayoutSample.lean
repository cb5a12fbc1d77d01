import Verif.Spec.LayoutTypes
/- GENERATED by tools/gen.py from the unit tests in /repo/*/src/test; do not edit. -/
namespace FinProto.Layout

/-- sample-bin/src/test/java/com/finproto/sample/messages/BasicPacketTest.java:12 -/
def sample_BasicPacket : List (String × WTy) := [("fieldI8", .num .i8),
  ("fieldI16", .num .i16),
  ("fieldI32", .num .i32),
  ("fieldI64", .num .i64),
  ("fieldChar", .text 1 0x30 true),
  ("fieldU8", .num .i8),
  ("fieldU16", .num .i16),
  ("fieldU32", .num .i32),
  ("fieldU64", .num .i64),
  ("fieldF32", .num .f32),
  ("fieldF64", .num .f64),
  ("fieldI8List", .list (.num .i8)),
  ("fieldI16List", .list (.num .i16)),
  ("fieldI32List", .list (.num .i32)),
  ("fieldI64List", .list (.num .i64)),
  ("fieldCharList", .list (.text 1 0x30 true)),
  ("fieldU8List", .list (.num .i8)),
  ("fieldU16List", .list (.num .i16)),
  ("fieldU32List", .list (.num .i32)),
  ("fieldU64List", .list (.num .i64)),
  ("fieldF32List", .list (.num .f32)),
  ("fieldF64List", .list (.num .f64))]

/-- sample-bin/src/test/java/com/finproto/sample/messages/EmptyPacketTest.java:11 -/
def sample_EmptyPacket : List (String × WTy) := []

/-- sample-bin/src/test/java/com/finproto/sample/messages/NestedPacketTest.java:12 -/
def sample_NestedPacket : List (String × WTy) := [("subPacket", .sub .sample_SubPacket),
  ("subPacketList", .list (.sub .sample_SubPacket)),
  ("inerPacket", .sub .sample_NestedPacket_InerPacket)]

/-- sample-bin/src/test/java/com/finproto/sample/messages/NestedPacketTest.java:12 -/
def sample_NestedPacket_InerPacket : List (String × WTy) := [("fieldU32", .num .i32),
  ("fieldI16List", .list (.num .i16))]

/-- sample-bin/src/test/java/com/finproto/sample/messages/StringPacketTest.java:12 -/
def sample_StringPacket : List (String × WTy) := [("fieldDynamicString", .vstr),
  ("fieldDynamicString1", .vstr),
  ("fieldFixedString1", .text 1 0x30 true),
  ("fieldFixedString10", .text 10 0x30 true),
  ("fieldFixedString10Pad", .text 10 0x20 true),
  ("fieldFixedString10PadWithNullTerminator", .text 10 0x00 false),
  ("fieldDynamicStringList", .list (.vstr)),
  ("fieldDynamicString1List", .list (.vstr)),
  ("fieldFixedString1List", .list (.text 1 0x30 true)),
  ("fieldFixedString10List", .list (.text 10 0x30 true)),
  ("fieldFixedString10ListPad", .list (.text 10 0x30 false)),
  ("fieldFixedString10PadWithNullTerminatorList", .list (.text 10 0x00 false))]

/-- sample-bin/src/test/java/com/finproto/sample/messages/SubPacketTest.java:12 -/
def sample_SubPacket : List (String × WTy) := [("fieldU32", .num .i32),
  ("fieldI16List", .list (.num .i16))]

end FinProto.Layout
