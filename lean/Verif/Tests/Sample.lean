import Verif.Tests.Common
/-
The unit tests of /repo/sample-bin/src/test, transcribed by tools/tests.py.
-/
namespace FinProto.Tests.Sample

/-- sample-bin/src/test/java/com/finproto/sample/messages/BasicPacketTest.java:12 -/
example : roundTrip (
    let original := fresh .sample_BasicPacket
    let original := original.setter "FieldI8" (.num ⟨.i8, 1⟩)
    let original := original.setter "FieldI16" (.num ⟨.i16, 2⟩)
    let original := original.setter "FieldI32" (.num ⟨.i32, 4⟩)
    let original := original.setter "FieldI64" (.num ⟨.i64, 8⟩)
    let original := original.setter "FieldChar" (.str (js "1"))
    let original := original.setter "FieldU8" (.num ⟨.i8, 1⟩)
    let original := original.setter "FieldU16" (.num ⟨.i16, 2⟩)
    let original := original.setter "FieldU32" (.num ⟨.i32, 4⟩)
    let original := original.setter "FieldU64" (.num ⟨.i64, 8⟩)
    let original := original.setter "FieldF32" (.num ⟨.f32, 0x40800000⟩)
    let original := original.setter "FieldF64" (.num ⟨.f64, 0x4020000000000000⟩)
    let original := original.setter "FieldI8List" (.list [.num ⟨.i8, 1⟩])
    let original := original.setter "FieldI16List" (.list [.num ⟨.i16, 2⟩])
    let original := original.setter "FieldI32List" (.list [.num ⟨.i32, 4⟩])
    let original := original.setter "FieldI64List" (.list [.num ⟨.i64, 8⟩])
    let original := original.setter "FieldCharList" (.list [.str (js "1")])
    let original := original.setter "FieldU8List" (.list [.num ⟨.i8, 1⟩])
    let original := original.setter "FieldU16List" (.list [.num ⟨.i16, 2⟩])
    let original := original.setter "FieldU32List" (.list [.num ⟨.i32, 4⟩])
    let original := original.setter "FieldU64List" (.list [.num ⟨.i64, 8⟩])
    let original := original.setter "FieldF32List" (.list [.num ⟨.f32, 0x40800000⟩])
    let original := original.setter "FieldF64List" (.list [.num ⟨.f64, 0x4020000000000000⟩])
    original) = true := by decide +kernel

/-- sample-bin/src/test/java/com/finproto/sample/messages/EmptyPacketTest.java:11 -/
example : roundTrip (
    let original := fresh .sample_EmptyPacket
    original) = true := by decide +kernel

/-- sample-bin/src/test/java/com/finproto/sample/messages/NestedPacketTest.java:12 -/
example : roundTrip (
    let original := fresh .sample_NestedPacket
    let subPacket0 := fresh .sample_SubPacket
    let subPacket0 := subPacket0.setter "FieldU32" (.num ⟨.i32, 4⟩)
    let subPacket0 := subPacket0.setter "FieldI16List" (.list [.num ⟨.i16, 2⟩])
    let original := original.setter "SubPacket" (subPacket0)
    let subPacketList0 := fresh .sample_SubPacket
    let subPacketList0 := subPacketList0.setter "FieldU32" (.num ⟨.i32, 4⟩)
    let subPacketList0 := subPacketList0.setter "FieldI16List" (.list [.num ⟨.i16, 2⟩])
    let original := original.setter "SubPacketList" (.list [subPacketList0])
    let inerPacket := fresh .sample_NestedPacket_InerPacket
    let inerPacket := inerPacket.setter "FieldU32" (.num ⟨.i32, 4⟩)
    let inerPacket := inerPacket.setter "FieldI16List" (.list [.num ⟨.i16, 2⟩])
    let original := original.setter "InerPacket" (inerPacket)
    original) = true := by decide +kernel

/-- sample-bin/src/test/java/com/finproto/sample/messages/RootPacketTest.java:12 -/
example : roundTrip (
    let original := fresh .sample_RootPacket
    let original := original.setter "MsgType" (.num ⟨.i16, 1⟩)
    let basicPacket := fresh .sample_BasicPacket
    let basicPacket := basicPacket.setter "FieldI8" (.num ⟨.i8, 1⟩)
    let basicPacket := basicPacket.setter "FieldI16" (.num ⟨.i16, 2⟩)
    let basicPacket := basicPacket.setter "FieldI32" (.num ⟨.i32, 4⟩)
    let basicPacket := basicPacket.setter "FieldI64" (.num ⟨.i64, 8⟩)
    let basicPacket := basicPacket.setter "FieldChar" (.str (js "1"))
    let basicPacket := basicPacket.setter "FieldU8" (.num ⟨.i8, 1⟩)
    let basicPacket := basicPacket.setter "FieldU16" (.num ⟨.i16, 2⟩)
    let basicPacket := basicPacket.setter "FieldU32" (.num ⟨.i32, 4⟩)
    let basicPacket := basicPacket.setter "FieldU64" (.num ⟨.i64, 8⟩)
    let basicPacket := basicPacket.setter "FieldF32" (.num ⟨.f32, 0x40800000⟩)
    let basicPacket := basicPacket.setter "FieldF64" (.num ⟨.f64, 0x4020000000000000⟩)
    let basicPacket := basicPacket.setter "FieldI8List" (.list [.num ⟨.i8, 1⟩])
    let basicPacket := basicPacket.setter "FieldI16List" (.list [.num ⟨.i16, 2⟩])
    let basicPacket := basicPacket.setter "FieldI32List" (.list [.num ⟨.i32, 4⟩])
    let basicPacket := basicPacket.setter "FieldI64List" (.list [.num ⟨.i64, 8⟩])
    let basicPacket := basicPacket.setter "FieldCharList" (.list [.str (js "1")])
    let basicPacket := basicPacket.setter "FieldU8List" (.list [.num ⟨.i8, 1⟩])
    let basicPacket := basicPacket.setter "FieldU16List" (.list [.num ⟨.i16, 2⟩])
    let basicPacket := basicPacket.setter "FieldU32List" (.list [.num ⟨.i32, 4⟩])
    let basicPacket := basicPacket.setter "FieldU64List" (.list [.num ⟨.i64, 8⟩])
    let basicPacket := basicPacket.setter "FieldF32List" (.list [.num ⟨.f32, 0x40800000⟩])
    let basicPacket := basicPacket.setter "FieldF64List" (.list [.num ⟨.f64, 0x4020000000000000⟩])
    let original := original.setter "Payload" (basicPacket)
    let original := original.setter "Checksum" (.num ⟨.i32, 4⟩)
    original) = true := by decide +kernel

/-- sample-bin/src/test/java/com/finproto/sample/messages/StringPacketTest.java:12 -/
example : roundTrip (
    let original := fresh .sample_StringPacket
    let original := original.setter "FieldDynamicString" (.str (js "example"))
    let original := original.setter "FieldDynamicString1" (.str (js "example"))
    let original := original.setter "FieldFixedString1" (.str (js "1"))
    let original := original.setter "FieldFixedString10" (.str (js "1111111111"))
    let original := original.setter "FieldFixedString10Pad" (.str (js "1111111111"))
    let original := original.setter "FieldFixedString10PadWithNullTerminator" (.str (js "1111111111"))
    let original := original.setter "FieldDynamicStringList" (.list [.str (js "example")])
    let original := original.setter "FieldDynamicString1List" (.list [.str (js "example")])
    let original := original.setter "FieldFixedString1List" (.list [.str (js "1")])
    let original := original.setter "FieldFixedString10List" (.list [.str (js "1111111111")])
    let original := original.setter "FieldFixedString10ListPad" (.list [.str (js "1111111111")])
    let original := original.setter "FieldFixedString10PadWithNullTerminatorList" (.list [.str (js "1111111111")])
    original) = true := by decide +kernel

/-- sample-bin/src/test/java/com/finproto/sample/messages/SubPacketTest.java:12 -/
example : roundTrip (
    let original := fresh .sample_SubPacket
    let original := original.setter "FieldU32" (.num ⟨.i32, 4⟩)
    let original := original.setter "FieldI16List" (.list [.num ⟨.i16, 2⟩])
    original) = true := by decide +kernel

end FinProto.Tests.Sample
