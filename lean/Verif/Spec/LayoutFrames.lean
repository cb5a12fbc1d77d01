import Verif.Spec.LayoutTypes
/-
Hand-written wire layouts: the five protocol frames and `RiskResult` (which has no unit test).
Sources: the protocols' frame definitions (message type, [sequence number / version], body length, body, [checksum]).
-/
namespace FinProto.Layout

/-- Sample frame: 16-bit type, body length, body, CRC-32. -/
def sample_RootPacket : List (String × WTy) := [
  ("msgType", .num .i16),
  ("payloadLen", .len .i32),
  ("payload", .ext .sample_RootPacket 0),
  ("checksum", .cksum .i32 "CRC32")]

/-- SSE frame: type, sequence number, body length, body, byte-sum checksum. -/
def sse_SseBinary : List (String × WTy) := [
  ("msgType", .num .i32),
  ("msgSeqNum", .num .i64),
  ("msgBodyLen", .len .i32),
  ("body", .ext .sse_SseBinary 0),
  ("checksum", .cksum .i32 "SSE_BIN")]

/-- SZSE frame: type, body length, body, byte-sum checksum. -/
def szse_SzseBinary : List (String × WTy) := [
  ("msgType", .num .i32),
  ("bodyLength", .len .i32),
  ("body", .ext .szse_SzseBinary 0),
  ("checksum", .cksum .i32 "SZSE_BIN")]

/-- BJSE frame: the sender fills in length and checksum itself; they are plain numbers. -/
def bjse_BjseBinary : List (String × WTy) := [
  ("msgType", .num .i32),
  ("bodyLength", .num .i32),
  ("body", .ext .bjse_BjseBinary 0),
  ("checksum", .num .i32)]

/-- Risk-control frame: type, version, body length, body; no checksum. -/
def risk_RcBinary : List (String × WTy) := [
  ("msgType", .num .i32),
  ("version", .num .i32),
  ("msgBodyLen", .len .i32),
  ("body", .ext .risk_RcBinary 0)]

/-- Risk check result. -/
def risk_RiskResult : List (String × WTy) := [
  ("uniqueOrderId", .vstr),
  ("riskStatus", .num .i8),
  ("riskReason", .vstr)]

end FinProto.Layout
