import Verif.Spec.Factory
/-
Specification for C100: the texts of the exceptions about unknown message types and application ids.
-/
namespace FinProto

/-- A key as a reader of the log sees it: integers in decimal, texts as they are. -/
def keyText : Key → JStr
  | .null => js "null"
  | .int v => js (toString v.toInt)
  | .short v => js (toString v.toInt)
  | .str s => s

/-- The factories of the five kinds of frames; their keys are message types. -/
def frameFactories : List Fac := [.sample_RootPacket, .sse_SseBinary, .szse_SzseBinary, .bjse_BjseBinary, .risk_RcBinary]

/-- What `create` of a factory says about a key that it does not know. -/
def unsupported (f : Fac) (k : Key) : JStr :=
  if f ∈ frameFactories then js "Unsupported MsgType:" ++ keyText k else js "Unsupported ApplID:" ++ keyText k

/-- Two keys of one type, none of them null. -/
def Key.alike : Key → Key → Bool
  | .int _, .int _ | .short _, .short _ | .str _, .str _ => true
  | _, _ => false

end FinProto
