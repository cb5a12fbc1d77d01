import Verif.Model.Open
import Verif.Spec.Wire
/-
What the frames look like on the wire, independently of the code, and what it means that a body appends bytes.
-/
namespace FinProto

inductive Frame
  | sse    -- SseBinary (Shanghai)
  | szse   -- SzseBinary (Shenzhen)
  | root   -- RootPacket (sample)
  | rc     -- RcBinary (risk control)
  | bjse   -- BjseBinary (Beijing): the only one that computes neither length nor checksum
  deriving DecidableEq, Repr

namespace Frame

def cls : Frame → Cls
  | sse => .sse_SseBinary
  | szse => .szse_SzseBinary
  | root => .sample_RootPacket
  | rc => .risk_RcBinary
  | bjse => .bjse_BjseBinary

/-- Byte order of the header. -/
def order : Frame → Endian
  | root | bjse => .le
  | _ => .be

/-- Types of the header fields in front of the length; the first one is the message type. -/
def head : Frame → List PTy
  | sse => [.i32, .i64]
  | szse | bjse => [.i32]
  | root => [.i16]
  | rc => [.i32, .i32]

/-- Name of the checksum algorithm, for frames that compute a checksum. -/
def alg : Frame → Option String
  | sse => some "SSE_BIN"
  | szse => some "SZSE_BIN"
  | root => some "CRC32"
  | rc | bjse => none

/-- Does the frame end in a checksum? -/
def hasCk : Frame → Bool
  | rc => false
  | _ => true

/-- The factory that makes the body. -/
def fac : Frame → Fac
  | sse => .sse_SseBinary
  | szse => .szse_SzseBinary
  | root => .sample_RootPacket
  | rc => .risk_RcBinary
  | bjse => .bjse_BjseBinary

/-- The fields of a frame with these header values, length and checksum; `.null` stands for the body. -/
def fields (F : Frame) (hd : List Num) (len ck : Num) : List Val :=
  hd.map .num ++ [.num len, .null] ++ (if F.hasCk then [.num ck] else [])

/-- The header in front of the length on the wire. -/
def headBytes (F : Frame) (hd : List Num) : List Byte := hd.flatMap (·.bytes F.order)

/-- A Java int on the wire. -/
def int (F : Frame) (k : Nat) : List Byte := toBytes F.order 4 k

/-- The checksum on the wire, for frames that have one. -/
def ckBytes (F : Frame) (ck : Num) : List Byte := if F.hasCk then ck.bytes F.order else []

/-- The key under which the body's supplier is looked up. -/
def key (hd : List Num) : Key :=
  match hd with
  | n :: _ => keyOf (.num n)
  | [] => .null

/-- The buffer behind header and length. -/
def behindLength (F : Frame) (hd : List Num) (b : RBuf) : RBuf := { b with rd := b.rd + (F.headBytes hd).length + 4 }

end Frame

/-- The buffer after appending `bs`. -/
def WBuf.with (b : WBuf) (bs : List Byte) : WBuf := { b with data := b.data ++ bs }

/-- Encoding the body (if there is one) into `b` appends `bs`, changes nothing else in the buffer and leaves the body as `part'`. -/
def BodyAppends {U : Type} (w : OWorld U) (part : Option U) (b : WBuf) (bs : List Byte) (part' : Option U) : Prop :=
  match part with
  | none => bs = [] ∧ part' = none
  | some u => ∃ u', part' = some u' ∧ w.enc u b = (u', b.with bs, none)

/-- The field of interface type of a class, if it has one. -/
def partField (c : Cls) : Option Nat := (decl c).fields.findIdx? fun f => f.2 == .codec

/-- The application that supplies only what `Interp.lean` covers: bodies are messages of the repository (with call-stack depth `n`),
suppliers return objects, checksum services are functions of the readable bytes. -/
def closedApp (w : World) (n : Nat) : OWorld Val where
  base := w
  svc a := (w.svc.getService a).map fun s b => (b, .ok (some (s.calcOn b.readable)))
  sup f k := (w.fac f k).map fun v => .ok (match v with | .null => none | v => some v)
  enc v b := let r := encode w n v b; (r.1, r.2.1, r.2.2.map .java)
  dec v b :=
    match v with
    | .obj c fs => let r := decode w n c fs b; (.obj c r.1, r.2.1, r.2.2.map .java)
    | v => (v, b, some (.java .illTyped))

/-- The message with its part put into field `p`. -/
def OMsg.toFields (m : OMsg Val) (p : Nat) : List Val := m.fs.set p (m.part.getD .null)

/-- The messages with an `applExtend` field: the extension is the last field. -/
def extensible : List Cls := [.bjse_AllegeQuote, .bjse_ExecutionConfirm, .bjse_ExecutionReport, .bjse_NewOrder, .bjse_Quote,
  .bjse_QuoteResponse, .bjse_QuoteStatusReport, .bjse_TradeCaptureCofirm, .bjse_TradeCaptureConfirm, .bjse_TradeCaptureReport,
  .bjse_TradeCaptureReportAck, .szse_ExecutionConfirm, .szse_ExecutionReport, .szse_NewOrder]

/-- Factory and position of the key field (`applId`) for the extension of a message, from its layout. -/
def extensionOf (c : Cls) : Option (Fac × Nat) := (wire c).findSome? fun | .ext fac key => some (fac, key) | _ => none

/-- The factory key in field `k`. -/
def keyAt (fs : List Val) (k : Nat) : Key :=
  match fs[k]? with
  | some v => keyOf v
  | none => .null

end FinProto
