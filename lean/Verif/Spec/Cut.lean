import Verif.Model.Basic
import Verif.Model.Names
/-
A receiver that cuts a byte stream into frames by the length field alone, the way Netty's `LengthFieldBasedFrameDecoder` does: it knows where the
length field is, its byte order and how many bytes follow the body, and nothing else (no message types, no checksum services).  Netty's own
class is not part of the repository; this is a specification of what users put in front of `decode`.
-/
namespace FinProto

/-- What such a receiver is told about a frame: the offset of the four-byte length field, its byte order, and the number of bytes
behind the body. -/
structure Framing where
  lenAt : Nat
  order : Endian
  trailer : Nat
  deriving DecidableEq

/-- The four kinds of frames: SSE (type 4, sequence number 8, length 4, body, checksum 4), SZSE (type 4, length 4, body, checksum 4), the sample root
packet (type 2, length 4, body, checksum 4, little-endian), risk control (type 4, version 4, length 4, body). -/
def framing : Cls → Option Framing
  | .sse_SseBinary => some ⟨12, .be, 4⟩
  | .szse_SzseBinary => some ⟨4, .be, 4⟩
  | .sample_RootPacket => some ⟨2, .le, 4⟩
  | .risk_RcBinary => some ⟨8, .be, 0⟩
  | _ => none

/-- The number of bytes of the frame that starts here, as the length field says. -/
def Framing.total (F : Framing) (bytes : List Byte) : Nat := F.lenAt + 4 + ofBytes F.order ((bytes.drop F.lenAt).take 4) + F.trailer

/-- These bytes are one frame as far as such a receiver can tell: the length field is there and says how many bytes there are. -/
def Framing.Whole (F : Framing) (bytes : List Byte) : Prop := F.lenAt + 4 ≤ bytes.length ∧ F.total bytes = bytes.length

/-- What such a receiver has: the frames cut off so far, the bytes not yet used, and whether it has given up. -/
structure Cutter where
  frames : List (List Byte)
  pending : List Byte
  gaveUp : Bool

/-- Cut off as many frames as there are; give up on a frame that says it has more than `max` bytes. -/
def cut (F : Framing) (max : Nat) (bytes : List Byte) : Cutter :=
  if _h : F.lenAt + 4 ≤ bytes.length then
    if max < F.total bytes then ⟨[], bytes, true⟩
    else if F.total bytes ≤ bytes.length then
      let rest := cut F max (bytes.drop (F.total bytes))
      { rest with frames := bytes.take (F.total bytes) :: rest.frames }
    else ⟨[], bytes, false⟩
  else ⟨[], bytes, false⟩
  termination_by bytes.length
  decreasing_by
    simp only [List.length_drop]
    have : 4 ≤ F.total bytes := by unfold Framing.total; omega
    omega

/-- More bytes arrive. -/
def Cutter.receive (F : Framing) (max : Nat) (i : Cutter) (chunk : List Byte) : Cutter :=
  if i.gaveUp then { i with pending := i.pending ++ chunk }
  else
    let r := cut F max (i.pending ++ chunk)
    { r with frames := i.frames ++ r.frames }

/-- The bytes arrive in these chunks. -/
def Cutter.receiveChunks (F : Framing) (max : Nat) (chunks : List (List Byte)) : Cutter :=
  chunks.foldl (Cutter.receive F max) ⟨[], [], false⟩

end FinProto
