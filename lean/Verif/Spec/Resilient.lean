import Verif.Spec.Cut
import Verif.Spec.Flips
import Verif.Spec.Integrity
import Verif.Spec.Receive
/-
Vocabulary for C102: a receiver that cuts the stream by the length fields and takes only frames with the right checksum, and damage on the way.
-/
namespace FinProto

/-- The checksum service each kind of frame asks for, and its name. -/
def guardian : Cls → Option (String × Service)
  | .sse_SseBinary => some ("SSE_BIN", sseBinService)
  | .szse_SzseBinary => some ("SZSE_BIN", szseBinService)
  | .sample_RootPacket => some ("CRC32", crc32Service)
  | _ => none

/-- One frame to be sent: its fields, and the buffer it is encoded into. -/
structure Sending where
  fields : List Val
  buf : WBuf

/-- The buffer has no unread bytes, and `encode` of the frame into it succeeds. -/
def Sending.Ok (w : World) (n : Nat) (c : Cls) (x : Sending) : Prop :=
  wellTyped (.obj c x.fields) = true ∧ x.buf.Valid ∧ x.buf.rd = x.buf.data.length ∧ x.buf.maxCap < 2 ^ 31
    ∧ (encode w n (.obj c x.fields) x.buf).2.2 = none

/-- The bytes `encode` has appended. -/
def Sending.bytes (w : World) (n : Nat) (c : Cls) (x : Sending) : List Byte :=
  (encode w n (.obj c x.fields) x.buf).2.1.data.drop x.buf.data.length

/-- The message as it is after `encode`, seen by a receiver (`received`: the well-known effects of fixed-width texts and of empty strings and lists). -/
def Sending.message (w : World) (n : Nat) (c : Cls) (x : Sending) : Val := received (encode w n (.obj c x.fields) x.buf).1

/-- Damage the checksum is good for: for the two sums one changed byte; for CRC-32 changes within 32 consecutive bits, up to three flipped bits in
at most 11454 bytes, or up to four in at most 375 bytes. -/
def Slight (c : Cls) (p q : List Byte) : Prop :=
  match c with
  | .sample_RootPacket =>
    BurstChanged 32 p q ∨ (q ≠ p ∧ ((p.length ≤ 11454 ∧ (flips p q).length ≤ 3) ∨ (p.length ≤ 375 ∧ (flips p q).length ≤ 4)))
  | _ => OneByteChanged p q

/-- What arrives of the bytes `p` of a frame: the bytes themselves, or as many bytes with the same length field and slight damage elsewhere. -/
def Arrives (c : Cls) (F : Framing) (p q : List Byte) : Prop :=
  q = p ∨ (q.length = p.length ∧ (q.drop F.lenAt).take 4 = (p.drop F.lenAt).take 4 ∧ Slight c p q)

/-- The receiver: the bytes that have arrived in these chunks are cut by the length fields, frames that `accepts` refuses are dropped, the others decoded
into new objects. -/
def takeIn (s : Service) (w : World) (n : Nat) (c : Cls) (F : Framing) (max : Nat) (chunks : List (List Byte)) : List Val :=
  (Cutter.receiveChunks F max chunks).frames.filterMap fun f =>
    if accepts s w n c f then some (.obj c (decode w n c (freshFields c) ⟨f, [], 0⟩).1) else none

/-- The messages of the frames that have arrived as they were sent, in order. -/
def undamaged (w : World) (n : Nat) (c : Cls) (xs : List Sending) (arrived : List (List Byte)) : List Val :=
  (xs.zip arrived).filterMap fun (x, q) => if q = x.bytes w n c then some (x.message w n c) else none

end FinProto
