import Verif.Spec.Stream
import Verif.Spec.Receive
/-
Specification: a journal of messages in a file, written by a process that crashes and starts again.

The process encodes each message into a new buffer and appends its bytes to the file.  At some moment it crashes, and of the bytes it has written since it
started only the first ones are in the file.  When it starts again it reads the journal with `unpack` (`Spec/Stream.lean`: `decode` one message after the
other), cuts off the bytes behind the last whole message, and goes on.
-/
namespace FinProto.Journal

/-- One life of the process: the checksum services and suppliers it has registered, its call stack, the messages it writes, and how many bytes of them are
in the file after the crash. -/
structure Life where
  w : World
  depth : Nat
  msgs : List Val
  kept : Nat

/-- What `encode` does with a message and a new buffer of capacity `cap`. -/
def Life.written (cap : Nat) (l : Life) (v : Val) : Val × WBuf × Option JErr := encode l.w l.depth v ⟨[], 0, cap⟩

/-- The bytes of a message in the journal. -/
def Life.record (cap : Nat) (l : Life) (v : Val) : List Byte := (l.written cap v).2.1.data

/-- The file at the end of a life that has found `file` and cut off what is behind the last whole message of class `c`. -/
def Life.after (cap : Nat) (wr : World) (m : Nat) (c : Cls) (file : List Byte) (l : Life) : List Byte :=
  file.take (file.length - (unpack wr m c file).pending.length) ++ (l.msgs.map (l.record cap)).flatten.take l.kept

/-- The file after these lives. -/
def file (cap : Nat) (wr : World) (m : Nat) (c : Cls) (lives : List Life) : List Byte := lives.foldl (Life.after cap wr m c) []

/-- Of records of these lengths, how many are whole in the first `k` bytes? -/
def wholeIn : List Nat → Nat → Nat
  | [], _ => 0
  | len :: lens, k => if len ≤ k then wholeIn lens (k - len) + 1 else 0

/-- The messages of a life (as `encode` left them) whose bytes are all in the file. -/
def Life.saved (cap : Nat) (l : Life) : List Val :=
  (l.msgs.map fun v => (l.written cap v).1).take (wholeIn (l.msgs.map fun v => (l.record cap v).length) l.kept)

/-- The messages of the journal are of class `c`, they can be encoded, and the reader can represent them. -/
def Life.Writes (cap : Nat) (wr : World) (m : Nat) (c : Cls) (l : Life) : Prop :=
  ∀ v ∈ l.msgs, (∃ fs, v = .obj c fs) ∧ wellTyped v = true ∧ canonical wr v ∧ FinProto.depth v ≤ m ∧ (l.written cap v).2.2 = none

/-- The frames, and the key under which their factories look for a body when the header is all zeros. -/
def zeroKey : Cls → Option (Fac × Key)
  | .sse_SseBinary => some (.sse_SseBinary, .int 0)
  | .szse_SzseBinary => some (.szse_SzseBinary, .int 0)
  | .bjse_BjseBinary => some (.bjse_BjseBinary, .int 0)
  | .sample_RootPacket => some (.sample_RootPacket, .short 0)
  | .risk_RcBinary => some (.risk_RcBinary, .int 0)
  | _ => none

end FinProto.Journal
