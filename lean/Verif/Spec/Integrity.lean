import Verif.Model.Interp
import Verif.Spec.Crc
/-
Vocabulary for C75: frames that end in a checksum, and a receiver that checks it.
-/
namespace FinProto

/-- The classes whose last four bytes are a checksum, with the byte order of those four bytes. -/
def sumOrder : Cls → Option Endian
  | .sse_SseBinary => some .be
  | .szse_SzseBinary => some .be
  | .sample_RootPacket => some .le
  | _ => none

/-- A careful receiver of the bytes `F` of one frame of class `c`: it decodes them into a new object, requires that nothing is left, and
has the service `s` `verify` the decoded checksum against the bytes in front of the last four. -/
def accepts (s : Service) (w : World) (n : Nat) (c : Cls) (F : List Byte) : Bool :=
  match decode w n c (freshFields c) ⟨F, [], 0⟩ with
  | (fs, b, none) =>
    b.rd == F.length
      && (match fs.getLast? with
          | some (.num ⟨.i32, v⟩) => s.verify ⟨F.take (F.length - 4), [], 0⟩ (some v)
          | _ => false)
  | _ => false

/-- `F'` is `F` with exactly one byte changed. -/
def OneByteChanged (F F' : List Byte) : Prop := ∃ p x y q, F = p ++ x :: q ∧ F' = p ++ y :: q ∧ x ≠ y

/-- `F'` is `F` with some bits changed, all of them among `k` consecutive ones (bits in transmission order, see `msgBits`). -/
def BurstChanged (k : Nat) (F F' : List Byte) : Prop :=
  ∃ p e e' q, msgBits F = p ++ e ++ q ∧ msgBits F' = p ++ e' ++ q ∧ e.length = e'.length ∧ e.length ≤ k ∧ e ≠ e'

end FinProto
