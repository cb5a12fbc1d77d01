import Verif.Spec.History
/-
Specification: how much room a call has.
-/
namespace FinProto

/-- The bytes a buffer still has to offer to a reader (with the allocated bytes behind the writer index, which texts are read from). -/
def RBuf.ahead (b : RBuf) : Nat := b.data.length + b.spare.length - b.rd

/-- The bytes that can still be written to a buffer. -/
def WBuf.space (b : WBuf) : Nat := b.maxCap - b.data.length

/-- How many of the operations are steps of thread `i`. -/
def stepsOf (i : Nat) (ops : List Op) : Nat := ops.countP fun o => match o with | .step j => j == i | _ => false

/-- The two classes with lists of texts that are padded on the left (an empty text in such a list occupies no bytes at all, see C01). -/
def padsLeft (c : Cls) : Bool := match c with | .sample_BasicPacket | .sample_StringPacket => true | _ => false

/-- No list in a message of these two classes has more than `L` elements. -/
def ShortLists (L : Nat) (h : Heap) : Prop := ∀ (r : Nat) c ys (a : Nat) xs, h[r]? = some (.msg c ys) → padsLeft c = true → .ref a ∈ ys →
  h[a]? = some (.arr xs) → xs.length ≤ L

end FinProto
