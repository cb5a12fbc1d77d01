import Verif.Model.Heap
/-
The bounds Java itself puts on sizes, for C82.
-/
namespace FinProto.Java

/-- The capacity of a buffer is an `int`, and what was written is within it. -/
def GoodBuf (b : WBuf) : Prop := b.data.length ≤ b.maxCap ∧ b.maxCap < 2 ^ 31

/-- The size of every list is an `int`. -/
def ListsFit (h : Heap) : Prop := ∀ (a : Nat) xs, h[a]? = some (.arr xs) → xs.length < 2 ^ 31

end FinProto.Java
