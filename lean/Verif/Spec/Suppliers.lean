import Verif.Spec.Wire
/-
Specification: assumptions on the suppliers registered with the message factories.
-/
namespace FinProto

/-- All factories return new objects. -/
def FreshSuppliers (w : World) : Prop := ∀ fac key v, w.fac fac key = some v → ∃ c, v = fresh c

/-- All factories return well-typed objects (in whatever state), never null. -/
def TypedSuppliers (w : World) : Prop := ∀ fac key v, w.fac fac key = some v → wellTyped v = true

/-- Every supplier gives objects of a class that is registered by default with its factory. -/
def DefaultClasses (w : World) : Prop :=
  ∀ fac key c fs, w.fac fac key = some (.obj c fs) → ∃ r ∈ defaultRegs, r.fac = fac ∧ r.cls = c

/-- Bytes between the reader index and the end of the backing array. -/
def RBuf.room (b : RBuf) : Nat := (b.data ++ b.spare).length - b.rd

end FinProto
