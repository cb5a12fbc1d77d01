import Verif.Model.AnyHeap
/-
Specification: what other threads leave alone, and what setters do as changes of the memory.
-/
namespace FinProto

/-- Whatever else the other threads do, and whenever, they do not change these fields of the object at `r`. -/
def LeavesFields (o : Acts) (r : Nat) (fs : List Nat) : Prop := ∀ k h f, f ∈ fs → (o k h).field r f = h.field r f

/-- Setters, as changes of the memory. -/
def HOthers.acts (o : HOthers) : Acts := fun k h => (o k).foldl (fun h p => h.setField p.1 p.2.1 p.2.2) h

end FinProto
