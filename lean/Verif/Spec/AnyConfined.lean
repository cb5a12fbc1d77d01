import Verif.Spec.Heap
import Verif.Model.AnyDecode
/-
Specification: other threads are busy with other objects.
-/
namespace FinProto

/-- The object at `q` is one that `x` consists of (in the memory `h` at the start), or it is made later. -/
def Mine (h : Heap) (x : HVal) (q : Nat) : Prop := Reach h x q ∨ h.length ≤ q

/-- The other threads never change an object that `x` consists of, nor one that the call makes; to all other objects they may do anything.  Objects that they make
themselves are counted among those in memory at the start, where nothing refers to them. -/
def Elsewhere (h : Heap) (x : HVal) (o : Acts) : Prop := ∀ k g, (o k g).length = g.length ∧ ∀ q, Mine h x q → (o k g)[q]? = g[q]?

/-- The other threads never change an object that `x` consists of.  To all other objects they may do anything, and they may make any number of objects. -/
def Leaves (h : Heap) (x : HVal) (o : Acts) : Prop := ∀ k g q, Reach h x q → (o k g)[q]? = g[q]?

/-- `P` is about the objects that `x` does not consist of. -/
def AboutOthers (h : Heap) (x : HVal) (P : Heap → Prop) : Prop := ∀ g g', (∀ q, ¬ Mine h x q → g'[q]? = g[q]?) → P g → P g'

/-- The same, for objects made later as well. -/
def AboutRest (h : Heap) (x : HVal) (P : Heap → Prop) : Prop := ∀ g g', (∀ q, ¬ Reach h x q → g'[q]? = g[q]?) → P g → P g'

end FinProto
