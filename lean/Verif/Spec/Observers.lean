import Verif.Spec.HalfDecoded
import Verif.Spec.Wire
/-
Specification: threads that call getters of a message while another thread decodes into it.
-/
namespace FinProto

/-- A number or a text (also one that `encode` computes): no list and no message. -/
def Plain (c : Cls) (f : Nat) : Prop :=
  match (wire c)[f]? with
  | none | some (.list _) | some (.sub _) | some (.ext _ _) => False
  | _ => True

/-- The heap after the first `j` steps of the threads. -/
def Halt.heapAt (w : World) (e : Halt) (h : Heap) (j : Nat) : Heap :=
  ((WSys.start e.depth h e.jobs).run w w.suppliers e.depth (e.sched.take j)).h

/-- What a getter of the message at `r` returns then (`Heap.field`: the reference in field `f` of the object). -/
def Halt.getter (w : World) (e : Halt) (h : Heap) (r f j : Nat) : Option HVal := (e.heapAt w h j).field r f

end FinProto
