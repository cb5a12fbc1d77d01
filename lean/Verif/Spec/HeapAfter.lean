import Verif.Model.Heap
/-
Specification: the heap after a number of `encode` calls.
-/
namespace FinProto

/-- The heap after calls of `encode`, one after the other, on any objects with any buffers, however each of them ends. -/
def afterEncodes (w : World) : List (Nat × HVal × WBuf) → Heap → Heap
  | [], h => h
  | (n, x, b) :: rest, h => afterEncodes w rest (hencode w n x h b).1

end FinProto
