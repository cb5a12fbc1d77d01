import Verif.Model.Factory
/-
Specification of the message factories: histories of calls and what is stored after them.
-/
namespace FinProto

/-- A call that changes a factory; `supplier = none` is a null reference. -/
inductive FacOp
  | register (f : Fac) (k : Key) (supplier : Option Val)
  | registerSse (cls : Cls) (t : BitVec 32) (supplier : Option Val)
  | remove (f : Fac) (k : Key)

/-- The supplier the call leaves under key `k` of factory `f`; `none` if the call does not concern that entry. -/
def FacOp.stores (f : Fac) (k : Key) : FacOp → Option (Option Val)
  | .register f' k' s => if f' = f ∧ k' = k then some s else none
  | .registerSse _ t s => if f = .sse_SseBinary ∧ k = .int t then some s else none
  | .remove f' k' => if f' = f ∧ k' = k then some none else none

/-- Supplier under `k` in `f` after a history: that of the last call concerning the entry, or the one it started with. -/
def lastStored (f : Fac) (k : Key) (start : Option Val) (ops : List FacOp) : Option Val :=
  (ops.reverse.findSome? (FacOp.stores f k)).getD start

/-- The message type the call records for class `c`. -/
def FacOp.types (c : Cls) : FacOp → Option (BitVec 32)
  | .registerSse c' t _ => if c' = c then some t else none
  | _ => none

/-- The calls, executed in order. -/
def runFac (F : Factories) : List FacOp → Factories
  | [] => F
  | .register f k s :: ops => runFac (F.register f k s) ops
  | .registerSse c t s :: ops => runFac (F.registerSse c t s) ops
  | .remove f k :: ops => runFac (F.remove f k).1 ops

end FinProto
