import Verif.Model.Methods
import Verif.Spec.Factory
import Verif.Spec.Registry
import Verif.Spec.Heap
import Verif.Spec.Objects
import Verif.Spec.Texts
/-
Specification for C84: what it means that the maps of the running program are those of the model, and histories of calls run by statements.
-/
namespace FinProto.Methods

/-- The maps of the factories are those of `F`: under every key the same supplier or none, and the same message type for every message class. -/
structure FacAs (st : St) (F : Factories) : Prop where
  map : ∀ f k, (st.map f k).join = (F.map f k).map Supplier.make
  types : ∀ c, (st.types (some (.msg c))).getD .null = match F.rev c with | some t => .num (.int t) | none => .null

/-- The map of the checksum registry is `reg`. -/
def RegAs (st : St) (reg : Registry) : Prop := ∀ s, st.cache (some s) = (reg s).map some

/-- No class has been initialised yet. -/
def St.fresh (h : Heap) : St := ⟨h, fun _ _ => none, fun _ => none, fun _ => none⟩

/-- Call a method of the message at `r`. -/
def callMsg (flt : Num → JStr) (n : Nat) (r : Nat) (body : List Stmt) (as : List (Name × JV)) (st : St) : St × Flow :=
  exec (.at flt n (.val (.ref r)) .sse_SseBinary ⟨[], [], 0⟩) body (args as) st

/-- A call on a factory, run by statements. -/
def callOp (flt : Num → JStr) (n : Nat) (st : St) : FacOp → St × Flow
  | .register f k s => callFac flt n f registerBody [(.key, .val (keyVal k)), (.supplier, .supplier (s.map .make))] st
  | .registerSse c t s => callFac flt n .sse_SseBinary registerSseBody
      [(.clazz, .cls (some (.msg c))), (.key, .val (.num (.int t))), (.supplier, .supplier (s.map .make))] st
  | .remove f k => callFac flt n f removeBody [(.key, .val (keyVal k))] st

/-- A history of calls on factories, run by statements. -/
def callOps (flt : Num → JStr) (n : Nat) (st : St) (ops : List FacOp) : St := ops.foldl (fun st o => (callOp flt n st o).1) st

/-- A call on the checksum registry, run by statements. -/
def callRegCall (flt : Num → JStr) (n : Nat) (st : St) : RegCall → St × Flow
  | .registry s => callReg flt n registryBody [(.service, .service (some s))] st
  | .remove name => callReg flt n removeServiceBody [(.name, .name (some name))] st
  | .clear => callReg flt n clearBody [] st
  | .get name => callReg flt n getServiceBody [(.name, .name (some name))] st

/-- A history of calls on the checksum registry, run by statements. -/
def callRegCalls (flt : Num → JStr) (n : Nat) (st : St) (calls : List RegCall) : St := calls.foldl (fun st c => (callRegCall flt n st c).1) st

/-- All static initialisers of factories: those of the factories `fs` in this order, then that of the SSE factory. -/
def initAll (flt : Num → JStr) (n : Nat) (fs : List Fac) (st : St) : St :=
  initSse flt n sseDefaultRegs (fs.foldl (fun st f => initFac flt n f (defaultRegs.filter (·.fac = f)) st) st)

end FinProto.Methods
