import Verif.Model.Java
import Verif.Spec.Methods
/-
When the static initialisers run.  A class is initialised when it is first used (JLS 12.4): the first call of `getInstance()` of a factory, by the
application or by a `decode`, runs its static initialiser, and the first use of `ChecksumServiceFactory` its constructor.  So a program does not start with
all registries filled; each of them is filled the first time somebody needs it.

Simplified: one thread (initialisation is done once and under a lock of the JVM); suppliers build new messages (`Supplier.make`).
-/
namespace FinProto.Methods

/-- The static initialiser of a factory class: RootPacket.java:118-123, SseBinary.java:170-199 etc. -/
def initOf (flt : Num → JStr) (n : Nat) (f : Fac) (st : St) : St :=
  if f = .sse_SseBinary then initSse flt n sseDefaultRegs st else initFac flt n f (defaultRegs.filter (·.fac = f)) st

/-- A running program: objects and maps, the factory classes that have been initialised, whether
the checksum registry has. [SseBinary.java:129-225, ChecksumServiceFactory.java:6-39] -/
structure Prog where
  st : St
  up : Fac → Bool
  upReg : Bool

/-- Nothing has been used yet. [SseBinary.java:129-225, ChecksumServiceFactory.java:6-39] -/
def Prog.start (h : Heap) : Prog := ⟨.fresh h, fun _ => false, false⟩

/-- `F.getInstance()`, e.g. RootPacket.java:142-144, SseBinary.java:222-224. -/
def Prog.use (flt : Num → JStr) (n : Nat) (f : Fac) (p : Prog) : Prog :=
  if p.up f then p else ⟨initOf flt n f p.st, fun g => if g = f then true else p.up g, p.upReg⟩

/-- `ChecksumServiceFactory.getInstance()`, ChecksumServiceFactory.java:9-18. -/
def Prog.useReg (flt : Num → JStr) (n : Nat) (p : Prog) : Prog :=
  if p.upReg then p else ⟨initReg flt n ctorServices p.st, p.up, true⟩

/-- The factory that is called. [SseBinary.java:222-224] -/
def facOf : FacOp → Fac
  | .register f _ _ => f
  | .registerSse _ _ _ => .sse_SseBinary
  | .remove f _ => f

/-- What a program may do with the registries. [SseBinary.java:129-225,
ChecksumServiceFactory.java:6-39] -/
inductive Act
  | fac (op : FacOp)        -- `F.getInstance().register(..)`, `.remove(..)`
  | reg (call : RegCall)    -- `ChecksumServiceFactory.getInstance().registry(..)` etc.
  | useFac (f : Fac)        -- `F.getInstance()` for any other purpose (`create`, `getMsgType`, inside a `decode`)
  | useReg                  -- `ChecksumServiceFactory.getInstance()` for any other purpose (inside an `encode`)

/-- One such call. [SseBinary.java:129-225, ChecksumServiceFactory.java:6-39] -/
def Prog.act (flt : Num → JStr) (n : Nat) (p : Prog) : Act → Prog
  | .fac op => let q := p.use flt n (facOf op); { q with st := (callOp flt n q.st op).1 }
  | .reg call => let q := p.useReg flt n; { q with st := (callRegCall flt n q.st call).1 }
  | .useFac f => p.use flt n f
  | .useReg => p.useReg flt n

/-- A program from its start. [SseBinary.java:129-225, ChecksumServiceFactory.java:6-39] -/
def Prog.run (flt : Num → JStr) (n : Nat) (p : Prog) (acts : List Act) : Prog := acts.foldl (Prog.act flt n) p

/-- What `F.getInstance().create(..)` finds: the supplier in the map, once the class is
initialised. [SseBinary.java:202] -/
def Prog.sup (flt : Num → JStr) (n : Nat) (p : Prog) : Suppliers := fun f k => ((p.use flt n f).st.map f k).join

/-- What `ChecksumServiceFactory.getInstance().getChecksumService(name)` finds.
[ChecksumServiceFactory.java:37-39] -/
def Prog.svc (flt : Num → JStr) (n : Nat) (p : Prog) : Registry := fun name => ((p.useReg flt n).st.cache (some name)).join

/-- What `SseBinary.BodyMessageFactory.getInstance().getMsgType(c)` finds. [SseBinary.java:218-220]
-/
def Prog.msgType (flt : Num → JStr) (n : Nat) (p : Prog) (c : Cls) : HVal := ((p.use flt n .sse_SseBinary).st.types (some (.msg c))).getD .null

end FinProto.Methods
