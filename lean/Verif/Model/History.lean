import Verif.Model.ConcurrentDecode
/-
Everything an application can do with the library, in any order: create messages and lists, call setters, change lists, register checksum services
and suppliers, and let threads run `encode` and `decode` (steps as in `ConcurrentHeap.lean` and `ConcurrentDecode.lean`), all on one heap and at
any moment, also while calls are in progress.

Simplifications: an operation is indivisible and seen by all threads at once (so an `ArrayList` that several threads change at the same time behaves
as if they did so one after the other).
-/
namespace FinProto

/-- Objects, registered checksum services, registered suppliers, threads. [SseBinary.java:61-90,
SseBinary.java:201-220, ChecksumServiceFactory.java:20-39] -/
structure Proc where
  h : Heap
  svc : Registry
  sup : Suppliers
  thr : Nat → Worker

/-- One operation. [SseBinary.java:61-90, SseBinary.java:201-220,
ChecksumServiceFactory.java:20-39] -/
inductive Op
  | new (c : Cls)                          -- `new C()`
  | newList                                -- `new ArrayList<>()`
  | set (r f : Nat) (x : HVal)             -- a setter, e.g. SseBinary.java:25-27
  | put (a : Nat) (xs : List HVal)         -- any change of a list: `xs` are its elements afterwards
  | call (i : Nat) (j : Job)               -- thread `i` calls `encode` or `decode`
  | step (i : Nat)                         -- the next step of thread `i`
  | services (svc : Registry)              -- checksum services are registered or removed (ChecksumServiceFactory.java:20-34)
  | suppliers (sup : Suppliers)            -- suppliers are registered or removed (the `…MessageFactory` classes)

/-- The state after an operation; `n` is the size of the call stacks. [SseBinary.java:61-90,
SseBinary.java:201-220, ChecksumServiceFactory.java:20-39] -/
def Proc.after (n : Nat) (p : Proc) : Op → Proc
  | .new c => { p with h := p.h ++ [newMsg c] }
  | .newList => { p with h := p.h ++ [.arr []] }
  | .set r f x => { p with h := p.h.setField r f x }
  | .put a xs => { p with h := p.h.set a (.arr xs) }
  | .call i j => { p with thr := fun k => if k = i then j.start n p.h else p.thr k }
  | .step i =>
    let o := (p.thr i).step ⟨p.svc, fun _ _ => none⟩ p.sup n p.h
    { p with h := o.1, thr := fun k => if k = i then o.2 else p.thr k }
  | .services svc => { p with svc := svc }
  | .suppliers sup => { p with sup := sup }

/-- The operations one after the other. [SseBinary.java:61-90, SseBinary.java:201-220,
ChecksumServiceFactory.java:20-39] -/
def Proc.run (n : Nat) (p : Proc) (ops : List Op) : Proc := ops.foldl (Proc.after n) p

/-- The beginning: no objects, no calls, the services and suppliers registered by default.
[SseBinary.java:170-199, ChecksumServiceFactory.java:15-18] -/
def Proc.start (w : World) : Proc := ⟨[], w.svc, w.suppliers, fun _ => .enc ⟨[], ⟨[], 0, 0⟩, none⟩⟩

end FinProto
