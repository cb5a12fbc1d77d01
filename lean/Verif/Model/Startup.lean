import Verif.Model.ConcurrentFactory
import Verif.Model.ConcurrentRegistry
/-
Several threads using the registries of a program that has just started.  A class is initialised by the thread that uses it first; a thread that needs a class
whose initialisation another thread has begun waits until it has ended (JLS 12.4.2).  So the first `getInstance()` of a factory runs its static initialiser
(SseBinary.java:170-199, RootPacket.java:118-123 and the like) and the first use of `ChecksumServiceFactory` its constructor
(ChecksumServiceFactory.java:15-18), while other threads may be at work on other registries.

Simplified: `getInstance()` and the method called on its result are the first step of a call when the class is initialised already.  The class `MessageType`, used by
the static initialiser of the SSE factory, has constants only (its own initialisation needs no other class), so its initialisation is part of the step that uses it.
-/
namespace FinProto

/-- One operation on a map in a static initialiser: `bodyMap.put`, `reverseMap.put`.
[SseBinary.java:210-211] -/
inductive InitOp
  | put (f : Fac) (k : Key) (v : Val)
  | type (c : Cls) (t : BitVec 32)

/-- What it does to the maps. [SseBinary.java:210-211] -/
def InitOp.run (F : Factories) : InitOp → Factories
  | .put f k v => F.put f k (some v)
  | .type c t => { F with rev := fun c' => if c' = c then some t else F.rev c' }

/-- The static initialiser of a factory, as operations on its maps: RootPacket.java:118-123, SseBinary.java:170-199 and 209-212, etc. -/
def initOps (f : Fac) : List InitOp :=
  if f = .sse_SseBinary then
    sseDefaultRegs.flatMap fun r => [.put .sse_SseBinary (.int r.2.1.getValue) (fresh r.2.2), .type r.1 r.2.1.getValue]
  else (defaultRegs.filter fun r => r.fac = f).map fun r => .put f r.key (fresh r.cls)

/-- The state of a class: not used yet, being initialised by a thread that still has to do `todo`,
or initialised. [SseBinary.java:170-199] -/
inductive ClassState (α : Type)
  | fresh
  | running (thread : Nat) (todo : List α)
  | ready

/-- The factory a call is made on. [SseBinary.java:129-220, RootPacket.java:115-145] -/
def FacCall.fac : FacCall → Fac
  | .change (.register f _ _) => f
  | .change (.registerSse _ _ _) => .sse_SseBinary
  | .change (.remove f _) => f
  | .create f _ => f
  | .getMsgType _ => .sse_SseBinary

/-- The factories of a program, with the state of each factory class. [SseBinary.java:129-220,
RootPacket.java:115-145] -/
structure FacStart where
  sys : FacSys
  cls : Fac → ClassState InitOp

/-- Set the state of a class. [SseBinary.java:170-199] -/
def FacStart.setCls (st : FacStart) (f : Fac) (s : ClassState InitOp) : FacStart :=
  { st with cls := fun g => if g = f then s else st.cls g }

/-- The next step of thread `i`. [SseBinary.java:129-220, RootPacket.java:115-145] -/
def FacStart.step (st : FacStart) (i : Nat) : FacStart :=
  match (st.sys.thr i).mid, (st.sys.thr i).todo with
  | some _, _ => { st with sys := st.sys.step i }
  | none, [] => st
  | none, c :: _ =>
    match st.cls c.fac with
    | .ready => { st with sys := st.sys.step i }
    | .fresh => st.setCls c.fac (.running i (initOps c.fac))
    | .running j ops =>
      if j = i then
        match ops with
        | [] => st.setCls c.fac .ready
        | o :: os => { st with sys := { st.sys with maps := o.run st.sys.maps } }.setCls c.fac (.running i os)
      else st

/-- The steps of the threads in the order given by a schedule. [SseBinary.java:129-220,
RootPacket.java:115-145] -/
def FacStart.run (st : FacStart) (sched : List Nat) : FacStart := sched.foldl FacStart.step st

/-- The start of a program: empty maps (SseBinary.java:131-132), no class initialised. -/
def FacStart.start (prog : Nat → List FacCall) : FacStart := ⟨.start .empty prog, fun _ => .fresh⟩

/-- The checksum registry of a program, with the state of its class.
[ChecksumServiceFactory.java:6-18] -/
structure RegStart where
  sys : RegSys
  cls : ClassState Service

/-- The next step of thread `i`.  The constructor's `registry` calls (lines 16-17) are one step
each. [ChecksumServiceFactory.java:13-37] -/
def RegStart.step (st : RegStart) (i : Nat) : RegStart :=
  match (st.sys.thr i).mid, (st.sys.thr i).todo with
  | some _, _ => { st with sys := st.sys.step i }
  | none, [] => st
  | none, _ :: _ =>
    match st.cls with
    | .ready => { st with sys := st.sys.step i }
    | .fresh => { st with cls := .running i [crc16Service, crc32Service] }
    | .running j ss =>
      if j = i then
        match ss with
        | [] => { st with cls := .ready }
        | s :: ss => ⟨{ st.sys with map := (Registry.registry st.sys.map s).1 }, .running i ss⟩
      else st

/-- The steps of the threads in the order given by a schedule. [ChecksumServiceFactory.java:13-37]
-/
def RegStart.run (st : RegStart) (sched : List Nat) : RegStart := sched.foldl RegStart.step st

/-- The start of a program: an empty `CACHE` (line 13). [ChecksumServiceFactory.java:13] -/
def RegStart.start (prog : Nat → List RegCall) : RegStart := ⟨.start (fun _ => none) prog, .fresh⟩

end FinProto
