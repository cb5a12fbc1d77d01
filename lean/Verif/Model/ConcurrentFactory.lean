import Verif.Spec.Factory
/-
Several threads calling the methods of the message factories (enum singletons) at the same time.
sse-bin/.../SseBinary.java:201-220 for the SSE factory, RootPacket.java:126-140 and the like for the others; no method is
`synchronized`.

One step of a thread is one operation on one map: `register` of the SSE factory takes two (`bodyMap.put`, SseBinary.java:210,
then `reverseMap.put`, SseBinary.java:211), every other method takes one.

Simplification: as in `ConcurrentRegistry.lean`, an operation on a `HashMap` is one indivisible step seen by all threads.
-/
namespace FinProto

/-- A call on a factory. [SseBinary.java:129-225, RootPacket.java:115-145] -/
inductive FacCall where
  | change (op : FacOp)
  | create (f : Fac) (k : Key)
  | getMsgType (c : Cls)

/-- What it returns. [SseBinary.java:129-225, RootPacket.java:115-145] -/
inductive FacAnswer where
  | unit
  | bool (b : Bool)
  | created (r : Except JErr Val)
  | type (t : Option (BitVec 32))

/-- A call that has returned. [SseBinary.java:129-225, RootPacket.java:115-145] -/
structure FacDone where
  thread : Nat
  call : FacCall
  answer : FacAnswer

/-- A thread: the calls still to start, and the class, type and supplier of an SSE `register` call that has executed line 210
and not line 211. [SseBinary.java:210-211] -/
structure FacThread where
  todo : List FacCall
  mid : Option (Cls × BitVec 32 × Option Val)

/-- The maps, the threads, and the calls that have returned, in order of return.
[SseBinary.java:129-225, RootPacket.java:115-145] -/
structure FacSys where
  maps : Factories
  thr : Nat → FacThread
  log : List FacDone

/-- Thread `i` gets state `t`, the maps become `F`, and the calls `ds` return.
[SseBinary.java:129-225, RootPacket.java:115-145] -/
def FacSys.next (st : FacSys) (i : Nat) (t : FacThread) (F : Factories) (ds : List FacDone) : FacSys :=
  ⟨F, fun j => if j = i then t else st.thr j, st.log ++ ds⟩

/-- Thread `i` starts its next call `c`; `cs` are the calls after it. [SseBinary.java:201-220,
RootPacket.java:126-140] -/
def FacSys.begin (st : FacSys) (i : Nat) (c : FacCall) (cs : List FacCall) : FacSys :=
  match c with
  | .change (.registerSse cls t s) => st.next i ⟨cs, some (cls, t, s)⟩ (st.maps.put .sse_SseBinary (.int t) s) []
  | .change (.register f k s) => st.next i ⟨cs, none⟩ (st.maps.register f k s) [⟨i, c, .unit⟩]
  | .change (.remove f k) => st.next i ⟨cs, none⟩ (st.maps.remove f k).1 [⟨i, c, .bool (st.maps.remove f k).2⟩]
  | .create f k => st.next i ⟨cs, none⟩ st.maps [⟨i, c, .created (st.maps.create f k)⟩]
  | .getMsgType cls => st.next i ⟨cs, none⟩ st.maps [⟨i, c, .type (st.maps.getMsgType cls)⟩]

/-- The next step of thread `i`.  In the middle of an SSE `register`: line 211.
[SseBinary.java:210-211] -/
def FacSys.step (st : FacSys) (i : Nat) : FacSys :=
  match (st.thr i).mid, (st.thr i).todo with
  | some (cls, t, s), cs =>
    st.next i ⟨cs, none⟩ { st.maps with rev := fun c => if c = cls then some t else st.maps.rev c }
      [⟨i, .change (.registerSse cls t s), .unit⟩]
  | none, [] => st
  | none, c :: cs => st.begin i c cs

/-- The steps of the threads in the order given by a schedule. [SseBinary.java:129-225,
RootPacket.java:115-145] -/
def FacSys.run (st : FacSys) (sched : List Nat) : FacSys := sched.foldl FacSys.step st

/-- Before any thread has run: `prog i` are the calls thread `i` makes. [SseBinary.java:129-225,
RootPacket.java:115-145] -/
def FacSys.start (F : Factories) (prog : Nat → List FacCall) : FacSys := ⟨F, fun i => ⟨prog i, none⟩, []⟩

end FinProto
