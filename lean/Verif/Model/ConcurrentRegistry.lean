import Verif.Spec.Registry
/-
Several threads calling the methods of the one `ChecksumServiceFactory` object at the same time.
codec/src/main/java/com/finproto/codec/ChecksumServiceFactory.java (no method is `synchronized`).

A thread runs the calls of its program one after the other.  One step of a thread is one operation on `CACHE`;
`registry` consists of two such operations (lines 29 and 32), every other method of one.

Simplification: an operation on the `HashMap` is one indivisible step whose effect every thread sees at once.  `HashMap` does
not promise this when threads race, so the model is the best case: what can go wrong here can go wrong in Java, and
what is proved here holds in Java if `CACHE` is a map with atomic operations (for instance `ConcurrentHashMap`).
-/
namespace FinProto

/-- What a call returns: `registry` a boolean (line 28), `getChecksumService` a service or null
(line 37), the others nothing. [ChecksumServiceFactory.java:28, ChecksumServiceFactory.java:37] -/
inductive RegAnswer where
  | bool (b : Bool)
  | service (s : Option Service)
  | unit

/-- A call that has returned. [ChecksumServiceFactory.java:13-39] -/
structure RegDone where
  thread : Nat
  call : RegCall
  answer : RegAnswer

/-- A thread: the calls it has still to start, and the service it is about to put into the map
(it has passed line 29 of `registry` and not yet executed line 32).
[ChecksumServiceFactory.java:13-39] -/
structure RegThread where
  todo : List RegCall
  mid : Option Service

/-- `CACHE`, the threads, and the calls that have returned, in the order in which they returned.
[ChecksumServiceFactory.java:13-39] -/
structure RegSys where
  map : Registry
  thr : Nat → RegThread
  log : List RegDone

/-- Replace the state of thread `i`. [ChecksumServiceFactory.java:13-39] -/
def RegSys.setThr (st : RegSys) (i : Nat) (t : RegThread) : RegSys :=
  { st with thr := fun j => if j = i then t else st.thr j }

/-- A call of thread `i` returns. [ChecksumServiceFactory.java:13-39] -/
def RegSys.ret (st : RegSys) (i : Nat) (c : RegCall) (a : RegAnswer) : RegSys := { st with log := st.log ++ [⟨i, c, a⟩] }

/-- Thread `i` starts its next call `c`; `cs` are the calls after it.
`registry`: line 29 (`containsKey`, return false) — `remove`: line 21 — `clear`: line 25 — `get`:
line 38. [ChecksumServiceFactory.java:20-37] -/
def RegSys.begin (st : RegSys) (i : Nat) (c : RegCall) (cs : List RegCall) : RegSys :=
  match c with
  | .registry s =>
    if (st.map s.algorithm).isSome then (st.setThr i ⟨cs, none⟩).ret i c (.bool false)
    else st.setThr i ⟨cs, some s⟩
  | .remove n => ({ st with map := Registry.remove st.map n }.setThr i ⟨cs, none⟩).ret i c .unit
  | .clear => ({ st with map := Registry.clear st.map }.setThr i ⟨cs, none⟩).ret i c .unit
  | .get n => (st.setThr i ⟨cs, none⟩).ret i c (.service (Registry.getService st.map n))

/-- The next step of thread `i`.  In the middle of `registry`: lines 32-33 (`put`, return true).
[ChecksumServiceFactory.java:32-33] -/
def RegSys.step (st : RegSys) (i : Nat) : RegSys :=
  match (st.thr i).mid, (st.thr i).todo with
  | some s, cs =>
    ({ st with map := fun n => if n = s.algorithm then some s else st.map n }.setThr i ⟨cs, none⟩).ret i (.registry s) (.bool true)
  | none, [] => st
  | none, c :: cs => st.begin i c cs

/-- The steps of the threads in the order given by a schedule. [ChecksumServiceFactory.java:13-39]
-/
def RegSys.run (st : RegSys) (sched : List Nat) : RegSys := sched.foldl RegSys.step st

/-- Before any thread has run: `prog i` are the calls thread `i` makes.
[ChecksumServiceFactory.java:13-39] -/
def RegSys.start (r : Registry) (prog : Nat → List RegCall) : RegSys := ⟨r, fun i => ⟨prog i, none⟩, []⟩

end FinProto
