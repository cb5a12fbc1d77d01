import Verif.Model.BitMap
import Verif.Spec.BitMap
/-
Threads that use one bit map without synchronisation.

`bits |= bit` and `bits &= ~bit` are not atomic: the field is loaded, and later stored.  A thread can be interrupted in between.  Simplifications: each load and
each store is one step on a memory that all threads see at once (the Java memory model allows more: stale values, and for `long` fields halves of values);
`read` and `write` are not among the calls.
-/
namespace FinProto

/-- The methods of one of the four bit map classes, on the contents of its field. [BitMap.java:5-17] -/
structure BmClass (σ : Type) where
  set : σ → BitVec 32 → σ
  clear : σ → BitVec 32 → σ
  get : σ → BitVec 32 → Bool

/-- [ByteBitMap.java:8-24] -/
def ByteBitMap.methods : BmClass (BitVec 8) := ⟨ByteBitMap.set, ByteBitMap.clear, ByteBitMap.get⟩
/-- [ShortBitMap.java:8-24] -/
def ShortBitMap.methods : BmClass (BitVec 16) := ⟨ShortBitMap.set, ShortBitMap.clear, ShortBitMap.get⟩
/-- [IntBitMap.java:8-24] -/
def IntBitMap.methods : BmClass (BitVec 32) := ⟨IntBitMap.set, IntBitMap.clear, IntBitMap.get⟩
/-- [LongBitMap.java:8-24] -/
def LongBitMap.methods : BmClass (BitVec 64) := ⟨LongBitMap.set, LongBitMap.clear, LongBitMap.get⟩

/-- A call of a thread. [BitMap.java:6-10] -/
inductive BmOp where
  | change (c : BmCall)
  | get (pos : Nat)
  deriving DecidableEq

/-- What a call does to the value the thread has loaded. [ByteBitMap.java:10-18] -/
def BmClass.apply {σ : Type} (K : BmClass σ) (s : σ) : BmCall → σ
  | .set p => K.set s (BitVec.ofNat 32 p)
  | .clear p => K.clear s (BitVec.ofNat 32 p)

/-- A thread: the calls it still has to make, and in the middle of `set` or `clear` the value it has loaded. [ByteBitMap.java:10-18] -/
structure BmThread (σ : Type) where
  todo : List BmOp
  loaded : Option σ

/-- A call that has returned: the thread, the call, and the answer of `get`. [BitMap.java:6-10] -/
structure BmDone where
  thread : Nat
  op : BmOp
  answer : Option Bool
  deriving DecidableEq

/-- The field, the threads, and the calls that have returned, in the order in which they returned. [ByteBitMap.java:6-24] -/
structure BmSys (σ : Type) where
  bits : σ
  thr : Nat → BmThread σ
  log : List BmDone

/-- The threads at the start. [ByteBitMap.java:6] -/
def BmSys.start {σ : Type} (s : σ) (prog : Nat → List BmOp) : BmSys σ := ⟨s, fun i => ⟨prog i, none⟩, []⟩

/-- The next step of thread `i`: a `get` loads the field and returns; `set` and `clear` first load the field, and in a second step store the changed value and
return. [ByteBitMap.java:8-24] -/
def BmSys.step {σ : Type} (K : BmClass σ) (st : BmSys σ) (i : Nat) : BmSys σ :=
  match st.thr i with
  | ⟨[], _⟩ => st
  | ⟨.get p :: ops, _⟩ =>
    { st with thr := fun j => if j = i then ⟨ops, none⟩ else st.thr j, log := st.log ++ [⟨i, .get p, some (K.get st.bits (BitVec.ofNat 32 p))⟩] }
  | ⟨.change c :: ops, none⟩ => { st with thr := fun j => if j = i then ⟨.change c :: ops, some st.bits⟩ else st.thr j }
  | ⟨.change c :: ops, some s⟩ =>
    { bits := K.apply s c, thr := fun j => if j = i then ⟨ops, none⟩ else st.thr j, log := st.log ++ [⟨i, .change c, none⟩] }

/-- The steps of a schedule. [ByteBitMap.java:8-24] -/
def BmSys.run {σ : Type} (K : BmClass σ) (st : BmSys σ) (sched : List Nat) : BmSys σ := sched.foldl (BmSys.step K) st

end FinProto
