import Verif.Model.Interp
/-
Several threads calling `encode` of the same message object at the same time, each with its own buffer.

The fields of the object are shared; each thread has its own `ByteBuf` and local variables.  One step of a thread is one statement of the
class's `encode` method (the statements of `Classes/*.lean`; for instance SseBinary.java:73 `this.msgBodyLen = …` and :74
`byteBuf.setInt(msgBodyLenPos, this.msgBodyLen)` are two steps, SseBinary.java:78 `this.checksum = …` and :80
`byteBuf.writeInt(this.checksum)` too).

Simplifications: a statement is one indivisible step, and its assignment to a field is seen by all threads at once.  Encoding a
sub-message or a list is one statement; when the sub-messages compute no fields, encoding them does not assign any shared field, so that
interleaving inside it makes no difference.
-/
namespace FinProto

/-- A thread in the middle of `encode`: statements left, its buffer, its local variables, the
exception that ended it. [SseBinary.java:60-80] -/
structure EncThread where
  todo : List EncStmt
  buf : WBuf
  loc : Nat → Option Nat
  err : Option JErr

/-- The fields of the shared object and the threads. [SseBinary.java:60-80] -/
structure EncSys where
  fs : List Val
  thr : Nat → EncThread

/-- The next statement of thread `i`; nothing if it has returned or thrown.  `n` is the call-stack
depth left for sub-messages. [SseBinary.java:60-80] -/
def EncSys.step (w : World) (n : Nat) (st : EncSys) (i : Nat) : EncSys :=
  match (st.thr i).err, (st.thr i).todo with
  | none, s :: ss =>
    let r := encStmt w (encode w n) s ⟨st.fs, (st.thr i).buf, (st.thr i).loc⟩
    ⟨r.1.fs, fun j => if j = i then ⟨ss, r.1.buf, r.1.loc, r.2⟩ else st.thr j⟩
  | _, _ => st

/-- The steps in the order given by a schedule. [SseBinary.java:60-80] -/
def EncSys.run (w : World) (n : Nat) (st : EncSys) (sched : List Nat) : EncSys := sched.foldl (EncSys.step w n) st

/-- Every thread is about to call `encode(bufs i)` on the object of class `c` with fields `fs`.
[SseBinary.java:60-80] -/
def EncSys.start (c : Cls) (fs : List Val) (bufs : Nat → WBuf) : EncSys :=
  ⟨fs, fun i => ⟨(decl c).enc, bufs i, fun _ => none, none⟩⟩

/-- The call of thread `i` has returned or thrown. [SseBinary.java:60-80] -/
def EncSys.finished (st : EncSys) (i : Nat) : Prop := (st.thr i).err ≠ none ∨ (st.thr i).todo = []

end FinProto
