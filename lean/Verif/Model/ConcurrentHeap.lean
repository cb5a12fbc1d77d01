import Verif.Model.Heap
/-
Several threads calling `encode` at the same time on messages in one heap, each with its own buffer.  The messages may share parts: one body
in many frames, one list in several messages.

One step of a thread is one statement of the `encode` method it is in, one iteration of a `for` loop, a call of `encode` on a sub-message, or a
return (so threads also interleave inside sub-messages and lists, other than in `ConcurrentEncode.lean`).  A statement reads or assigns
at most one field that other threads can see, besides reading references and lists, which `encode` does not change.

Simplifications: a step is indivisible, and what a thread assigns is seen by all threads at once.  (`int` fields are assigned atomically in
Java; the computed fields are `int`s.)
-/
namespace FinProto

/-- An `encode` call in progress: the message, the statements left, the local `int` variables, and the `for` loop it is in: list field,
what the loop does with an element, index of the next element. [SseBinary.java:61-80,
StringPacket.java:125-208] -/
structure Activation where
  this : Nat
  todo : List EncStmt
  loc : Nat → Option Nat
  loop : Option (Nat × EncElem × Nat)

/-- A thread: the calls in progress (innermost first), its buffer, the exception that ended it.
[SseBinary.java:61-80, StringPacket.java:125-208] -/
structure HThread where
  stack : List Activation
  buf : WBuf
  err : Option JErr

/-- Throw: the exception leaves all calls in progress (no `encode` method catches anything).
[SseBinary.java:61-80, StringPacket.java:125-208] -/
def HThread.throw (t : HThread) (e : JErr) : HThread := { t with err := some e }

/-- Call `x.encode(byteBuf)`; `n` is the size of the call stack.  As `hencode`.
[SseBinary.java:61-80, StringPacket.java:125-208] -/
def HThread.enter (n : Nat) (x : HVal) (h : Heap) (t : HThread) : HThread :=
  match x with
  | .null => t.throw .nullPointer
  | x =>
    if t.stack.length < n then
      match x with
      | .ref r =>
        match h[r]? with
        | some (.msg c _) => { t with stack := ⟨r, (decl c).enc, fun _ => none, none⟩ :: t.stack }
        | _ => t.throw .illTyped
      | _ => t.throw .illTyped
    else t.throw .stackOverflow

/-- The outcome of a write to the buffer. [SseBinary.java:61-80, StringPacket.java:125-208] -/
def HThread.wrote (t : HThread) (o : WBuf × Option JErr) : HThread := { t with buf := o.1, err := o.2 }

/-- `this.F.size()` and `this.F.get(i)`: the list in field `f` of the message at `r`.
[NestedPacket.java:46-47] -/
def Heap.listAt (h : Heap) (r f : Nat) : Option (List HVal) :=
  match h.field r f with
  | some (.ref a) =>
    match h[a]? with
    | some (.arr xs) => some xs
    | _ => none
  | _ => none

/-- One iteration of the `for` loop `for (int i = 0; i < this.F.size(); i++) …` (for instance ExecRptSync.java:27-29), or leaving it.
A field that somebody has set to null since the loop began makes `this.F.size()` throw. -/
def HThread.iterate (n : Nat) (h : Heap) (t : HThread) (a : Activation) (as : List Activation) (f : Nat) (el : EncElem) (i : Nat) : HThread :=
  match h.listAt a.this f with
  | none => t.throw (if h.field a.this f = some .null then .nullPointer else .illTyped)
  | some xs =>
    match xs[i]? with
    | none => { t with stack := { a with loop := none } :: as }
    | some x =>
      let t' : HThread := { t with stack := { a with loop := some (f, el, i + 1) } :: as }
      match el with
      | .num p e => t'.wrote (writeVal t.buf p e x.leaf)
      | .fixed k pad left => t'.wrote (writeFixedVal t.buf x.leaf k pad left)
      | .dyn zt p e => t'.wrote (writeDynVal t.buf x.leaf zt p e)
      | .obj => t'.enter n x h

/-- One statement; `a` is the innermost activation with the statement already taken off.  Statements other than loops and calls do what
`hencStmt` says. [SseBinary.java:61-80, StringPacket.java:125-208] -/
def HThread.exec (w : World) (n : Nat) (h : Heap) (t : HThread) (s : EncStmt) (a : Activation) (as : List Activation) : Heap × HThread :=
  let t' : HThread := { t with stack := a :: as }
  match s with
  | .list f zt p e el =>
    match h.field a.this f with
    | some .null => (h, t'.wrote (writeInt t.buf zt .be 0))
    | _ =>
      match h.listAt a.this f with
      | some [] => (h, t'.wrote (writeInt t.buf zt .be 0))
      | some (x :: xs) =>
        (h, HThread.wrote { t with stack := { a with loop := some (f, el, 0) } :: as } (writeInt t.buf p e (x :: xs).length))
      | none => (h, t'.throw .illTyped)
  | .obj f =>
    match h.field a.this f with
    | some x => (h, t'.enter n x h)
    | none => (h, t'.throw .illTyped)
  | .objOpt f =>
    match h.field a.this f with
    | some .null => (h, t')
    | some x => (h, t'.enter n x h)
    | none => (h, t'.throw .illTyped)
  | s =>
    let o := hencStmt w (fun _ h b => (h, b, none)) a.this s ⟨h, t.buf, a.loc⟩
    (o.1.h, { stack := { a with loc := o.1.loc } :: as, buf := o.1.buf, err := o.2 })

/-- The next step of a thread; nothing if it has returned or thrown.  `n` is the size of the call
stack. [SseBinary.java:61-80, StringPacket.java:125-208] -/
def HThread.step (w : World) (n : Nat) (h : Heap) (t : HThread) : Heap × HThread :=
  match t.err, t.stack with
  | none, a :: as =>
    match a.loop, a.todo with
    | some (f, el, i), _ => (h, t.iterate n h a as f el i)
    | none, s :: ss => t.exec w n h s { a with todo := ss } as
    | none, [] => (h, { t with stack := as })
  | _, _ => (h, t)

/-- The heap and the threads. [SseBinary.java:61-80, StringPacket.java:125-208] -/
structure HSys where
  h : Heap
  thr : Nat → HThread

/-- Thread `i` makes a step. [SseBinary.java:61-80, StringPacket.java:125-208] -/
def HSys.step (w : World) (n : Nat) (st : HSys) (i : Nat) : HSys :=
  let o := (st.thr i).step w n st.h
  ⟨o.1, fun j => if j = i then o.2 else st.thr j⟩

/-- The steps in the order given by a schedule. [SseBinary.java:61-80, StringPacket.java:125-208] -/
def HSys.run (w : World) (n : Nat) (st : HSys) (sched : List Nat) : HSys := sched.foldl (HSys.step w n) st

/-- Thread `i` calls `(roots i).encode(bufs i)`. [SseBinary.java:61-80, StringPacket.java:125-208]
-/
def HSys.start (n : Nat) (h : Heap) (roots : Nat → HVal) (bufs : Nat → WBuf) : HSys :=
  ⟨h, fun i => HThread.enter n (roots i) h ⟨[], bufs i, none⟩⟩

/-- The call of thread `i` has returned or thrown. [SseBinary.java:61-80,
StringPacket.java:125-208] -/
def HSys.finished (st : HSys) (i : Nat) : Prop := (st.thr i).err ≠ none ∨ (st.thr i).stack = []

end FinProto
