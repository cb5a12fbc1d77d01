import Verif.Model.ConcurrentHeap
/-
Several threads calling `decode` or `encode` at the same time on messages in one heap, each with its own buffer.

One step of a `decode` call is one statement (the `if (null == this.F) this.F = new C();` in front of `this.F.decode(byteBuf)` is a statement of
its own), one iteration of a `for` loop that reads a number or a text, or, for a list of messages, one of: create the element and call its `decode`;
add it to the list.  Calls and returns are steps.  Steps of `encode` are those of `ConcurrentHeap.lean`.  New objects are taken from one heap,
so where they are put depends on the schedule.

Simplifications as in `ConcurrentHeap.lean`: a step is indivisible, and what a thread assigns is seen by all threads at once.
-/
namespace FinProto

/-- A `decode` call in progress: the message, its class, the statements left, and the `for` loop it is in: list field, what the loop
does with an element, number of iterations left, and the element that is decoded but not yet added.
[SseBinary.java:83-90, StringPacket.java:211-281] -/
structure DActivation where
  this : Nat
  cls : Cls
  todo : List DecStmt
  loop : Option (Nat × DecElem × Nat × Option Nat)

/-- A thread that decodes: the calls in progress (innermost first), its buffer, the exception that
ended it. [SseBinary.java:83-90, StringPacket.java:211-281] -/
structure DThread where
  stack : List DActivation
  buf : RBuf
  err : Option JErr

/-- Throw: the exception leaves all calls in progress (no `decode` method catches anything).
[SseBinary.java:84-88] -/
def DThread.throw (t : DThread) (e : JErr) : DThread := { t with err := some e }

/-- Call `o.decode(byteBuf)` for the message at `r`; `n` is the size of the call stack.  As
`hdecode`. [SseBinary.java:83-90, StringPacket.java:211-281] -/
def DThread.enter (n r : Nat) (h : Heap) (t : DThread) : DThread :=
  if t.stack.length < n then
    match h[r]? with
    | some (.msg c _) => { t with stack := ⟨r, c, (decl c).dec, none⟩ :: t.stack }
    | _ => t.throw .illTyped
  else t.throw .stackOverflow

/-- `this.F.decode(byteBuf)` for the message at `r`, as `hcallField`. [NestedPacket.java:58,
SseBinary.java:88] -/
def DThread.enterField (n r f : Nat) (h : Heap) (t : DThread) : DThread :=
  match h.field r f with
  | some .null => t.throw .nullPointer
  | some (.ref a) =>
    match h[a]? with
    | some (.msg _ _) => t.enter n a h
    | _ => t.throw .illTyped
  | _ => t.throw .illTyped

/-- One iteration of the `for` loop that reads a list (for instance ExecRptSync.java:38-42), or leaving it; as `hdecElem`. -/
def DThread.iterate (n : Nat) (h : Heap) (t : DThread) (a : DActivation) (as : List DActivation) (f : Nat) (el : DecElem) :
    Nat → Option Nat → Heap × DThread
  | k, some q =>
    let o := hadd h a.this f (.ref q)
    (o.1, ⟨{ a with loop := some (f, el, k, none) } :: as, t.buf, o.2⟩)
  | 0, none => (h, { t with stack := { a with loop := none } :: as })
  | k + 1, none =>
    match el with
    | .obj c =>
      (h ++ [newMsg c], DThread.enter n h.length (h ++ [newMsg c]) { t with stack := { a with loop := some (f, el, k, some h.length) } :: as })
    | el =>
      let o := hdecElem (fun _ h b => (h, b, none)) a.this f el h t.buf
      (o.1, ⟨{ a with loop := some (f, el, k, none) } :: as, o.2.1, o.2.2⟩)

/-- One statement; `a` is the innermost activation with the statement already taken off.  Statements other than loops and calls do what
`hdecStmt` says. [SseBinary.java:83-90, StringPacket.java:211-281] -/
def DThread.exec (sup : Suppliers) (n : Nat) (h : Heap) (t : DThread) (s : DecStmt) (a : DActivation) (as : List DActivation) : Heap × DThread :=
  match s with
  | .list f ty e el =>
    match t.buf.readNum e ty with
    | (b', .error err) => (h, ⟨a :: as, b', some err⟩)
    | (b', .ok k) =>
      if 0 < k.bits.toInt then
        (Heap.setField (h ++ [.arr []]) a.this f (.ref h.length), ⟨{ a with loop := some (f, el, k.bits.toNat, none) } :: as, b', none⟩)
      else (h, ⟨a :: as, b', none⟩)
  | .obj f c =>
    let t' : DThread := { t with stack := { a with todo := .call f :: a.todo } :: as }
    match h.field a.this f with
    | some .null => (Heap.setField (h ++ [newMsg c]) a.this f (.ref h.length), t')
    | _ => (h, t')
  | .call f => (h, DThread.enterField n a.this f h { t with stack := a :: as })
  | s =>
    let o := hdecStmt sup (fun _ h b => (h, b, none)) a.this ((decl a.cls).fields.map (·.2)) s ⟨h, t.buf⟩
    (o.1.h, ⟨a :: as, o.1.buf, o.2⟩)

/-- The next step of a thread that decodes; nothing if it has returned or thrown.  `n` is the size
of the call stack. [SseBinary.java:83-90, StringPacket.java:211-281] -/
def DThread.step (sup : Suppliers) (n : Nat) (h : Heap) (t : DThread) : Heap × DThread :=
  match t.err, t.stack with
  | none, a :: as =>
    match a.loop, a.todo with
    | some (f, el, k, q), _ => t.iterate n h a as f el k q
    | none, s :: ss => t.exec sup n h s { a with todo := ss } as
    | none, [] => (h, { t with stack := as })
  | _, _ => (h, t)

/-- What a thread is asked to do: `x.encode(b)`, or `o.decode(b)` for the message at `r`.
[SseBinary.java:61-90, NestedPacket.java:40-72] -/
inductive Job
  | enc (x : HVal) (b : WBuf)
  | dec (r : Nat) (b : RBuf)

/-- A thread: encoding or decoding. [SseBinary.java:61-90, NestedPacket.java:40-72] -/
inductive Worker
  | enc (t : HThread)
  | dec (t : DThread)

/-- The thread that has just called the method. [SseBinary.java:61-90, NestedPacket.java:40-72] -/
def Job.start (n : Nat) (h : Heap) : Job → Worker
  | .enc x b => .enc (HThread.enter n x h ⟨[], b, none⟩)
  | .dec r b => .dec (DThread.enter n r h ⟨[], b, none⟩)

/-- The next step of a thread. [SseBinary.java:61-90, NestedPacket.java:40-72] -/
def Worker.step (w : World) (sup : Suppliers) (n : Nat) (h : Heap) : Worker → Heap × Worker
  | .enc t => let o := t.step w n h; (o.1, .enc o.2)
  | .dec t => let o := t.step sup n h; (o.1, .dec o.2)

/-- The call has returned or thrown. [SseBinary.java:61-90, NestedPacket.java:40-72] -/
def Worker.finished : Worker → Prop
  | .enc t => t.err ≠ none ∨ t.stack = []
  | .dec t => t.err ≠ none ∨ t.stack = []

/-- The heap and the threads. [SseBinary.java:61-90, NestedPacket.java:40-72] -/
structure WSys where
  h : Heap
  thr : Nat → Worker

/-- Thread `i` makes a step. [SseBinary.java:61-90, NestedPacket.java:40-72] -/
def WSys.step (w : World) (sup : Suppliers) (n : Nat) (st : WSys) (i : Nat) : WSys :=
  let o := (st.thr i).step w sup n st.h
  ⟨o.1, fun j => if j = i then o.2 else st.thr j⟩

/-- The steps in the order given by a schedule. [SseBinary.java:61-90, NestedPacket.java:40-72] -/
def WSys.run (w : World) (sup : Suppliers) (n : Nat) (st : WSys) (sched : List Nat) : WSys := sched.foldl (WSys.step w sup n) st

/-- Thread `i` has just called the method its job asks for. [SseBinary.java:61-90,
NestedPacket.java:40-72] -/
def WSys.start (n : Nat) (h : Heap) (jobs : Nat → Job) : WSys := ⟨h, fun i => (jobs i).start n h⟩

end FinProto
