import Verif.Model.ConcurrentDecode
/-
The memory accesses of a thread: which variables shared between threads a step of `encode` or `decode` reads and writes, in the sense of the
Java Language Specification, 17.4.  Shared variables are the instance fields of messages and the contents of lists; the buffer of a thread is
not shared, and the class of an object never changes.
-/
namespace FinProto

/-- A place in the heap that holds data: field `f` of the message at `r`, or the elements (and the
size) of the list at `a`. [SseBinary.java:14-18, NestedPacket.java:65] -/
inductive Place
  | field (r f : Nat)
  | elems (a : Nat)
  deriving DecidableEq

/-- A read or a write of a place. [SseBinary.java:62 (read), SseBinary.java:84 (write)] -/
structure Access where
  write : Bool
  place : Place
  deriving DecidableEq

/-- The object the place belongs to. [SseBinary.java:61-90, NestedPacket.java:40-72] -/
def Place.object : Place → Nat
  | .field r _ => r
  | .elems a => a

/-- What is at a place; nothing if there is no such place. [SseBinary.java:61-90,
NestedPacket.java:40-72] -/
def Heap.read (h : Heap) : Place → Option (List HVal)
  | .field r f => (h.field r f).map fun x => [x]
  | .elems a =>
    match h[a]? with
    | some (.arr xs) => some xs
    | _ => none

/-- `this.F.size()`, `this.F.get(i)`: read the field, then the list (for instance ExecRptSync.java:26-28). -/
def readList (h : Heap) (r f : Nat) : List Access :=
  ⟨false, .field r f⟩ :: match h.field r f with
    | some (.ref a) => [⟨false, .elems a⟩]
    | _ => []

/-- `this.F.add(y)`: read the field, then read the size of the list and write the list (for instance ExecRptSync.java:41). -/
def addList (h : Heap) (r f : Nat) : List Access :=
  ⟨false, .field r f⟩ :: match h.field r f with
    | some (.ref a) => [⟨false, .elems a⟩, ⟨true, .elems a⟩]
    | _ => []

/-- The accesses of one statement of `encode` of the message at `r` (for a list: of the test and
the count in front of the loop). [SseBinary.java:61-80, StringPacket.java:125-208] -/
def EncStmt.accesses (w : World) (h : Heap) (r : Nat) : EncStmt → List Access
  | .num f _ _ => [⟨false, .field r f⟩]
  | .fixed f _ _ _ => [⟨false, .field r f⟩]
  | .dyn f _ _ _ => [⟨false, .field r f⟩]
  | .list f _ _ _ _ => readList h r f
  | .obj f => [⟨false, .field r f⟩]
  | .objOpt f => [⟨false, .field r f⟩]
  | .save _ => []
  | .zero _ _ => []
  | .setLen f _ _ => [⟨true, .field r f⟩]
  | .patch _ f _ _ => [⟨false, .field r f⟩]
  | .checksum f alg => if (Registry.getService w.svc alg).isSome then [⟨true, .field r f⟩] else []

/-- The accesses of the next step of a thread that encodes. [SseBinary.java:61-80,
StringPacket.java:125-208] -/
def HThread.accesses (w : World) (h : Heap) (t : HThread) : List Access :=
  match t.err, t.stack with
  | none, a :: _ =>
    match a.loop, a.todo with
    | some (f, _, _), _ => readList h a.this f
    | none, s :: _ => s.accesses w h a.this
    | none, [] => []
  | _, _ => []

/-- The accesses of one statement of `decode` of the message at `r`, without those to new objects.  (A statement that throws before it
assigns is counted as if it assigned.) [SseBinary.java:83-90, StringPacket.java:211-281] -/
def DecStmt.accesses (r : Nat) : DecStmt → List Access
  | .num f _ _ => [⟨true, .field r f⟩]
  | .fixed f _ _ _ => [⟨true, .field r f⟩]
  | .dyn f _ _ => [⟨true, .field r f⟩]
  | .list f _ _ _ => [⟨true, .field r f⟩]
  | .obj f _ => [⟨false, .field r f⟩, ⟨true, .field r f⟩]
  | .create f _ key => [⟨false, .field r key⟩, ⟨true, .field r f⟩]
  | .call f => [⟨false, .field r f⟩]

/-- The accesses of the next step of a thread that decodes, without those to new objects.
[SseBinary.java:83-90, StringPacket.java:211-281] -/
def DThread.accesses (h : Heap) (t : DThread) : List Access :=
  match t.err, t.stack with
  | none, a :: _ =>
    match a.loop, a.todo with
    | some (_, _, 0, none), _ => []
    | some (_, .obj _, _ + 1, none), _ => []
    | some (f, _, _, _), _ => addList h a.this f
    | none, s :: _ => s.accesses a.this
    | none, [] => []
  | _, _ => []

/-- All places of the object at `q`. [SseBinary.java:61-90, NestedPacket.java:40-72] -/
def Heap.places (h : Heap) (q : Nat) : List Place :=
  match h[q]? with
  | some (.msg _ ys) => (List.range ys.length).map (.field q)
  | some (.arr _) => [.elems q]
  | none => []

/-- Creating objects writes all their places. [NestedPacket.java:56, NestedPacket.java:63,
SseBinary.java:171-198 (`Logon::new`)] -/
def created (h h' : Heap) : List Access := ((List.range' h.length (h'.length - h.length)).flatMap h'.places).map (⟨true, ·⟩)

/-- The accesses of the next step of a thread. [SseBinary.java:61-90, NestedPacket.java:40-72] -/
def Worker.accesses (w : World) (sup : Suppliers) (n : Nat) (h : Heap) (t : Worker) : List Access :=
  (match t with
    | .enc t => t.accesses w h
    | .dec t => t.accesses h) ++ created h (t.step w sup n h).1

end FinProto
