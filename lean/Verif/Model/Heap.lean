import Verif.Model.Interp
/-
`encode` and `decode` over a Java heap: fields hold references, so several messages (or several fields of one message) may share
one nested message or one list, and references may form cycles.  The statements are those of the class tables, as in
`Interp.lean`; what is different is where the data lives: the objects of `Interp.lean` are trees without sharing.
-/
namespace FinProto

/-- A Java value: null, a primitive or boxed number, an immutable `String`, or a reference to a
mutable object. [SseBinary.java:14-18, NestedPacket.java:11-13] -/
inductive HVal
  | null
  | num (n : Num)
  | str (s : JStr)
  | ref (r : Nat)
  deriving DecidableEq

/-- A mutable object: a message or an `ArrayList`. [NestedPacket.java:10-13, NestedPacket.java:61]
-/
inductive HObj
  | msg (c : Cls) (fs : List HVal)
  | arr (xs : List HVal)
  deriving DecidableEq

/-- The heap; references are positions, a new object is put at the end (nothing is ever reclaimed).
[NestedPacket.java:56-65] -/
abbrev Heap := List HObj

/-- The value as an argument of `writeXxx`, `writeFixedString` and so on; a reference is neither a
number nor a text. [SseBinary.java:62-65] -/
def HVal.leaf : HVal → Val
  | .null => .null
  | .num n => .num n
  | .str s => .str s
  | .ref _ => .list []

/-- `o.F` for the message at `r`. [SseBinary.java:62] -/
def Heap.field (h : Heap) (r f : Nat) : Option HVal :=
  match h[r]? with
  | some (.msg _ ys) => ys[f]?
  | _ => none

/-- `o.F = y` for the message at `r`. [SseBinary.java:84] -/
def Heap.setField (h : Heap) (r f : Nat) (y : HVal) : Heap :=
  match h[r]? with
  | some (.msg c ys) => h.set r (.msg c (ys.set f y))
  | _ => h

/-! ### encode -/

/-- State of a running `encode`: heap, buffer, local `int` variables. [SseBinary.java:64-71] -/
structure HEncSt where
  h : Heap
  buf : WBuf
  loc : Nat → Option Nat

/-- Type of "call encode on this value". [SseBinary.java:69, NestedPacket.java:41] -/
abbrev HEncCall := HVal → Heap → WBuf → Heap × WBuf × Option JErr

/-- One iteration of the `for` loop that writes a list, as `encElem`. [NestedPacket.java:47,
StringPacket.java:151-157] -/
def hencElem (call : HEncCall) (el : EncElem) (x : HVal) (h : Heap) (b : WBuf) : Heap × WBuf × Option JErr :=
  match el with
  | .num t e => (h, writeVal b t e x.leaf)
  | .fixed n pad left => (h, writeFixedVal b x.leaf n pad left)
  | .dyn zt t e => (h, writeDynVal b x.leaf zt t e)
  | .obj => call x h b

/-- The `for` loop that writes a list.  (`this.F.size()` and `this.F.get(i)` are evaluated afresh in each iteration in Java; here the
elements are taken once: `encode` assigns only number fields, so neither `this.F` nor the list
changes meanwhile.) [NestedPacket.java:46-48] -/
def hencElems (call : HEncCall) (el : EncElem) : List HVal → Heap → WBuf → Heap × WBuf × Option JErr
  | [], h, b => (h, b, none)
  | x :: xs, h, b =>
    match hencElem call el x h b with
    | (h', b', some e) => (h', b', some e)
    | (h', b', none) => hencElems call el xs h' b'

/-- One `encode` statement of the message at `r`, as `encStmt`. [SseBinary.java:61-80,
StringPacket.java:125-208] -/
def hencStmt (w : World) (call : HEncCall) (r : Nat) (s : EncStmt) (st : HEncSt) : HEncSt × Option JErr :=
  match s with
  | .num f t e =>
    match st.h.field r f with
    | some (.num n) => let o := writeVal st.buf t e (.num n); ({ st with buf := o.1 }, o.2)
    | _ => (st, some .illTyped)
  | .fixed f n pad left =>
    match st.h.field r f with
    | some x => let o := writeFixedVal st.buf x.leaf n pad left; ({ st with buf := o.1 }, o.2)
    | none => (st, some .illTyped)
  | .dyn f zt t e =>
    match st.h.field r f with
    | some x => let o := writeDynVal st.buf x.leaf zt t e; ({ st with buf := o.1 }, o.2)
    | none => (st, some .illTyped)
  | .list f zt t e el =>
    match st.h.field r f with
    | some .null => let o := writeInt st.buf zt .be 0; ({ st with buf := o.1 }, o.2)
    | some (.ref a) =>
      match st.h[a]? with
      | some (.arr []) => let o := writeInt st.buf zt .be 0; ({ st with buf := o.1 }, o.2)
      | some (.arr (x :: xs)) =>
        match writeInt st.buf t e (x :: xs).length with
        | (b', some err) => ({ st with buf := b' }, some err)
        | (b', none) =>
          let o := hencElems call el (x :: xs) st.h b'
          ({ st with h := o.1, buf := o.2.1 }, o.2.2)
      | _ => (st, some .illTyped)
    | _ => (st, some .illTyped)
  | .obj f =>
    match st.h.field r f with
    | some x => let o := call x st.h st.buf; ({ st with h := o.1, buf := o.2.1 }, o.2.2)
    | none => (st, some .illTyped)
  | .objOpt f =>
    match st.h.field r f with
    | some .null => (st, none)
    | some x => let o := call x st.h st.buf; ({ st with h := o.1, buf := o.2.1 }, o.2.2)
    | none => (st, some .illTyped)
  | .save x => ({ st with loc := setLoc st.loc x st.buf.wr }, none)
  | .zero t e => let o := writeInt st.buf t e 0; ({ st with buf := o.1 }, o.2)
  | .setLen f x y =>
    match st.loc x, st.loc y with
    | some a, some b => ({ st with h := st.h.setField r f (.num (.int (BitVec.ofNat 32 a - BitVec.ofNat 32 b))) }, none)
    | _, _ => (st, some .illTyped)
  | .patch x f t e =>
    match st.loc x, st.h.field r f with
    | some p, some (.num n) =>
      match n.convert t with
      | some m => let o := st.buf.set p (m.bytes e); ({ st with buf := o.1 }, o.2)
      | none => (st, some .illTyped)
    | _, _ => (st, some .illTyped)
  | .checksum f alg =>
    match Registry.getService w.svc alg with
    | some s => ({ st with h := st.h.setField r f (.num (.int (s.calcOn st.buf.readable))) }, none)
    | none => (st, none)

/-- A statement sequence: stops at the first exception. [SseBinary.java:61-80,
StringPacket.java:125-208] -/
def hencStmts (w : World) (call : HEncCall) (r : Nat) : List EncStmt → HEncSt → HEncSt × Option JErr
  | [], st => (st, none)
  | s :: ss, st =>
    match hencStmt w call r s st with
    | (st', none) => hencStmts w call r ss st'
    | (st', some e) => (st', some e)

/-- `x.encode(byteBuf)`; the first argument after the world is the remaining call-stack depth.
[SseBinary.java:61-80, StringPacket.java:125-208] -/
def hencode (w : World) : Nat → HVal → Heap → WBuf → Heap × WBuf × Option JErr
  | _, .null, h, b => (h, b, some .nullPointer)
  | 0, _, h, b => (h, b, some .stackOverflow)
  | n + 1, .ref r, h, b =>
    match h[r]? with
    | some (.msg c _) =>
      let o := hencStmts w (hencode w n) r (decl c).enc ⟨h, b, fun _ => none⟩
      (o.1.h, o.1.buf, o.2)
    | _ => (h, b, some .illTyped)
  | _ + 1, _, h, b => (h, b, some .illTyped)

/-! ### decode -/

/-- What a supplier registered with a factory does: build a new object each time (such as `Logon::new`), or hand out an object that
already exists (such as `() -> INSTANCE`). [SseBinary.java:209, SseBinary.java:206] -/
inductive Supplier
  | make (v : Val)
  | give (x : HVal)

/-- The factories' maps. [SseBinary.java:131, RootPacket.java:117] -/
abbrev Suppliers := Fac → Key → Option Supplier

/-- The factories of `w` when every supplier builds a new object each time.
[SseBinary.java:170-199] -/
def World.suppliers (w : World) : Suppliers := fun f k => (w.fac f k).map .make

mutual
/-- Build a new object (with new parts). [NestedPacket.java:56, NestedPacket.java:63,
SseBinary.java:171-198 (`Logon::new`)] -/
def alloc : Val → Heap → Heap × HVal
  | .null, h => (h, .null)
  | .num n, h => (h, .num n)
  | .str s, h => (h, .str s)
  | .list xs, h => let o := allocAll xs h; (o.1 ++ [.arr o.2], .ref o.1.length)
  | .obj c fs, h => let o := allocAll fs h; (o.1 ++ [.msg c o.2], .ref o.1.length)
/-- Build several new objects. [NestedPacket.java:56, NestedPacket.java:63, SseBinary.java:171-198
(`Logon::new`)] -/
def allocAll : List Val → Heap → Heap × List HVal
  | [], h => (h, [])
  | v :: vs, h => let o := alloc v h; let p := allocAll vs o.1; (p.1, o.2 :: p.2)
end

/-- What `new C()` leaves in a field. [NestedPacket.java:11-13, BasicPacket.java:11-32] -/
def FTy.hdefault : FTy → HVal
  | .prim t => .num ⟨t, 0⟩
  | _ => .null

/-- `new C()`. [NestedPacket.java:56, NestedPacket.java:63, SseBinary.java:171-198 (`Logon::new`)]
-/
def newMsg (c : Cls) : HObj := .msg c ((decl c).fields.map fun f => f.2.hdefault)

/-- State of a running `decode`: heap and buffer. [SseBinary.java:83-90] -/
structure HDecSt where
  h : Heap
  buf : RBuf

/-- Type of "call decode on the message at this reference". [SseBinary.java:88,
NestedPacket.java:58] -/
abbrev HDecCall := Nat → Heap → RBuf → Heap × RBuf × Option JErr

/-- `this.F.add(y)` for the message at `r`; nothing for a field the class does not have, which
cannot be written in Java. [NestedPacket.java:65] -/
def hadd (h : Heap) (r f : Nat) (y : HVal) : Heap × Option JErr :=
  match h.field r f with
  | some (.ref a) =>
    match h[a]? with
    | some (.arr xs) => (h.set a (.arr (xs ++ [y])), none)
    | _ => (h, some .illTyped)
  | some .null => (h, some .nullPointer)
  | none => (h, none)
  | _ => (h, some .illTyped)

/-- One iteration of the `for` loop that reads a list, as `decElem`. [NestedPacket.java:63-65,
StringPacket.java:230-236] -/
def hdecElem (call : HDecCall) (r f : Nat) (el : DecElem) (h : Heap) (b : RBuf) : Heap × RBuf × Option JErr :=
  match el with
  | .num t e =>
    match b.readNum e t with
    | (b', .ok n) => let o := hadd h r f (.num n); (o.1, b', o.2)
    | (b', .error err) => (h, b', some err)
  | .fixed n pad left =>
    match readFixedString b n pad left with
    | (b', .ok s) => let o := hadd h r f (.str s); (o.1, b', o.2)
    | (b', .error err) => (h, b', some err)
  | .dyn t e =>
    match readDyn b t e with
    | (b', .ok (some s)) => let o := hadd h r f (.str s); (o.1, b', o.2)
    | (b', .ok none) => (h, b', none)
    | (b', .error err) => (h, b', some err)
  | .obj c =>
    match call h.length (h ++ [newMsg c]) b with
    | (h', b', none) => let o := hadd h' r f (.ref h.length); (o.1, b', o.2)
    | (h', b', some err) => (h', b', some err)

/-- The `for` loop that reads `n` list elements. [NestedPacket.java:62-66] -/
def hdecElems (call : HDecCall) (r f : Nat) (el : DecElem) : Nat → Heap → RBuf → Heap × RBuf × Option JErr
  | 0, h, b => (h, b, none)
  | n + 1, h, b =>
    match hdecElem call r f el h b with
    | (h', b', some err) => (h', b', some err)
    | (h', b', none) => hdecElems call r f el n h' b'

/-- `this.F.decode(byteBuf)`. [SseBinary.java:88, NestedPacket.java:58] -/
def hcallField (call : HDecCall) (r f : Nat) (st : HDecSt) : HDecSt × Option JErr :=
  match st.h.field r f with
  | some .null => (st, some .nullPointer)
  | some (.ref a) =>
    match st.h[a]? with
    | some (.msg _ _) => let o := call a st.h st.buf; (⟨o.1, o.2.1⟩, o.2.2)
    | _ => (st, some .illTyped)
  | _ => (st, some .illTyped)

/-- `this.F = Factory.getInstance().create(this.key)`; the object a supplier returns may be new or
not. [SseBinary.java:87] -/
def hcreate (h : Heap) (r f : Nat) : Supplier → Heap
  | .make v => let o := alloc v h; o.1.setField r f o.2
  | .give x => h.setField r f x

/-- One `decode` statement of the message at `r`, as `decStmt`. [SseBinary.java:83-90,
StringPacket.java:211-281] -/
def hdecStmt (sup : Suppliers) (call : HDecCall) (r : Nat) (tys : List FTy) (s : DecStmt) (st : HDecSt) : HDecSt × Option JErr :=
  match s with
  | .num f t e =>
    match st.buf.readNum e t with
    | (b', .error err) => ({ st with buf := b' }, some err)
    | (b', .ok n) =>
      match tys[f]?.bind (assignNum · n) with
      | some (.num m) => (⟨st.h.setField r f (.num m), b'⟩, none)
      | _ => (⟨st.h, b'⟩, some .illTyped)
  | .fixed f n pad left =>
    match readFixedString st.buf n pad left with
    | (b', .ok s) => (⟨st.h.setField r f (.str s), b'⟩, none)
    | (b', .error err) => (⟨st.h, b'⟩, some err)
  | .dyn f t e =>
    match readDyn st.buf t e with
    | (b', .ok (some s)) => (⟨st.h.setField r f (.str s), b'⟩, none)
    | (b', .ok none) => (⟨st.h, b'⟩, none)
    | (b', .error err) => (⟨st.h, b'⟩, some err)
  | .list f t e el =>
    match st.buf.readNum e t with
    | (b', .error err) => (⟨st.h, b'⟩, some err)
    | (b', .ok n) =>
      if 0 < n.bits.toInt then
        let o := hdecElems call r f el n.bits.toNat (Heap.setField (st.h ++ [.arr []]) r f (.ref st.h.length)) b'
        (⟨o.1, o.2.1⟩, o.2.2)
      else (⟨st.h, b'⟩, none)
  | .obj f c =>
    match st.h.field r f with
    | some .null => hcallField call r f ⟨Heap.setField (st.h ++ [newMsg c]) r f (.ref st.h.length), st.buf⟩
    | _ => hcallField call r f st
  | .create f fac key =>
    match st.h.field r key with
    | some k =>
      match sup fac (keyOf k.leaf) with
      | some s => ({ st with h := hcreate st.h r f s }, none)
      | none => (st, some .illegalArgument)
    | none => (st, some .illTyped)
  | .call f => hcallField call r f st

/-- A statement sequence: stops at the first exception. [SseBinary.java:83-90,
StringPacket.java:211-281] -/
def hdecStmts (sup : Suppliers) (call : HDecCall) (r : Nat) (tys : List FTy) : List DecStmt → HDecSt → HDecSt × Option JErr
  | [], st => (st, none)
  | s :: ss, st =>
    match hdecStmt sup call r tys s st with
    | (st', none) => hdecStmts sup call r tys ss st'
    | (st', some e) => (st', some e)

/-- `o.decode(byteBuf)` for the message at reference `r`; the first argument after the suppliers is
the remaining call-stack depth. [SseBinary.java:83-90, StringPacket.java:211-281] -/
def hdecode (sup : Suppliers) : Nat → Nat → Heap → RBuf → Heap × RBuf × Option JErr
  | 0, _, h, b => (h, b, some .stackOverflow)
  | n + 1, r, h, b =>
    match h[r]? with
    | some (.msg c _) =>
      let o := hdecStmts sup (hdecode sup n) r ((decl c).fields.map (·.2)) (decl c).dec ⟨h, b⟩
      (o.1.h, o.1.buf, o.2)
    | _ => (h, b, some .illTyped)

end FinProto
