import Verif.Model.RacingHeap
/-
`encode` of a message while other threads do anything whatever to the objects in memory: setters, of lists and computed fields as well, elements added to lists
and taken out of them, objects created.

As `RacingHeap.lean`, with any change of the heap before each access.  As the change may be one that makes the next read return what it likes, this covers
stale and torn reads as well.

Simplification: `size()` and `get(i)` of a list are indivisible (inside `ArrayList` they read `size` and the array separately).
-/
namespace FinProto

/-- What other threads do to the memory just before the access number `k`. [SseBinary.java:20-58, NestedPacket.java:27-29] -/
abbrev Acts := Nat → Heap → Heap

/-- Read `this.F`; `this` is at `r`. [SseBinary.java:62] -/
def RHSt.alook (o : Acts) (r f : Nat) (st : RHSt) : RHSt × Option HVal :=
  ({ st with h := o st.k st.h, k := st.k + 1 }, (o st.k st.h).field r f)

/-- `this.F = y`. [SseBinary.java:72] -/
def RHSt.aput (o : Acts) (r f : Nat) (y : HVal) (st : RHSt) : RHSt :=
  { st with h := (o st.k st.h).setField r f y, k := st.k + 1 }

/-- The elements of the list `this.F`. [NestedPacket.java:42-47] -/
def RHSt.aelems (o : Acts) (r f : Nat) (st : RHSt) : RHSt × Except JErr (List HVal) :=
  match st.alook o r f with
  | (st', some (.ref a)) =>
    match st'.h[a]? with
    | some (.arr xs) => (st', .ok xs)
    | _ => (st', .error .illTyped)
  | (st', some .null) => (st', .error .nullPointer)
  | (st', _) => (st', .error .illTyped)

/-- `this.F.get(i)`. [NestedPacket.java:47] -/
def RHSt.aget (o : Acts) (r f i : Nat) (st : RHSt) : RHSt × Except JErr HVal :=
  match st.aelems o r f with
  | (st', .error err) => (st', .error err)
  | (st', .ok xs) =>
    match xs[i]? with
    | some x => (st', .ok x)
    | none => (st', .error .indexOutOfBounds)

/-- `this.F`, as an expression. [StringPacket.java:126] -/
def RHSt.afield (o : Acts) (r f : Nat) (st : RHSt) : RHSt × Except JErr HVal :=
  match st.alook o r f with
  | (st', some x) => (st', .ok x)
  | (st', none) => (st', .error .illTyped)

/-- One iteration of the `for` loop that writes a list. [NestedPacket.java:47,
StringPacket.java:151-157] -/
def aelem (o : Acts) (call : RHCall) (el : EncElem) (r f i : Nat) (st : RHSt) : RHSt × Option JErr :=
  match el with
  | .dyn zt t e => rhdyn (fun st => st.aget o r f i) zt t e st
  | .num t e =>
    match st.aget o r f i with
    | (st, .error err) => (st, some err)
    | (st, .ok x) => st.wrote (writeVal st.buf t e x.leaf)
  | .fixed n pad left =>
    match st.aget o r f i with
    | (st, .error err) => (st, some err)
    | (st, .ok x) => st.wrote (writeFixedVal st.buf x.leaf n pad left)
  | .obj =>
    match st.aget o r f i with
    | (st, .error err) => (st, some err)
    | (st, .ok x) => st.call call x

/-- `for (int i = ...; i < this.F.size(); i++) { ... }`; the first number bounds the rounds that are left, as in `rloop`. [NestedPacket.java:46-48] -/
def aloop (o : Acts) (call : RHCall) (el : EncElem) (r f : Nat) : Nat → Nat → RHSt → RHSt × Option JErr
  | 0, _, st => (st, none)
  | m + 1, i, st =>
    match st.aelems o r f with
    | (st, .error err) => (st, some err)
    | (st, .ok xs) =>
      if i < xs.length then
        match aelem o call el r f i st with
        | (st, some err) => (st, some err)
        | (st, none) => aloop o call el r f m (i + 1) st
      else (st, none)

/-- One `encode` statement of the message at `r`; as `hencStmt`, with the accesses of the Java text. [SseBinary.java:61-80,
StringPacket.java:125-208] -/
def astmt (w : World) (o : Acts) (call : RHCall) (r : Nat) (s : EncStmt) (st : RHSt) : RHSt × Option JErr :=
  match s with
  | .num f t e =>
    match st.alook o r f with
    | (st, some (.num n)) => st.wrote (writeVal st.buf t e (.num n))
    | (st, _) => (st, some .illTyped)
  | .fixed f n pad left =>
    match st.alook o r f with
    | (st, some x) => st.wrote (writeFixedVal st.buf x.leaf n pad left)
    | (st, none) => (st, some .illTyped)
  | .dyn f zt t e => rhdyn (fun st => st.afield o r f) zt t e st
  | .list f zt t e el =>
    match st.alook o r f with
    | (st, none) => (st, some .illTyped)
    | (st, some .null) => st.wrote (writeInt st.buf zt .be 0)
    | (st, some _) =>
      match st.aelems o r f with
      | (st, .error err) => (st, some err)
      | (st, .ok []) => st.wrote (writeInt st.buf zt .be 0)
      | (st, .ok (_ :: _)) =>
        match st.aelems o r f with
        | (st, .error err) => (st, some err)
        | (st, .ok xs) =>
          match st.wrote (writeInt st.buf t e xs.length) with
          | (st, some err) => (st, some err)
          | (st, none) => aloop o call el r f 2147483647 0 st
  | .obj f =>
    match st.alook o r f with
    | (st, some x) => st.call call x
    | (st, none) => (st, some .illTyped)
  | .objOpt f =>
    match st.alook o r f with
    | (st, none) => (st, some .illTyped)
    | (st, some .null) => (st, none)
    | (st, some _) =>
      match st.alook o r f with
      | (st, some x) => st.call call x
      | (st, none) => (st, some .illTyped)
  | .save x => ({ st with loc := setLoc st.loc x st.buf.wr }, none)
  | .zero t e => st.wrote (writeInt st.buf t e 0)
  | .setLen f x y =>
    match st.loc x, st.loc y with
    | some a, some b => (st.aput o r f (.num (.int (BitVec.ofNat 32 a - BitVec.ofNat 32 b))), none)
    | _, _ => (st, some .illTyped)
  | .patch x f t e =>
    match st.alook o r f with
    | (st, some (.num n)) =>
      match st.loc x, n.convert t with
      | some p, some m => st.wrote (st.buf.set p (m.bytes e))
      | _, _ => (st, some .illTyped)
    | (st, _) => (st, some .illTyped)
  | .checksum f alg =>
    match Registry.getService w.svc alg with
    | some s => (st.aput o r f (.num (.int (s.calcOn st.buf.readable))), none)
    | none => (st, none)

/-- A statement sequence: stops at the first exception. [SseBinary.java:61-80,
StringPacket.java:125-208] -/
def astmts (w : World) (o : Acts) (call : RHCall) (r : Nat) : List EncStmt → RHSt → RHSt × Option JErr
  | [], st => (st, none)
  | s :: ss, st =>
    match astmt w o call r s st with
    | (st', none) => astmts w o call r ss st'
    | (st', some e) => (st', some e)

/-- `x.encode(byteBuf)` while other threads do `o`; the numbers are the call-stack depth left and the accesses made before. [SseBinary.java:61-80,
StringPacket.java:125-208] -/
def aencode (w : World) (o : Acts) : Nat → HVal → Heap → Nat → WBuf → Heap × Nat × WBuf × Option JErr
  | _, .null, h, k, b => (h, k, b, some .nullPointer)
  | 0, _, h, k, b => (h, k, b, some .stackOverflow)
  | n + 1, .ref r, h, k, b =>
    match h[r]? with
    | some (.msg c _) =>
      let a := astmts w o (aencode w o n) r (decl c).enc ⟨h, k, b, fun _ => none⟩
      (a.1.h, a.1.k, a.1.buf, a.2)
    | _ => (h, k, b, some .illTyped)
  | _ + 1, _, h, k, b => (h, k, b, some .illTyped)

end FinProto
