import Verif.Model.Heap
/-
`encode` of a message while other threads call the setters of it and of the messages it consists of, at any depth.

As `Racing.lean`, but over the heap: the accesses of a part's `encode` are counted as those of the message itself, and other threads may call setters of any
object between any two of them, also of a part that is just being encoded, and of one that was already replaced by another.

Simplifications: an access is indivisible and sees all assignments made before it (the Java memory model allows an access to see older values too, and
halves of a `long`); others call setters, they do not add elements to lists or take them out; the objects they refer to exist from the beginning.
-/
namespace FinProto

/-- What other threads do: the object, the field and the new value of each assignment they make just before the access number `k`. [SseBinary.java:20-58] -/
abbrev HOthers := Nat → List (Nat × Nat × HVal)

/-- Assign one after the other. [SseBinary.java:20-58] -/
def hsetAll (h : Heap) : List (Nat × Nat × HVal) → Heap
  | [] => h
  | p :: ps => hsetAll (h.setField p.1 p.2.1 p.2.2) ps

/-- State of a running `encode`: the heap, the number of accesses so far, the buffer, the local `int` variables. [SseBinary.java:64-71] -/
structure RHSt where
  h : Heap
  k : Nat
  buf : WBuf
  loc : Nat → Option Nat

/-- Type of "call encode on this value", with the number of accesses before and after. [SseBinary.java:69, NestedPacket.java:41] -/
abbrev RHCall := HVal → Heap → Nat → WBuf → Heap × Nat × WBuf × Option JErr

/-- Read `this.F`; `this` is at `r`. [SseBinary.java:62] -/
def RHSt.look (o : HOthers) (r f : Nat) (st : RHSt) : RHSt × Option HVal :=
  ({ st with h := hsetAll st.h (o st.k), k := st.k + 1 }, (hsetAll st.h (o st.k)).field r f)

/-- `this.F = y`. [SseBinary.java:72] -/
def RHSt.put (o : HOthers) (r f : Nat) (y : HVal) (st : RHSt) : RHSt :=
  { st with h := (hsetAll st.h (o st.k)).setField r f y, k := st.k + 1 }

/-- The outcome of writing to the buffer. [SseBinary.java:62] -/
def RHSt.wrote (st : RHSt) (r : WBuf × Option JErr) : RHSt × Option JErr := ({ st with buf := r.1 }, r.2)

/-- `x.encode(byteBuf)` on a value that was read. [SseBinary.java:69] -/
def RHSt.call (call : RHCall) (x : HVal) (st : RHSt) : RHSt × Option JErr :=
  let a := call x st.h st.k st.buf
  ({ st with h := a.1, k := a.2.1, buf := a.2.2.1 }, a.2.2.2)

/-- The elements of the list `this.F`. [NestedPacket.java:42-47] -/
def RHSt.elems (o : HOthers) (r f : Nat) (st : RHSt) : RHSt × Except JErr (List HVal) :=
  match st.look o r f with
  | (st', some (.ref a)) =>
    match st'.h[a]? with
    | some (.arr xs) => (st', .ok xs)
    | _ => (st', .error .illTyped)
  | (st', some .null) => (st', .error .nullPointer)
  | (st', _) => (st', .error .illTyped)

/-- `this.F.get(i)`. [NestedPacket.java:47] -/
def RHSt.get (o : HOthers) (r f i : Nat) (st : RHSt) : RHSt × Except JErr HVal :=
  match st.elems o r f with
  | (st', .error err) => (st', .error err)
  | (st', .ok xs) =>
    match xs[i]? with
    | some x => (st', .ok x)
    | none => (st', .error .indexOutOfBounds)

/-- `this.F`, as an expression. [StringPacket.java:126] -/
def RHSt.field (o : HOthers) (r f : Nat) (st : RHSt) : RHSt × Except JErr HVal :=
  match st.look o r f with
  | (st', some x) => (st', .ok x)
  | (st', none) => (st', .error .illTyped)

/-- A text with its length in front; the expression `x` is evaluated twice, as in `rdyn`. [StringPacket.java:126-132, StringPacket.java:151-157] -/
def rhdyn (x : RHSt → RHSt × Except JErr HVal) (zt t : PTy) (e : Endian) (st : RHSt) : RHSt × Option JErr :=
  match x st with
  | (st, .error err) => (st, some err)
  | (st, .ok v) =>
    match v.leaf.asStr with
    | none => (st, some .illTyped)
    | some (some (_ :: _)) =>
      match x st with
      | (st, .error err) => (st, some err)
      | (st, .ok .null) => (st, some .nullPointer)
      | (st, .ok (.str s)) =>
        match writeInt st.buf t e (utf8Enc s).length with
        | (b, some err) => ({ st with buf := b }, some err)
        | (b, none) => st.wrote (b.write (utf8Enc s))
      | (st, .ok _) => (st, some .illTyped)
    | some _ => st.wrote (writeInt st.buf zt .be 0)

/-- One iteration of the `for` loop that writes a list. [NestedPacket.java:47,
StringPacket.java:151-157] -/
def rhelem (o : HOthers) (call : RHCall) (el : EncElem) (r f i : Nat) (st : RHSt) : RHSt × Option JErr :=
  match el with
  | .dyn zt t e => rhdyn (fun st => st.get o r f i) zt t e st
  | .num t e =>
    match st.get o r f i with
    | (st, .error err) => (st, some err)
    | (st, .ok x) => st.wrote (writeVal st.buf t e x.leaf)
  | .fixed n pad left =>
    match st.get o r f i with
    | (st, .error err) => (st, some err)
    | (st, .ok x) => st.wrote (writeFixedVal st.buf x.leaf n pad left)
  | .obj =>
    match st.get o r f i with
    | (st, .error err) => (st, some err)
    | (st, .ok x) => st.call call x

/-- `for (int i = ...; i < this.F.size(); i++) { ... }`; the first number bounds the rounds that are left, as in `rloop`. [NestedPacket.java:46-48] -/
def rhloop (o : HOthers) (call : RHCall) (el : EncElem) (r f : Nat) : Nat → Nat → RHSt → RHSt × Option JErr
  | 0, _, st => (st, none)
  | m + 1, i, st =>
    match st.elems o r f with
    | (st, .error err) => (st, some err)
    | (st, .ok xs) =>
      if i < xs.length then
        match rhelem o call el r f i st with
        | (st, some err) => (st, some err)
        | (st, none) => rhloop o call el r f m (i + 1) st
      else (st, none)

/-- One `encode` statement of the message at `r`; as `hencStmt`, with the accesses of the Java text. [SseBinary.java:61-80,
StringPacket.java:125-208] -/
def rhstmt (w : World) (o : HOthers) (call : RHCall) (r : Nat) (s : EncStmt) (st : RHSt) : RHSt × Option JErr :=
  match s with
  | .num f t e =>
    match st.look o r f with
    | (st, some (.num n)) => st.wrote (writeVal st.buf t e (.num n))
    | (st, _) => (st, some .illTyped)
  | .fixed f n pad left =>
    match st.look o r f with
    | (st, some x) => st.wrote (writeFixedVal st.buf x.leaf n pad left)
    | (st, none) => (st, some .illTyped)
  | .dyn f zt t e => rhdyn (fun st => st.field o r f) zt t e st
  | .list f zt t e el =>
    match st.look o r f with
    | (st, none) => (st, some .illTyped)
    | (st, some .null) => st.wrote (writeInt st.buf zt .be 0)
    | (st, some _) =>
      match st.elems o r f with
      | (st, .error err) => (st, some err)
      | (st, .ok []) => st.wrote (writeInt st.buf zt .be 0)
      | (st, .ok (_ :: _)) =>
        match st.elems o r f with
        | (st, .error err) => (st, some err)
        | (st, .ok xs) =>
          match st.wrote (writeInt st.buf t e xs.length) with
          | (st, some err) => (st, some err)
          | (st, none) => rhloop o call el r f 2147483647 0 st
  | .obj f =>
    match st.look o r f with
    | (st, some x) => st.call call x
    | (st, none) => (st, some .illTyped)
  | .objOpt f =>
    match st.look o r f with
    | (st, none) => (st, some .illTyped)
    | (st, some .null) => (st, none)
    | (st, some _) =>
      match st.look o r f with
      | (st, some x) => st.call call x
      | (st, none) => (st, some .illTyped)
  | .save x => ({ st with loc := setLoc st.loc x st.buf.wr }, none)
  | .zero t e => st.wrote (writeInt st.buf t e 0)
  | .setLen f x y =>
    match st.loc x, st.loc y with
    | some a, some b => (st.put o r f (.num (.int (BitVec.ofNat 32 a - BitVec.ofNat 32 b))), none)
    | _, _ => (st, some .illTyped)
  | .patch x f t e =>
    match st.look o r f with
    | (st, some (.num n)) =>
      match st.loc x, n.convert t with
      | some p, some m => st.wrote (st.buf.set p (m.bytes e))
      | _, _ => (st, some .illTyped)
    | (st, _) => (st, some .illTyped)
  | .checksum f alg =>
    match Registry.getService w.svc alg with
    | some s => (st.put o r f (.num (.int (s.calcOn st.buf.readable))), none)
    | none => (st, none)

/-- A statement sequence: stops at the first exception. [SseBinary.java:61-80,
StringPacket.java:125-208] -/
def rhstmts (w : World) (o : HOthers) (call : RHCall) (r : Nat) : List EncStmt → RHSt → RHSt × Option JErr
  | [], st => (st, none)
  | s :: ss, st =>
    match rhstmt w o call r s st with
    | (st', none) => rhstmts w o call r ss st'
    | (st', some e) => (st', some e)

/-- `x.encode(byteBuf)` while other threads do `o`; the numbers are the call-stack depth left and the accesses made before. [SseBinary.java:61-80,
StringPacket.java:125-208] -/
def rhencode (w : World) (o : HOthers) : Nat → HVal → Heap → Nat → WBuf → Heap × Nat × WBuf × Option JErr
  | _, .null, h, k, b => (h, k, b, some .nullPointer)
  | 0, _, h, k, b => (h, k, b, some .stackOverflow)
  | n + 1, .ref r, h, k, b =>
    match h[r]? with
    | some (.msg c _) =>
      let a := rhstmts w o (rhencode w o n) r (decl c).enc ⟨h, k, b, fun _ => none⟩
      (a.1.h, a.1.k, a.1.buf, a.2)
    | _ => (h, k, b, some .illTyped)
  | _ + 1, _, h, k, b => (h, k, b, some .illTyped)

end FinProto
