import Verif.Model.RacingHeap
/-
`encode` of a message while other threads call setters, with reads as weak as the Java memory model allows.

The fields of the messages are not `volatile`.  Without synchronisation a read of a field that another thread assigns may return the value it had before or any
value assigned to it, not only the latest; a second read may return an older value than the first; a `long` or `double` may be read in halves (JLS 17.4, 17.7).
So nothing is said here about what others do and when: the result of each read is given (`Seen`); which results there can be is part of the specification
(`Spec/WeakHeap.lean`).  The heap contains what the thread itself has assigned.

Simplifications: others call setters, they do not change the contents of lists; objects whose references are read have been published safely, so that their classes and
the lists in them are as at the beginning of the call.
-/
namespace FinProto

/-- What reads return: number of the access, object, field; `none` if it is what the thread itself knows. [SseBinary.java:62] -/
abbrev Seen := Nat → Nat → Nat → Option HVal

/-- Read `this.F`; `this` is at `r`. [SseBinary.java:62] -/
def RHSt.wlook (m : Seen) (r f : Nat) (st : RHSt) : RHSt × Option HVal :=
  ({ st with k := st.k + 1 }, match m st.k r f with | some y => some y | none => st.h.field r f)

/-- `this.F = y`. [SseBinary.java:72] -/
def RHSt.wput (r f : Nat) (y : HVal) (st : RHSt) : RHSt := { st with h := st.h.setField r f y, k := st.k + 1 }

/-- The elements of the list `this.F`. [NestedPacket.java:42-47] -/
def RHSt.welems (m : Seen) (r f : Nat) (st : RHSt) : RHSt × Except JErr (List HVal) :=
  match st.wlook m r f with
  | (st', some (.ref a)) =>
    match st'.h[a]? with
    | some (.arr xs) => (st', .ok xs)
    | _ => (st', .error .illTyped)
  | (st', some .null) => (st', .error .nullPointer)
  | (st', _) => (st', .error .illTyped)

/-- `this.F.get(i)`. [NestedPacket.java:47] -/
def RHSt.wget (m : Seen) (r f i : Nat) (st : RHSt) : RHSt × Except JErr HVal :=
  match st.welems m r f with
  | (st', .error err) => (st', .error err)
  | (st', .ok xs) =>
    match xs[i]? with
    | some x => (st', .ok x)
    | none => (st', .error .indexOutOfBounds)

/-- `this.F`, as an expression. [StringPacket.java:126] -/
def RHSt.wfield (m : Seen) (r f : Nat) (st : RHSt) : RHSt × Except JErr HVal :=
  match st.wlook m r f with
  | (st', some x) => (st', .ok x)
  | (st', none) => (st', .error .illTyped)

/-- One iteration of the `for` loop that writes a list. [NestedPacket.java:47,
StringPacket.java:151-157] -/
def welem (m : Seen) (call : RHCall) (el : EncElem) (r f i : Nat) (st : RHSt) : RHSt × Option JErr :=
  match el with
  | .dyn zt t e => rhdyn (fun st => st.wget m r f i) zt t e st
  | .num t e =>
    match st.wget m r f i with
    | (st, .error err) => (st, some err)
    | (st, .ok x) => st.wrote (writeVal st.buf t e x.leaf)
  | .fixed n pad left =>
    match st.wget m r f i with
    | (st, .error err) => (st, some err)
    | (st, .ok x) => st.wrote (writeFixedVal st.buf x.leaf n pad left)
  | .obj =>
    match st.wget m r f i with
    | (st, .error err) => (st, some err)
    | (st, .ok x) => st.call call x

/-- `for (int i = ...; i < this.F.size(); i++) { ... }`; the first number bounds the rounds that are left, as in `rloop`. [NestedPacket.java:46-48] -/
def wloop (m : Seen) (call : RHCall) (el : EncElem) (r f : Nat) : Nat → Nat → RHSt → RHSt × Option JErr
  | 0, _, st => (st, none)
  | j + 1, i, st =>
    match st.welems m r f with
    | (st, .error err) => (st, some err)
    | (st, .ok xs) =>
      if i < xs.length then
        match welem m call el r f i st with
        | (st, some err) => (st, some err)
        | (st, none) => wloop m call el r f j (i + 1) st
      else (st, none)

/-- One `encode` statement of the message at `r`; as `hencStmt`, with the accesses of the Java text. [SseBinary.java:61-80,
StringPacket.java:125-208] -/
def wstmt (w : World) (m : Seen) (call : RHCall) (r : Nat) (s : EncStmt) (st : RHSt) : RHSt × Option JErr :=
  match s with
  | .num f t e =>
    match st.wlook m r f with
    | (st, some (.num n)) => st.wrote (writeVal st.buf t e (.num n))
    | (st, _) => (st, some .illTyped)
  | .fixed f n pad left =>
    match st.wlook m r f with
    | (st, some x) => st.wrote (writeFixedVal st.buf x.leaf n pad left)
    | (st, none) => (st, some .illTyped)
  | .dyn f zt t e => rhdyn (fun st => st.wfield m r f) zt t e st
  | .list f zt t e el =>
    match st.wlook m r f with
    | (st, none) => (st, some .illTyped)
    | (st, some .null) => st.wrote (writeInt st.buf zt .be 0)
    | (st, some _) =>
      match st.welems m r f with
      | (st, .error err) => (st, some err)
      | (st, .ok []) => st.wrote (writeInt st.buf zt .be 0)
      | (st, .ok (_ :: _)) =>
        match st.welems m r f with
        | (st, .error err) => (st, some err)
        | (st, .ok xs) =>
          match st.wrote (writeInt st.buf t e xs.length) with
          | (st, some err) => (st, some err)
          | (st, none) => wloop m call el r f 2147483647 0 st
  | .obj f =>
    match st.wlook m r f with
    | (st, some x) => st.call call x
    | (st, none) => (st, some .illTyped)
  | .objOpt f =>
    match st.wlook m r f with
    | (st, none) => (st, some .illTyped)
    | (st, some .null) => (st, none)
    | (st, some _) =>
      match st.wlook m r f with
      | (st, some x) => st.call call x
      | (st, none) => (st, some .illTyped)
  | .save x => ({ st with loc := setLoc st.loc x st.buf.wr }, none)
  | .zero t e => st.wrote (writeInt st.buf t e 0)
  | .setLen f x y =>
    match st.loc x, st.loc y with
    | some a, some b => (st.wput r f (.num (.int (BitVec.ofNat 32 a - BitVec.ofNat 32 b))), none)
    | _, _ => (st, some .illTyped)
  | .patch x f t e =>
    match st.wlook m r f with
    | (st, some (.num n)) =>
      match st.loc x, n.convert t with
      | some p, some q => st.wrote (st.buf.set p (q.bytes e))
      | _, _ => (st, some .illTyped)
    | (st, _) => (st, some .illTyped)
  | .checksum f alg =>
    match Registry.getService w.svc alg with
    | some s => (st.wput r f (.num (.int (s.calcOn st.buf.readable))), none)
    | none => (st, none)

/-- A statement sequence: stops at the first exception. [SseBinary.java:61-80,
StringPacket.java:125-208] -/
def wstmts (w : World) (m : Seen) (call : RHCall) (r : Nat) : List EncStmt → RHSt → RHSt × Option JErr
  | [], st => (st, none)
  | s :: ss, st =>
    match wstmt w m call r s st with
    | (st', none) => wstmts w m call r ss st'
    | (st', some e) => (st', some e)

/-- `x.encode(byteBuf)` with reads according to `m`; the numbers are the call-stack depth left and the accesses made before. [SseBinary.java:61-80,
StringPacket.java:125-208] -/
def wencode (w : World) (m : Seen) : Nat → HVal → Heap → Nat → WBuf → Heap × Nat × WBuf × Option JErr
  | _, .null, h, k, b => (h, k, b, some .nullPointer)
  | 0, _, h, k, b => (h, k, b, some .stackOverflow)
  | n + 1, .ref r, h, k, b =>
    match h[r]? with
    | some (.msg c _) =>
      let a := wstmts w m (wencode w m n) r (decl c).enc ⟨h, k, b, fun _ => none⟩
      (a.1.h, a.1.k, a.1.buf, a.2)
    | _ => (h, k, b, some .illTyped)
  | _ + 1, _, h, k, b => (h, k, b, some .illTyped)

end FinProto
