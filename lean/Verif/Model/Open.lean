import Verif.Model.Interp
/-
Messages with parts that the application supplies.

The field `body` / `payload` / `applExtend` of a message has the interface type `BinaryCodec`
(codec/src/main/java/com/finproto/codec/BinaryCodec.java:7-11), a factory holds `Supplier`s the application registers and
`ChecksumServiceFactory` holds services the application registers, so `encode` and `decode` of a message run code that is not in
the repository.  `Interp.lean` lets that code be another message of the repository, a supplier that returns an object and a pure
checksum function.  Here it is arbitrary: it may throw anything, return null, move the indices of the buffer or change what is in it.

`U` is the type of the application's `BinaryCodec` objects together with everything they can change.
(Simplification: they do not reach the message that is being encoded or decoded.  A message has at most one field of interface type:
the table checks `encParts_table` and `decParts_table` in `Proofs/OpenClosed.lean`.)
-/
namespace FinProto

/-- What can leave a method: an exception the repository's code or its libraries throw, or any throwable of the application
(numbered). [SseBinary.java:69, SseBinary.java:77, SseBinary.java:87-88] -/
inductive Thrown
  | java (e : JErr)
  | app (k : Nat)
  deriving DecidableEq, Repr

/-- The application's side: at the time of the call the checksum service registered under a name (`calc` returns an `Integer`, which
may be null, or throws), the supplier registered in a factory under a key (`get()` returns an object, or null, or throws), and
`encode` and `decode` of the application's objects.  `base` is used for list elements that are
messages of the repository. [SseBinary.java:74-77, SseBinary.java:87] -/
structure OWorld (U : Type) where
  base : World
  svc : String → Option (WBuf → WBuf × Except Thrown (Option (BitVec 32)))
  sup : Fac → Key → Option (Except Thrown (Option U))
  enc : U → WBuf → U × WBuf × Option Thrown
  dec : U → RBuf → U × RBuf × Option Thrown

/-- A message: its fields, with `.null` standing in the field of interface type, and the object in
that field. [SseBinary.java:14-18] -/
structure OMsg (U : Type) where
  fs : List Val
  part : Option U

/-- State of a running `encode`. [SseBinary.java:64-71] -/
structure OEncSt (U : Type) where
  fs : List Val
  part : Option U
  buf : WBuf
  loc : Nat → Option Nat

/-- One `encode` statement.  Statements that involve the application: `if (null != this.F) this.F.encode(byteBuf)`
(SseBinary.java:68-70 and alike) and the checksum (SseBinary.java:74-78; unboxing a null result throws `NullPointerException`).
All others are `encStmt`. -/
def oencStmt {U : Type} (w : OWorld U) (n : Nat) (s : EncStmt) (st : OEncSt U) : OEncSt U × Option Thrown :=
  match s with
  | .objOpt _ =>
    match st.part with
    | none => (st, none)
    | some u => let r := w.enc u st.buf; ({ st with part := some r.1, buf := r.2.1 }, r.2.2)
  | .checksum f alg =>
    match w.svc alg with
    | none => (st, none)
    | some service =>
      match service st.buf with
      | (b, .error t) => ({ st with buf := b }, some t)
      | (b, .ok none) => ({ st with buf := b }, some (.java .nullPointer))
      | (b, .ok (some v)) => ({ st with buf := b, fs := st.fs.set f (.num (.int v)) }, none)
  | s =>
    let r := encStmt w.base (encode w.base n) s ⟨st.fs, st.buf, st.loc⟩
    (⟨r.1.fs, st.part, r.1.buf, r.1.loc⟩, r.2.map .java)

/-- A statement sequence: stops at the first exception. [SseBinary.java:61-80,
StringPacket.java:125-208] -/
def oencStmts {U : Type} (w : OWorld U) (n : Nat) : List EncStmt → OEncSt U → OEncSt U × Option Thrown
  | [], st => (st, none)
  | s :: ss, st =>
    match oencStmt w n s st with
    | (st', none) => oencStmts w n ss st'
    | (st', some t) => (st', some t)

/-- `m.encode(byteBuf)` for a message of class `c`; `n` is the call-stack depth left for messages
in its lists. [SseBinary.java:61-80, StringPacket.java:125-208] -/
def oencode {U : Type} (w : OWorld U) (n : Nat) (c : Cls) (m : OMsg U) (b : WBuf) : OMsg U × WBuf × Option Thrown :=
  let r := oencStmts w n (decl c).enc ⟨m.fs, m.part, b, fun _ => none⟩
  (⟨r.1.fs, r.1.part⟩, r.1.buf, r.2)

/-- State of a running `decode`. [SseBinary.java:83-90] -/
structure ODecSt (U : Type) where
  fs : List Val
  part : Option U
  buf : RBuf

/-- One `decode` statement.  Statements that involve the application: `this.F = Factory.getInstance().create(this.key)`
(SseBinary.java:87; `create`, SseBinary.java:201-207: no supplier throws `IllegalArgumentException`, otherwise the
result of `supplier.get()`), and `this.F.decode(byteBuf)` (SseBinary.java:88; null throws).  All others are `decStmt`. -/
def odecStmt {U : Type} (w : OWorld U) (n : Nat) (tys : List FTy) (s : DecStmt) (st : ODecSt U) : ODecSt U × Option Thrown :=
  match s with
  | .create _ fac key =>
    match st.fs[key]? with
    | none => (st, some (.java .illTyped))
    | some k =>
      match w.sup fac (keyOf k) with
      | none => (st, some (.java .illegalArgument))
      | some (.error t) => (st, some t)
      | some (.ok p) => ({ st with part := p }, none)
  | .call _ =>
    match st.part with
    | none => (st, some (.java .nullPointer))
    | some u => let r := w.dec u st.buf; ({ st with part := some r.1, buf := r.2.1 }, r.2.2)
  | s =>
    let r := decStmt w.base (decode w.base n) tys s ⟨st.fs, st.buf⟩
    (⟨r.1.fs, st.part, r.1.buf⟩, r.2.map .java)

/-- A statement sequence: stops at the first exception. [SseBinary.java:83-90,
StringPacket.java:211-281] -/
def odecStmts {U : Type} (w : OWorld U) (n : Nat) (tys : List FTy) : List DecStmt → ODecSt U → ODecSt U × Option Thrown
  | [], st => (st, none)
  | s :: ss, st =>
    match odecStmt w n tys s st with
    | (st', none) => odecStmts w n tys ss st'
    | (st', some t) => (st', some t)

/-- `m.decode(byteBuf)` for a message of class `c`. [SseBinary.java:83-90,
StringPacket.java:211-281] -/
def odecode {U : Type} (w : OWorld U) (n : Nat) (c : Cls) (m : OMsg U) (b : RBuf) : OMsg U × RBuf × Option Thrown :=
  let r := odecStmts w n ((decl c).fields.map (·.2)) (decl c).dec ⟨m.fs, m.part, b⟩
  (⟨r.1.fs, r.1.part⟩, r.1.buf, r.2)

end FinProto
