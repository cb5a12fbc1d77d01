import Verif.Model.Classes
/-
Meaning of the `encode`/`decode` statements of the message classes
(statement idioms listed in `IR.lean`; the statements of each class are the tables in `Classes/*.lean`).

Every function returns the (possibly partially) updated state together with the exception, if one was thrown.
-/
namespace FinProto

/-- Process-wide state read by `encode`/`decode`: the checksum registry
(ChecksumServiceFactory.java:13) and the message factories' maps.  A factory maps a key to the object its
supplier returns (`.obj c fs` in whatever initial state, or `.null`); `none` is "no supplier".
(Simplification: a supplier returns an equal object each time and only objects of the modelled classes.) -/
structure World where
  svc : Registry
  fac : Fac → Key → Option Val

/-- Default value of a field: what `new C()` leaves in it. [BasicPacket.java:11-32] -/
def FTy.default : FTy → Val
  | .prim t => .num ⟨t, 0⟩
  | _ => .null

/-- Fields of `new C()`. [NestedPacket.java:56, NestedPacket.java:63, SseBinary.java:171-198
(`Logon::new`)] -/
def freshFields (c : Cls) : List Val := (decl c).fields.map fun f => f.2.default

/-- `new C()`. [NestedPacket.java:56, NestedPacket.java:63, SseBinary.java:171-198 (`Logon::new`)]
-/
def fresh (c : Cls) : Val := .obj c (freshFields c)

/-- The factory key a field value is boxed to. [SseBinary.java:87, RootPacket.java:76] -/
def keyOf : Val → Key
  | .num ⟨.i32, v⟩ => .int v
  | .num ⟨.i16, v⟩ => .short v
  | .str s => .str s
  | _ => .null

/-! ### encode -/

/-- State of a running `encode`: fields of `this`, the buffer, the local `int` variables.
[SseBinary.java:64-71] -/
structure EncSt where
  fs : List Val
  buf : WBuf
  loc : Nat → Option Nat

/-- Type of "encode this object value into this buffer". [SseBinary.java:69, NestedPacket.java:41]
-/
abbrev EncCall := Val → WBuf → Val × WBuf × Option JErr

/-- A Java `String` reference. [StringPacket.java:126] -/
def Val.asStr : Val → Option (Option JStr)
  | .null => some none
  | .str s => some (some s)
  | _ => none

/-- `byteBuf.writeXxx(v)` for a primitive (or boxed) value. [SseBinary.java:62-65] -/
def writeVal (b : WBuf) (t : PTy) (e : Endian) : Val → WBuf × Option JErr
  | .num n =>
    match n.convert t with
    | some m => b.write (m.bytes e)
    | none => (b, some .illTyped)
  | .null => (b, some .nullPointer)  -- unboxing null
  | _ => (b, some .illTyped)

/-- `byteBuf.writeXxx(k)` for an `int` expression `k`. [SseBinary.java:65, NestedPacket.java:45] -/
def writeInt (b : WBuf) (t : PTy) (e : Endian) (k : Nat) : WBuf × Option JErr :=
  writeVal b t e (.num (.int (BitVec.ofNat 32 k)))

/-- `if (StringUtil.isNullOrEmpty(s)) writeXxx(0) else { bytes = s.getBytes(UTF_8);
writeXxx(bytes.length); writeBytes(bytes) }`. [StringPacket.java:126-132] -/
def writeDyn (b : WBuf) (zt t : PTy) (e : Endian) (s : Option JStr) : WBuf × Option JErr :=
  match s with
  | some (c :: cs) =>
    match writeInt b t e (utf8Enc (c :: cs)).length with
    | (b', some err) => (b', some err)
    | (b', none) => b'.write (utf8Enc (c :: cs))
  | _ => writeInt b zt .be 0

/-- `writeFixedString(byteBuf, v, n, pad, left)` on a field value. [StringPacket.java:142-145] -/
def writeFixedVal (b : WBuf) (v : Val) (n : Nat) (pad : JChar) (left : Bool) : WBuf × Option JErr :=
  match v.asStr with
  | some s => writeFixedString b s n pad left
  | none => (b, some .illTyped)

/-- Length-prefixed string from a field value. [StringPacket.java:126-132] -/
def writeDynVal (b : WBuf) (v : Val) (zt t : PTy) (e : Endian) : WBuf × Option JErr :=
  match v.asStr with
  | some s => writeDyn b zt t e s
  | none => (b, some .illTyped)

/-- One iteration of the `for` loop that writes a list. [NestedPacket.java:47,
StringPacket.java:151-157] -/
def encElem (call : EncCall) (el : EncElem) (v : Val) (b : WBuf) : Val × WBuf × Option JErr :=
  match el with
  | .num t e => (v, writeVal b t e v)
  | .fixed n pad left => (v, writeFixedVal b v n pad left)
  | .dyn zt t e => (v, writeDynVal b v zt t e)
  | .obj => call v b

/-- The `for` loop that writes a list; returns the list with its (possibly updated) elements.
[NestedPacket.java:46-48] -/
def encElems (call : EncCall) (el : EncElem) : List Val → WBuf → List Val × WBuf × Option JErr
  | [], b => ([], b, none)
  | v :: vs, b =>
    match encElem call el v b with
    | (v', b', some e) => (v' :: vs, b', some e)
    | (v', b', none) =>
      match encElems call el vs b' with
      | (vs', b'', r) => (v' :: vs', b'', r)

/-- Set local variable `x`. [SseBinary.java:64] -/
def setLoc (loc : Nat → Option Nat) (x v : Nat) : Nat → Option Nat :=
  fun y => if y = x then some v else loc y

/-- One `encode` statement. [SseBinary.java:61-80, StringPacket.java:125-208] -/
def encStmt (w : World) (call : EncCall) (s : EncStmt) (st : EncSt) : EncSt × Option JErr :=
  match s with
  | .num f t e =>
    match st.fs[f]? with
    | some (.num n) => let r := writeVal st.buf t e (.num n); ({ st with buf := r.1 }, r.2)
    | _ => (st, some .illTyped)
  | .fixed f n pad left =>
    match st.fs[f]? with
    | some v => let r := writeFixedVal st.buf v n pad left; ({ st with buf := r.1 }, r.2)
    | none => (st, some .illTyped)
  | .dyn f zt t e =>
    match st.fs[f]? with
    | some v => let r := writeDynVal st.buf v zt t e; ({ st with buf := r.1 }, r.2)
    | none => (st, some .illTyped)
  | .list f zt t e el =>
    match st.fs[f]? with
    | some .null => let r := writeInt st.buf zt .be 0; ({ st with buf := r.1 }, r.2)
    | some (.list []) => let r := writeInt st.buf zt .be 0; ({ st with buf := r.1 }, r.2)
    | some (.list (x :: xs)) =>
      match writeInt st.buf t e (x :: xs).length with
      | (b', some err) => ({ st with buf := b' }, some err)
      | (b', none) =>
        let r := encElems call el (x :: xs) b'
        ({ st with fs := st.fs.set f (.list r.1), buf := r.2.1 }, r.2.2)
    | _ => (st, some .illTyped)
  | .obj f =>
    match st.fs[f]? with
    | some v => let r := call v st.buf; ({ st with fs := st.fs.set f r.1, buf := r.2.1 }, r.2.2)
    | none => (st, some .illTyped)
  | .objOpt f =>
    match st.fs[f]? with
    | some .null => (st, none)
    | some v => let r := call v st.buf; ({ st with fs := st.fs.set f r.1, buf := r.2.1 }, r.2.2)
    | none => (st, some .illTyped)
  | .save x => ({ st with loc := setLoc st.loc x st.buf.wr }, none)
  | .zero t e => let r := writeInt st.buf t e 0; ({ st with buf := r.1 }, r.2)
  | .setLen f x y =>
    match st.loc x, st.loc y with
    | some a, some b => ({ st with fs := st.fs.set f (.num (.int (BitVec.ofNat 32 a - BitVec.ofNat 32 b))) }, none)
    | _, _ => (st, some .illTyped)
  | .patch x f t e =>
    match st.loc x, st.fs[f]? with
    | some p, some (.num n) =>
      match n.convert t with
      | some m => let r := st.buf.set p (m.bytes e); ({ st with buf := r.1 }, r.2)
      | none => (st, some .illTyped)
    | _, _ => (st, some .illTyped)
  | .checksum f alg =>
    match Registry.getService w.svc alg with
    | some s => ({ st with fs := st.fs.set f (.num (.int (s.calcOn st.buf.readable))) }, none)
    | none => (st, none)

/-- A statement sequence: stops at the first exception. [SseBinary.java:61-80,
StringPacket.java:125-208] -/
def encStmts (w : World) (call : EncCall) : List EncStmt → EncSt → EncSt × Option JErr
  | [], st => (st, none)
  | s :: ss, st =>
    match encStmt w call s st with
    | (st', none) => encStmts w call ss st'
    | (st', some e) => (st', some e)

/-- `v.encode(byteBuf)`.  The first argument is the remaining call-stack depth (0: `StackOverflowError`);
a null receiver throws `NullPointerException`. [SseBinary.java:61-80, StringPacket.java:125-208] -/
def encode (w : World) : Nat → Val → WBuf → Val × WBuf × Option JErr
  | _, .null, b => (.null, b, some .nullPointer)
  | 0, v, b => (v, b, some .stackOverflow)
  | n + 1, .obj c fs, b =>
    let r := encStmts w (encode w n) (decl c).enc ⟨fs, b, fun _ => none⟩
    (.obj c r.1.fs, r.1.buf, r.2)
  | _ + 1, v, b => (v, b, some .illTyped)

/-! ### decode -/

/-- State of a running `decode`: fields of `this` and the buffer. [SseBinary.java:83-90] -/
structure DecSt where
  fs : List Val
  buf : RBuf

/-- Type of "decode from this buffer into an object of class `c` with these fields".
[SseBinary.java:88, NestedPacket.java:58] -/
abbrev DecCall := Cls → List Val → RBuf → List Val × RBuf × Option JErr

/-- Assignment of a primitive read from the buffer to a field of declared type `ty`
(Java widening; narrowing would not compile). [SseBinary.java:84-86] -/
def assignNum (ty : FTy) (n : Num) : Option Val :=
  match ty with
  | .prim t => if n.ty = t ∨ (n.ty.isInt ∧ t.isInt ∧ n.ty.size ≤ t.size) then (n.convert t).map .num else none
  | _ => none

/-- `short/int len = readXxx(); if (len > 0) s = readCharSequence(len, UTF_8).toString()`; `none`
when `len ≤ 0`. [StringPacket.java:212-216] -/
def readDyn (b : RBuf) (t : PTy) (e : Endian) : RBuf × Except JErr (Option JStr) :=
  match b.readNum e t with
  | (b', .error err) => (b', .error err)
  | (b', .ok n) =>
    if 0 < n.bits.toInt then
      match b'.readText n.bits.toNat with
      | (b'', .error err) => (b'', .error err)
      | (b'', .ok s) => (b'', .ok (some s))
    else (b', .ok none)

/-- One iteration of the `for` loop that reads a list: the element to add, if any.
A failing nested `decode` throws before `add`. [NestedPacket.java:63-65, StringPacket.java:230-236]
-/
def decElem (call : DecCall) (el : DecElem) (b : RBuf) : RBuf × Except JErr (Option Val) :=
  match el with
  | .num t e =>
    match b.readNum e t with
    | (b', .ok n) => (b', .ok (some (.num n)))
    | (b', .error err) => (b', .error err)
  | .fixed n pad left =>
    match readFixedString b n pad left with
    | (b', .ok s) => (b', .ok (some (.str s)))
    | (b', .error err) => (b', .error err)
  | .dyn t e =>
    match readDyn b t e with
    | (b', .ok s) => (b', .ok (s.map .str))
    | (b', .error err) => (b', .error err)
  | .obj c =>
    match call c (freshFields c) b with
    | (fs, b', none) => (b', .ok (some (.obj c fs)))
    | (_, b', some err) => (b', .error err)

/-- The `for` loop that reads `n` list elements, appending to `acc`. [NestedPacket.java:62-66] -/
def decElems (call : DecCall) (el : DecElem) : Nat → List Val → RBuf → List Val × RBuf × Option JErr
  | 0, acc, b => (acc, b, none)
  | n + 1, acc, b =>
    match decElem call el b with
    | (b', .error err) => (acc, b', some err)
    | (b', .ok none) => decElems call el n acc b'
    | (b', .ok (some v)) => decElems call el n (acc ++ [v]) b'

/-- One `decode` statement; `tys` are the declared field types of the class. [SseBinary.java:83-90,
StringPacket.java:211-281] -/
def decStmt (w : World) (call : DecCall) (tys : List FTy) (s : DecStmt) (st : DecSt) : DecSt × Option JErr :=
  match s with
  | .num f t e =>
    match st.buf.readNum e t with
    | (b', .error err) => ({ st with buf := b' }, some err)
    | (b', .ok n) =>
      match tys[f]?.bind (assignNum · n) with
      | some v => (⟨st.fs.set f v, b'⟩, none)
      | none => (⟨st.fs, b'⟩, some .illTyped)
  | .fixed f n pad left =>
    match readFixedString st.buf n pad left with
    | (b', .ok s) => (⟨st.fs.set f (.str s), b'⟩, none)
    | (b', .error err) => (⟨st.fs, b'⟩, some err)
  | .dyn f t e =>
    match readDyn st.buf t e with
    | (b', .ok (some s)) => (⟨st.fs.set f (.str s), b'⟩, none)
    | (b', .ok none) => (⟨st.fs, b'⟩, none)
    | (b', .error err) => (⟨st.fs, b'⟩, some err)
  | .list f t e el =>
    match st.buf.readNum e t with
    | (b', .error err) => (⟨st.fs, b'⟩, some err)
    | (b', .ok n) =>
      if 0 < n.bits.toInt then
        let r := decElems call el n.bits.toNat [] b'
        (⟨st.fs.set f (.list r.1), r.2.1⟩, r.2.2)
      else (⟨st.fs, b'⟩, none)
  | .obj f c =>
    match st.fs[f]? with
    | some .null =>
      let r := call c (freshFields c) st.buf
      (⟨st.fs.set f (.obj c r.1), r.2.1⟩, r.2.2)
    | some (.obj c' fs') =>
      let r := call c' fs' st.buf
      (⟨st.fs.set f (.obj c' r.1), r.2.1⟩, r.2.2)
    | _ => (st, some .illTyped)
  | .create f fac key =>
    match st.fs[key]? with
    | some k =>
      match w.fac fac (keyOf k) with
      | some v => ({ st with fs := st.fs.set f v }, none)
      | none => (st, some .illegalArgument)
    | none => (st, some .illTyped)
  | .call f =>
    match st.fs[f]? with
    | some .null => (st, some .nullPointer)
    | some (.obj c' fs') =>
      let r := call c' fs' st.buf
      (⟨st.fs.set f (.obj c' r.1), r.2.1⟩, r.2.2)
    | _ => (st, some .illTyped)

/-- A statement sequence: stops at the first exception. [SseBinary.java:83-90,
StringPacket.java:211-281] -/
def decStmts (w : World) (call : DecCall) (tys : List FTy) : List DecStmt → DecSt → DecSt × Option JErr
  | [], st => (st, none)
  | s :: ss, st =>
    match decStmt w call tys s st with
    | (st', none) => decStmts w call tys ss st'
    | (st', some e) => (st', some e)

/-- `o.decode(byteBuf)` for an object `o` of class `c` with fields `fs`: the resulting fields, buffer and
exception.  The first argument after the world is the remaining call-stack depth.
[SseBinary.java:83-90, StringPacket.java:211-281] -/
def decode (w : World) : Nat → Cls → List Val → RBuf → List Val × RBuf × Option JErr
  | 0, _, fs, b => (fs, b, some .stackOverflow)
  | n + 1, c, fs, b =>
    let r := decStmts w (decode w n) ((decl c).fields.map (·.2)) (decl c).dec ⟨fs, b⟩
    (r.1.fs, r.1.buf, r.2)

end FinProto
