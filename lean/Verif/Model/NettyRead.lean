import Verif.Model.Netty
/-
`decode` from a buffer as Netty implements it (4.1.100.Final; library model), statement for statement as in `Interp.lean`; see `Netty.lean`.
-/
namespace FinProto.Netty

/-- `readByte/Short/Int/Long/...`: `checkReadableBytes0` looks at the reference count and at the
writer index; then the bytes are taken from the array. [SseBinary.java:84-86] -/
def NBuf.readNum (b : NBuf) (e : Endian) (t : PTy) : NBuf × Except NErr Num :=
  if !b.alive then (b, .error .released)
  else if b.rd + t.size ≤ b.wr then ({ b with rd := b.rd + t.size }, .ok (Num.ofBytes e t ((b.mem.drop b.rd).take t.size)))
  else (b, .error (.java .indexOutOfBounds))

/-- `readCharSequence(len, UTF_8).toString()` for `len ≥ 0`: `ByteBufUtil.decodeString` gives `""` for `len = 0` without looking at the buffer; otherwise it asks for
the array, which looks at the reference count, and takes the bytes from it, wherever the writer
index is. [BinaryCodec.java:63, StringPacket.java:215] -/
def NBuf.readText (b : NBuf) (len : Nat) : NBuf × Except NErr JStr :=
  if len = 0 then (b, .ok [])
  else if !b.alive then (b, .error .released)
  else if b.rd + len ≤ b.mem.length then ({ b with rd := b.rd + len }, .ok (utf8Dec ((b.mem.drop b.rd).take len)))
  else (b, .error (.java .indexOutOfBounds))

/-- BinaryCodec.java:62-69, as `FinProto.readFixedString`. -/
def readFixedString (b : NBuf) (len : Nat) (pad : JChar) (padLeft : Bool) : NBuf × Except NErr JStr :=
  match b.readText len with
  | (b', .error e) => (b', .error e)
  | (b', .ok value) => if padLeft then (b', .ok (trimByChar value pad true)) else (b', .ok (trimByChar value pad false))

/-- As `FinProto.readDyn`. [StringPacket.java:212-216] -/
def readDyn (b : NBuf) (t : PTy) (e : Endian) : NBuf × Except NErr (Option JStr) :=
  match b.readNum e t with
  | (b', .error err) => (b', .error err)
  | (b', .ok n) =>
    if 0 < n.bits.toInt then
      match b'.readText n.bits.toNat with
      | (b'', .error err) => (b'', .error err)
      | (b'', .ok s) => (b'', .ok (some s))
    else (b', .ok none)

/-- State of a running `decode`: fields of `this` and the buffer. [SseBinary.java:83-90] -/
structure NDecSt where
  fs : List Val
  buf : NBuf

/-- Type of "decode from this buffer into an object of class `c` with these fields".
[SseBinary.java:88, NestedPacket.java:58] -/
abbrev NDecCall := Cls → List Val → NBuf → List Val × NBuf × Option NErr

/-- As `FinProto.decElem`. [NestedPacket.java:63-65, StringPacket.java:230-236] -/
def decElem (call : NDecCall) (el : DecElem) (b : NBuf) : NBuf × Except NErr (Option Val) :=
  match el with
  | .num t e =>
    match b.readNum e t with
    | (b', .ok n) => (b', .ok (some (.num n)))
    | (b', .error err) => (b', .error err)
  | .fixed n pad left =>
    match readFixedString b n pad left with
    | (b', .ok s) => (b', .ok (some (.str s)))
    | (b', .error err) => (b', .error err)
  | .dyn t e =>
    match readDyn b t e with
    | (b', .ok s) => (b', .ok (s.map .str))
    | (b', .error err) => (b', .error err)
  | .obj c =>
    match call c (freshFields c) b with
    | (fs, b', none) => (b', .ok (some (.obj c fs)))
    | (_, b', some err) => (b', .error err)

/-- As `FinProto.decElems`. [NestedPacket.java:62-66] -/
def decElems (call : NDecCall) (el : DecElem) : Nat → List Val → NBuf → List Val × NBuf × Option NErr
  | 0, acc, b => (acc, b, none)
  | n + 1, acc, b =>
    match decElem call el b with
    | (b', .error err) => (acc, b', some err)
    | (b', .ok none) => decElems call el n acc b'
    | (b', .ok (some v)) => decElems call el n (acc ++ [v]) b'

/-- As `FinProto.decStmt`. [SseBinary.java:83-90, StringPacket.java:211-281] -/
def decStmt (w : World) (call : NDecCall) (tys : List FTy) (s : DecStmt) (st : NDecSt) : NDecSt × Option NErr :=
  match s with
  | .num f t e =>
    match st.buf.readNum e t with
    | (b', .error err) => ({ st with buf := b' }, some err)
    | (b', .ok n) =>
      match tys[f]?.bind (assignNum · n) with
      | some v => (⟨st.fs.set f v, b'⟩, none)
      | none => (⟨st.fs, b'⟩, some (.java .illTyped))
  | .fixed f n pad left =>
    match readFixedString st.buf n pad left with
    | (b', .ok s) => (⟨st.fs.set f (.str s), b'⟩, none)
    | (b', .error err) => (⟨st.fs, b'⟩, some err)
  | .dyn f t e =>
    match readDyn st.buf t e with
    | (b', .ok (some s)) => (⟨st.fs.set f (.str s), b'⟩, none)
    | (b', .ok none) => (⟨st.fs, b'⟩, none)
    | (b', .error err) => (⟨st.fs, b'⟩, some err)
  | .list f t e el =>
    match st.buf.readNum e t with
    | (b', .error err) => (⟨st.fs, b'⟩, some err)
    | (b', .ok n) =>
      if 0 < n.bits.toInt then
        let r := decElems call el n.bits.toNat [] b'
        (⟨st.fs.set f (.list r.1), r.2.1⟩, r.2.2)
      else (⟨st.fs, b'⟩, none)
  | .obj f c =>
    match st.fs[f]? with
    | some .null =>
      let r := call c (freshFields c) st.buf
      (⟨st.fs.set f (.obj c r.1), r.2.1⟩, r.2.2)
    | some (.obj c' fs') =>
      let r := call c' fs' st.buf
      (⟨st.fs.set f (.obj c' r.1), r.2.1⟩, r.2.2)
    | _ => (st, some (.java .illTyped))
  | .create f fac key =>
    match st.fs[key]? with
    | some k =>
      match w.fac fac (keyOf k) with
      | some v => ({ st with fs := st.fs.set f v }, none)
      | none => (st, some (.java .illegalArgument))
    | none => (st, some (.java .illTyped))
  | .call f =>
    match st.fs[f]? with
    | some .null => (st, some (.java .nullPointer))
    | some (.obj c' fs') =>
      let r := call c' fs' st.buf
      (⟨st.fs.set f (.obj c' r.1), r.2.1⟩, r.2.2)
    | _ => (st, some (.java .illTyped))

/-- As `FinProto.decStmts`. [SseBinary.java:83-90, StringPacket.java:211-281] -/
def decStmts (w : World) (call : NDecCall) (tys : List FTy) : List DecStmt → NDecSt → NDecSt × Option NErr
  | [], st => (st, none)
  | s :: ss, st =>
    match decStmt w call tys s st with
    | (st', none) => decStmts w call tys ss st'
    | (st', some e) => (st', some e)

/-- `o.decode(byteBuf)`, as `FinProto.decode`. [SseBinary.java:83-90, StringPacket.java:211-281] -/
def decode (w : World) : Nat → Cls → List Val → NBuf → List Val × NBuf × Option NErr
  | 0, _, fs, b => (fs, b, some (.java .stackOverflow))
  | n + 1, c, fs, b =>
    let r := decStmts w (decode w n) ((decl c).fields.map (·.2)) (decl c).dec ⟨fs, b⟩
    (r.1.fs, r.1.buf, r.2)

/-- `discardReadBytes()` (`AbstractByteBuf.discardReadBytes`): the readable bytes move to the front
of the array; the bytes behind them stay what they were. [the application's calls between those of
SseBinary.java:83-90] -/
def NBuf.discardReadBytes (b : NBuf) : NBuf × Option NErr :=
  if b.rd = 0 then (b, if b.alive then none else some .released)
  else if b.rd ≠ b.wr then
    if b.alive then ({ b with mem := overwrite b.mem 0 b.readable, rd := 0, wr := b.wr - b.rd }, none) else (b, some .released)
  else if b.alive then ({ b with rd := 0, wr := 0 }, none) else (b, some .released)

end FinProto.Netty
