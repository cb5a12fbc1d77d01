import Verif.Model.Interp
/-
`encode` into a buffer as Netty implements it (4.1.100.Final, `AbstractByteBuf` and its heap subclasses; library model).

`Buf.lean` shows a buffer as the bytes below the writer index.  A real one is an array that may be longer - with whatever it held before behind the writer index -,
that is replaced by a longer one when it is full, whose `setXxx` methods check their index against the capacity and not against the writer index, and that may have
been released.  Here `encode` (`Interp.lean`, statement for statement) works on such a buffer.  `Props/Netty.lean` proves that none of this can be seen, as long as
the buffer has not been released.
-/
namespace FinProto.Netty

/-- What a call into Netty can throw: what `Buf.lean` has, `IllegalReferenceCountException`, and `OutOfMemoryError` (for pooled and direct buffers
`OutOfDirectMemoryError`) when a longer array cannot be had. [SseBinary.java:62,
StringPacket.java:131] -/
inductive NErr
  | java (e : JErr)
  | released
  | outOfMemory
  deriving DecidableEq

/-- A buffer. [SseBinary.java:61] -/
structure NBuf where
  /-- the array; its length is the capacity -/
  mem : List Byte
  /-- readerIndex -/
  rd : Nat
  /-- writerIndex -/
  wr : Nat
  /-- maxCapacity -/
  maxCap : Nat
  /-- the reference count is not 0 -/
  alive : Bool
  deriving DecidableEq

/-- Netty's invariant `readerIndex ≤ writerIndex ≤ capacity ≤ maxCapacity`.
[Crc32ChecksumService.java:27-28] -/
def NBuf.Valid (b : NBuf) : Prop := b.rd ≤ b.wr ∧ b.wr ≤ b.mem.length ∧ b.mem.length ≤ b.maxCap

/-- Bytes `[readerIndex, writerIndex)`. [Crc32ChecksumService.java:27-28] -/
def NBuf.readable (b : NBuf) : List Byte := (b.mem.take b.wr).drop b.rd

/-- How a buffer grows: what is behind the old array in the new one, when `n` more bytes are needed; or there is no memory for it.  It depends on the allocator.
(In one `encode` call a buffer is never asked twice in the same state, so this includes allocators
that change their mind.) [SseBinary.java:62-65] -/
abbrev Grow := NBuf → Nat → Option (List Byte)

/-- The new array, if there is one, is long enough and not too long. [SseBinary.java:62-65] -/
def Grow.Fair (g : Grow) : Prop := ∀ b n m, b.mem.length < b.wr + n → b.wr + n ≤ b.maxCap → g b n = some m →
  b.wr + n ≤ b.mem.length + m.length ∧ b.mem.length + m.length ≤ b.maxCap

/-- There is always memory for it. [SseBinary.java:62-65] -/
def Grow.Ok (g : Grow) : Prop := ∀ b n, b.mem.length < b.wr + n → b.wr + n ≤ b.maxCap →
  ∃ m, g b n = some m ∧ b.wr + n ≤ b.mem.length + m.length ∧ b.mem.length + m.length ≤ b.maxCap

/-- Smallest power of two that is at least `n` (`MathUtil.findNextPositivePowerOfTwo`), looking at
`fuel` powers from `p` on. [SseBinary.java:62-65] -/
def powerFrom (n : Nat) : Nat → Nat → Nat
  | 0, p => p
  | fuel + 1, p => if n ≤ p then p else powerFrom n fuel (2 * p)

/-- `AbstractByteBufAllocator.calculateNewCapacity(min, max)` for `min ≤ max`: steps of 4 MiB above
4 MiB, else powers of two from 64 on. [SseBinary.java:62-65] -/
def newCapacity (min max : Nat) : Nat :=
  let threshold := 4194304
  if min = threshold then threshold
  else if threshold < min then
    let c := min / threshold * threshold
    if max < c + threshold then max else c + threshold
  else Nat.min (powerFrom (Nat.max min 64) 32 1) max

/-- Growing as an unpooled heap buffer does: a new array of that size, filled with zeros by the
JVM. [SseBinary.java:62-65] -/
def unpooled : Grow := fun b n => some (List.replicate (newCapacity (b.wr + n) b.maxCap - b.mem.length) 0)

/-- `AbstractByteBuf.ensureWritable0(n)`; the new array is allocated before the buffer is changed
(`UnpooledHeapByteBuf.capacity(int)`).  (The sum is an `int` in Netty; when it overflows it is
negative and the call fails as it does here, `maxCapacity` being an `int`.) [SseBinary.java:62-65]
-/
def NBuf.ensureWritable (grow : Grow) (b : NBuf) (n : Nat) : NBuf × Option NErr :=
  if !b.alive then (b, some .released)
  else if b.wr + n ≤ b.mem.length then (b, none)
  else if b.maxCap < b.wr + n then (b, some (.java .indexOutOfBounds))
  else
    match grow b n with
    | some m => ({ b with mem := b.mem ++ m }, none)
    | none => (b, some .outOfMemory)

/-- `writeByte/Short/Int/Long/...`, `writeBytes(byte[])`: `ensureWritable0`, store at the writer
index, advance it. [SseBinary.java:62-65, StringPacket.java:130-131] -/
def NBuf.write (grow : Grow) (b : NBuf) (bs : List Byte) : NBuf × Option NErr :=
  match b.ensureWritable grow bs.length with
  | (b', some e) => (b', some e)
  | (b', none) => ({ b' with mem := overwrite b'.mem b'.wr bs, wr := b'.wr + bs.length }, none)

/-- `setInt/setIntLE(index, v)`: `checkIndex` looks at the capacity. [SseBinary.java:73] -/
def NBuf.set (b : NBuf) (i : Nat) (bs : List Byte) : NBuf × Option NErr :=
  if !b.alive then (b, some .released)
  else if i + bs.length ≤ b.mem.length then ({ b with mem := overwrite b.mem i bs }, none)
  else (b, some (.java .indexOutOfBounds))

variable (grow : Grow)

/-- BinaryCodec.java:33-38, as `padChar`. -/
def padChar (b : NBuf) : Nat → JChar → NBuf × Option NErr
  | 0, _ => (b, none)
  | n + 1, c =>
    match b.write grow [c.setWidth 8] with
    | (b', none) => padChar b' n c
    | (b', some e) => (b', some e)

/-- BinaryCodec.java:17-31, as `writeFixedString`. -/
def writeFixedString (b : NBuf) (value : Option JStr) (len : Nat) (pad : JChar) (padLeft : Bool) : NBuf × Option NErr :=
  match value with
  | some (c :: cs) =>
    let bytes := utf8Enc (c :: cs)
    let writedLen := min bytes.length len
    let r1 := if padLeft && writedLen < len then padChar grow b (len - writedLen) pad else (b, none)
    match r1 with
    | (b1, some e) => (b1, some e)
    | (b1, none) =>
      match b1.write grow (bytes.take writedLen) with
      | (b2, some e) => (b2, some e)
      | (b2, none) => if !padLeft && writedLen < len then padChar grow b2 (len - writedLen) pad else (b2, none)
  | _ => if !padLeft && 0 < len then padChar grow b (len - 0) pad else (b, none)

/-- As `FinProto.writeVal`. [SseBinary.java:62-65] -/
def writeVal (b : NBuf) (t : PTy) (e : Endian) : Val → NBuf × Option NErr
  | .num n =>
    match n.convert t with
    | some m => b.write grow (m.bytes e)
    | none => (b, some (.java .illTyped))
  | .null => (b, some (.java .nullPointer))
  | _ => (b, some (.java .illTyped))

/-- As `FinProto.writeInt`. [SseBinary.java:65, NestedPacket.java:45] -/
def writeInt (b : NBuf) (t : PTy) (e : Endian) (k : Nat) : NBuf × Option NErr := writeVal grow b t e (.num (.int (BitVec.ofNat 32 k)))

/-- As `FinProto.writeDyn`. [StringPacket.java:126-132] -/
def writeDyn (b : NBuf) (zt t : PTy) (e : Endian) (s : Option JStr) : NBuf × Option NErr :=
  match s with
  | some (c :: cs) =>
    match writeInt grow b t e (utf8Enc (c :: cs)).length with
    | (b', some err) => (b', some err)
    | (b', none) => b'.write grow (utf8Enc (c :: cs))
  | _ => writeInt grow b zt .be 0

/-- As `FinProto.writeFixedVal`. [StringPacket.java:142-145, BinaryCodec.java:17-38] -/
def writeFixedVal (b : NBuf) (v : Val) (n : Nat) (pad : JChar) (left : Bool) : NBuf × Option NErr :=
  match v.asStr with
  | some s => writeFixedString grow b s n pad left
  | none => (b, some (.java .illTyped))

/-- As `FinProto.writeDynVal`. [StringPacket.java:126-132] -/
def writeDynVal (b : NBuf) (v : Val) (zt t : PTy) (e : Endian) : NBuf × Option NErr :=
  match v.asStr with
  | some s => writeDyn grow b zt t e s
  | none => (b, some (.java .illTyped))

/-- State of a running `encode`: fields of `this`, the buffer, the local `int` variables.
[SseBinary.java:64-71] -/
structure NSt where
  fs : List Val
  buf : NBuf
  loc : Nat → Option Nat

/-- Type of "encode this object value into this buffer". [SseBinary.java:69, NestedPacket.java:41]
-/
abbrev NCall := Val → NBuf → Val × NBuf × Option NErr

/-- As `FinProto.encElem`. [NestedPacket.java:47, StringPacket.java:151-157] -/
def encElem (call : NCall) (el : EncElem) (v : Val) (b : NBuf) : Val × NBuf × Option NErr :=
  match el with
  | .num t e => (v, writeVal grow b t e v)
  | .fixed n pad left => (v, writeFixedVal grow b v n pad left)
  | .dyn zt t e => (v, writeDynVal grow b v zt t e)
  | .obj => call v b

/-- As `FinProto.encElems`. [NestedPacket.java:46-48] -/
def encElems (call : NCall) (el : EncElem) : List Val → NBuf → List Val × NBuf × Option NErr
  | [], b => ([], b, none)
  | v :: vs, b =>
    match encElem grow call el v b with
    | (v', b', some e) => (v' :: vs, b', some e)
    | (v', b', none) =>
      match encElems call el vs b' with
      | (vs', b'', r) => (v' :: vs', b'', r)

/-- As `FinProto.encStmt`. [SseBinary.java:61-80, StringPacket.java:125-208] -/
def encStmt (w : World) (call : NCall) (s : EncStmt) (st : NSt) : NSt × Option NErr :=
  match s with
  | .num f t e =>
    match st.fs[f]? with
    | some (.num n) => let r := writeVal grow st.buf t e (.num n); ({ st with buf := r.1 }, r.2)
    | _ => (st, some (.java .illTyped))
  | .fixed f n pad left =>
    match st.fs[f]? with
    | some v => let r := writeFixedVal grow st.buf v n pad left; ({ st with buf := r.1 }, r.2)
    | none => (st, some (.java .illTyped))
  | .dyn f zt t e =>
    match st.fs[f]? with
    | some v => let r := writeDynVal grow st.buf v zt t e; ({ st with buf := r.1 }, r.2)
    | none => (st, some (.java .illTyped))
  | .list f zt t e el =>
    match st.fs[f]? with
    | some .null => let r := writeInt grow st.buf zt .be 0; ({ st with buf := r.1 }, r.2)
    | some (.list []) => let r := writeInt grow st.buf zt .be 0; ({ st with buf := r.1 }, r.2)
    | some (.list (x :: xs)) =>
      match writeInt grow st.buf t e (x :: xs).length with
      | (b', some err) => ({ st with buf := b' }, some err)
      | (b', none) =>
        let r := encElems grow call el (x :: xs) b'
        ({ st with fs := st.fs.set f (.list r.1), buf := r.2.1 }, r.2.2)
    | _ => (st, some (.java .illTyped))
  | .obj f =>
    match st.fs[f]? with
    | some v => let r := call v st.buf; ({ st with fs := st.fs.set f r.1, buf := r.2.1 }, r.2.2)
    | none => (st, some (.java .illTyped))
  | .objOpt f =>
    match st.fs[f]? with
    | some .null => (st, none)
    | some v => let r := call v st.buf; ({ st with fs := st.fs.set f r.1, buf := r.2.1 }, r.2.2)
    | none => (st, some (.java .illTyped))
  | .save x => ({ st with loc := setLoc st.loc x st.buf.wr }, none)
  | .zero t e => let r := writeInt grow st.buf t e 0; ({ st with buf := r.1 }, r.2)
  | .setLen f x y =>
    match st.loc x, st.loc y with
    | some a, some b => ({ st with fs := st.fs.set f (.num (.int (BitVec.ofNat 32 a - BitVec.ofNat 32 b))) }, none)
    | _, _ => (st, some (.java .illTyped))
  | .patch x f t e =>
    match st.loc x, st.fs[f]? with
    | some p, some (.num n) =>
      match n.convert t with
      | some m => let r := st.buf.set p (m.bytes e); ({ st with buf := r.1 }, r.2)
      | none => (st, some (.java .illTyped))
    | _, _ => (st, some (.java .illTyped))
  | .checksum f alg =>
    match Registry.getService w.svc alg with
    | some s => ({ st with fs := st.fs.set f (.num (.int (s.calcOn st.buf.readable))) }, none)
    | none => (st, none)

/-- As `FinProto.encStmts`. [SseBinary.java:61-80, StringPacket.java:125-208] -/
def encStmts (w : World) (call : NCall) : List EncStmt → NSt → NSt × Option NErr
  | [], st => (st, none)
  | s :: ss, st =>
    match encStmt grow w call s st with
    | (st', none) => encStmts w call ss st'
    | (st', some e) => (st', some e)

/-- `v.encode(byteBuf)`, as `FinProto.encode`.  (Simplified: the checksum of a frame is computed without looking at the reference count; the statement
before it has written to the buffer.) [SseBinary.java:61-80, StringPacket.java:125-208] -/
def encode (w : World) : Nat → Val → NBuf → Val × NBuf × Option NErr
  | _, .null, b => (.null, b, some (.java .nullPointer))
  | 0, v, b => (v, b, some (.java .stackOverflow))
  | n + 1, .obj c fs, b =>
    let r := encStmts grow w (encode w n) (decl c).enc ⟨fs, b, fun _ => none⟩
    (.obj c r.1.fs, r.1.buf, r.2)
  | _ + 1, v, b => (v, b, some (.java .illTyped))

end FinProto.Netty
