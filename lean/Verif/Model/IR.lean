import Verif.Model.Names
import Verif.Model.Checksum
import Verif.Model.BinaryCodec
/-
Object values and the statement vocabulary of the generated message classes.

The 182 message classes are generated Java with a fixed set of statement idioms.  Each
idiom is one constructor below; the classes themselves are the tables in
`Verif/Model/Classes/*.lean`, one table entry per Java statement.  The meaning of
each statement is given in `Verif/Model/Interp.lean`.
Fields are referred to by their declaration index.
-/
namespace FinProto

/-- Java values held in message fields.  Objects are trees (simplification: two fields
never share one mutable object, and there are no reference cycles). [BasicPacket.java:11-32,
NestedPacket.java:11-13, SseBinary.java:17] -/
inductive Val
  | null
  | num (n : Num)
  | str (s : JStr)
  | list (xs : List Val)
  | obj (c : Cls) (fs : List Val)

/-- Element type of a `List<...>` field. [BasicPacket.java:22-32, NestedPacket.java:12] -/
inductive ElTy
  | prim (t : PTy)     -- `List<Byte>`, `List<Short>`, ...
  | str                -- `List<String>`
  | obj (c : Cls)      -- `List<SomeMessage>`
  deriving DecidableEq

/-- Declared Java type of a field. [BasicPacket.java:11-32, NestedPacket.java:11-13,
SseBinary.java:17] -/
inductive FTy
  | prim (t : PTy)     -- `byte`, `short`, `int`, `long`, `float`, `double`
  | str                -- `String`
  | list (e : ElTy)    -- `List<...>`
  | obj (c : Cls)      -- a message class
  | codec              -- `BinaryCodec`
  deriving DecidableEq

/-- Body of the `for` loop that writes a list, element `e = this.F.get(i)`.
[NestedPacket.java:42-49, StringPacket.java:146-207] -/
inductive EncElem
  | num (t : PTy) (e : Endian)                       -- `byteBuf.writeXxx(e)`
  | fixed (n : Nat) (pad : JChar) (left : Bool)      -- `writeFixedString(byteBuf, e, n, pad, left)`
  | dyn (zt : PTy) (t : PTy) (e : Endian)            -- `if (isNullOrEmpty(e)) writeXxx(0) else { writeXxx(bytes.length); writeBytes(bytes) }`
  | obj                                              -- `e.encode(byteBuf)`
  deriving DecidableEq

/-- Statements of `encode(ByteBuf byteBuf)`. [SseBinary.java:61-80, StringPacket.java:125-208] -/
inductive EncStmt
  | num (f : Nat) (t : PTy) (e : Endian)                      -- `byteBuf.writeXxx(this.F)`
  | fixed (f : Nat) (n : Nat) (pad : JChar) (left : Bool)     -- `writeFixedString(byteBuf, this.F, n, pad, left)`
  | dyn (f : Nat) (zt : PTy) (t : PTy) (e : Endian)           -- length-prefixed string
  | list (f : Nat) (zt : PTy) (t : PTy) (e : Endian) (el : EncElem)  -- counted list
  | obj (f : Nat)                                             -- `this.F.encode(byteBuf)`
  | objOpt (f : Nat)                                          -- `if (null != this.F) this.F.encode(byteBuf)`
  | save (x : Nat)                                            -- `int x = byteBuf.writerIndex()` (local number x)
  | zero (t : PTy) (e : Endian)                               -- `byteBuf.writeXxx(0)`
  | setLen (f : Nat) (x y : Nat)                              -- `this.F = (int) (x - y)`
  | patch (x : Nat) (f : Nat) (t : PTy) (e : Endian)          -- `byteBuf.setXxx(x, this.F)`
  | checksum (f : Nat) (alg : String)                         -- `svc = getChecksumService(alg); if (svc != null) this.F = (int) svc.calc(byteBuf)`
  deriving DecidableEq

/-- Body of the `for` loop that reads a list. [NestedPacket.java:59-67, StringPacket.java:226-280]
-/
inductive DecElem
  | num (t : PTy) (e : Endian)                       -- `this.F.add(byteBuf.readXxx())`
  | fixed (n : Nat) (pad : JChar) (left : Bool)      -- `this.F.add(readFixedString(byteBuf, n, pad, left))`
  | dyn (t : PTy) (e : Endian)                       -- `len = readXxx(); if (len > 0) this.F.add(readCharSequence(len).toString())`
  | obj (c : Cls)                                    -- `x = new C(); x.decode(byteBuf); this.F.add(x)`
  deriving DecidableEq

/-- Statements of `decode(ByteBuf byteBuf)`. [SseBinary.java:83-90, StringPacket.java:211-281] -/
inductive DecStmt
  | num (f : Nat) (t : PTy) (e : Endian)                      -- `this.F = byteBuf.readXxx()`
  | fixed (f : Nat) (n : Nat) (pad : JChar) (left : Bool)     -- `this.F = readFixedString(byteBuf, n, pad, left)`
  | dyn (f : Nat) (t : PTy) (e : Endian)                      -- `len = readXxx(); if (len > 0) this.F = readCharSequence(len).toString()`
  | list (f : Nat) (t : PTy) (e : Endian) (el : DecElem)      -- `size = readXxx(); if (size > 0) { this.F = new ArrayList<>(); for ... }`
  | obj (f : Nat) (c : Cls)                                   -- `if (null == this.F) this.F = new C(); this.F.decode(byteBuf)`
  | create (f : Nat) (fac : Fac) (key : Nat)                  -- `this.F = Factory.getInstance().create(this.key)`
  | call (f : Nat)                                            -- `this.F.decode(byteBuf)`
  deriving DecidableEq

/-- Body of `hashCode()`. [SseBinary.java:93-95] -/
inductive HashBody
  | self                       -- `return this.hashCode();`
  | fields (fs : List Nat)     -- `return Objects.hash(f1, ..., fn);`
  deriving DecidableEq

/-- Pieces of the string concatenation in `toString()`. [SseBinary.java:114-127] -/
inductive StrPart
  | lit (s : String)
  | field (f : Nat)
  deriving DecidableEq

/-- One message class. [SseBinary.java:13-226] -/
structure ClassDecl where
  /-- simple class name -/
  name : String
  /-- fields in declaration order -/
  fields : List (String × FTy)
  /-- property name, index returned by the getter, index assigned by the setter -/
  acc : List (String × Nat × Nat)
  enc : List EncStmt
  dec : List DecStmt
  hash : HashBody
  /-- index pairs compared with `Objects.equals` in `equals` -/
  eqs : List (Nat × Nat)
  str : List StrPart

/-- A key passed to a message factory: a boxed `Integer`/`Short`, a `String`, or null.
[SseBinary.java:201, RootPacket.java:126] -/
inductive Key
  | null
  | int (v : BitVec 32)
  | short (v : BitVec 16)
  | str (s : JStr)
  deriving DecidableEq, Repr

/-- A default registration of a factory. [SseBinary.java:171, RootPacket.java:120] -/
structure Reg where
  fac : Fac
  key : Key
  cls : Cls
  deriving DecidableEq

end FinProto
