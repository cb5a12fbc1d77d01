import Verif.Model.Checksum
/-
A small Java: the statements and expressions that occur in the module `codec` (package com.finproto.codec and com.finproto.bitmap), with the meaning the Java
Language Specification gives them: binary numeric promotion, shift distances that are masked, compound assignments with their implicit cast, evaluation from
left to right, `&&` that does not evaluate its right side when the left one is false, loops that may run forever.  The methods themselves are in
`Model/Codec.lean`.

What is left to the JDK and Netty: `String.length/charAt/substring/getBytes`, `Math.min`, `StringUtil.isNullOrEmpty`, and the methods of `ByteBuf` as in `Buf.lean`.
-/
namespace FinProto.Mini

/-- Types of variables. [BinaryCodec.java:13-69, Crc16ChecksumService.java:8-36,
IntBitMap.java:8-45] -/
inductive Ty
  | byte | short | char | int | long | boolean | string | bytes | buf
  deriving DecidableEq

/-- Values.  A `String` may be null.  The arrays are never shared by two variables of which one is
written to, so they are values.  `buf` is the buffer at hand. [BinaryCodec.java:21,
Crc16ChecksumService.java:8, LongBitMap.java:6] -/
inductive V
  | byte (v : BitVec 8)
  | short (v : BitVec 16)
  | char (v : BitVec 16)
  | int (v : BitVec 32)
  | long (v : BitVec 64)
  | bool (b : Bool)
  | str (s : Option JStr)
  | bytes (bs : List Byte)
  | ints (xs : List (BitVec 32))
  | buf

/-- Exceptions.  `stuck` is no exception: it marks what the Java compiler rejects.
[BinaryCodec.java:13-69, Crc16ChecksumService.java:8-36, IntBitMap.java:8-45] -/
inductive Exn
  | indexOutOfBounds | nullPointer | illegalArgument | arithmetic | stuck
  deriving DecidableEq

/-- Operators. [BinaryCodec.java:13-69, Crc16ChecksumService.java:8-36, IntBitMap.java:8-45] -/
inductive Op
  | add | sub | mul | rem | and | or | xor | shl | shr | ushr | lt | gt | eq | ne
  deriving DecidableEq

/-- Expressions. [BinaryCodec.java:13-69, Crc16ChecksumService.java:8-36, IntBitMap.java:8-45] -/
inductive Expr
  | var (x : String)                 -- `x`
  | dec (n : Nat)                    -- `42`
  | decL (n : Nat)                   -- `42L`
  | hex (n : Nat)                    -- `0x2A`
  | chr (c : JChar)                  -- `'c'`
  | lit (b : Bool)                   -- `true`, `false`
  | paren (e : Expr)                 -- `(e)`
  | bin (op : Op) (a b : Expr)       -- `a + b`
  | land (a b : Expr)                -- `a && b`
  | not (e : Expr)                   -- `!e`
  | compl (e : Expr)                 -- `~e`
  | cast (t : Ty) (e : Expr)         -- `(byte) e`
  | index (a i : Expr)               -- `a[i]`
  | length (e : Expr)                -- `e.length()`, of a string
  | arrayLength (e : Expr)           -- `e.length`, of an array
  | charAt (e i : Expr)              -- `e.charAt(i)`
  | substring (e a b : Expr)         -- `e.substring(a, b)`
  | utf8 (e : Expr)                  -- `e.getBytes(StandardCharsets.UTF_8)`
  | min (a b : Expr)                 -- `Math.min(a, b)`
  | isNullOrEmpty (e : Expr)         -- `StringUtil.isNullOrEmpty(e)`
  | readerIndex (b : Expr)           -- `b.readerIndex()`
  | readableBytes (b : Expr)         -- `b.readableBytes()`
  | getUnsignedByte (b i : Expr)     -- `b.getUnsignedByte(i)`
  | readByte (b : Expr)              -- `b.readByte()`
  | readText (b n : Expr)            -- `b.readCharSequence(n, StandardCharsets.UTF_8).toString()`

/-- Statements. [BinaryCodec.java:13-69, Crc16ChecksumService.java:8-36, IntBitMap.java:8-45] -/
inductive Stmt
  | decl (t : Ty) (x : String) (e : Option Expr)     -- `T x = e;`, `T x;`
  | assign (x : String) (e : Expr)                   -- `x = e;`
  | opAssign (x : String) (op : Op) (e : Expr)       -- `x += e;`
  | incr (x : String)                                -- `x++;`
  | decr (x : String)                                -- `x--;`
  | store (a : String) (i e : Expr)                  -- `a[i] = e;`
  | writeByte (b e : Expr)                           -- `b.writeByte(e);`
  | writeBytes (b e o n : Expr)                      -- `b.writeBytes(e, o, n);`
  | call (m : String) (args : List Expr)             -- `m(args);`
  | ret (e : Expr)                                   -- `return e;`
  | retCall (m : String) (args : List Expr)          -- `return m(args);`
  | ite (c : Expr) (a b : List Stmt)                 -- `if (c) { a } else { b }`
  | when (c : Expr) (s : Stmt)                       -- `if (c) s`
  | while (c : Expr) (body : List Stmt)              -- `while (c) { body }`
  | doWhile (body : List Stmt) (c : Expr)            -- `do { body } while (c);`
  | for (x : String) (e c : Expr) (body : List Stmt) -- `for (int x = e; c; x++) { body }`

/-- A method: its parameters and its body. [BinaryCodec.java:13-69, Crc16ChecksumService.java:8-36,
IntBitMap.java:8-45] -/
structure Method where
  params : List (Ty × String)
  body : List Stmt

/-! ### Arithmetic -/

/-- Unary numeric promotion to `int`; `none` for a `long` and what is not a number.
[BinaryCodec.java:13-69, Crc16ChecksumService.java:8-36, IntBitMap.java:8-45] -/
def V.int? : V → Option (BitVec 32)
  | .byte v => some (v.signExtend 32)
  | .short v => some (v.signExtend 32)
  | .char v => some (v.setWidth 32)
  | .int v => some v
  | _ => none

/-- Promotion to `long`. [BinaryCodec.java:13-69, Crc16ChecksumService.java:8-36,
IntBitMap.java:8-45] -/
def V.long? : V → Option (BitVec 64)
  | .long v => some v
  | v => v.int?.map (·.signExtend 64)

/-- Arithmetic and comparisons on `int`s.  The distance of a shift is its low five bits.
[Crc16ChecksumService.java:14-17] -/
def Op.int (op : Op) (a b : BitVec 32) : Except Exn V :=
  match op with
  | .add => .ok (.int (a + b))
  | .sub => .ok (.int (a - b))
  | .mul => .ok (.int (a * b))
  | .rem => if b = 0 then .error .arithmetic else .ok (.int (a.srem b))
  | .and => .ok (.int (a &&& b))
  | .or => .ok (.int (a ||| b))
  | .xor => .ok (.int (a ^^^ b))
  | .shl => .ok (.int (a <<< (b &&& 31#32).toNat))
  | .shr => .ok (.int (a.sshiftRight (b &&& 31#32).toNat))
  | .ushr => .ok (.int (a >>> (b &&& 31#32).toNat))
  | .lt => .ok (.bool (a.toInt < b.toInt))
  | .gt => .ok (.bool (b.toInt < a.toInt))
  | .eq => .ok (.bool (a == b))
  | .ne => .ok (.bool (a != b))

/-- Arithmetic and comparisons on `long`s, apart from shifts. [SzseBinChecksumService.java:16-18,
LongBitMap.java:11] -/
def Op.long (op : Op) (a b : BitVec 64) : Except Exn V :=
  match op with
  | .add => .ok (.long (a + b))
  | .sub => .ok (.long (a - b))
  | .mul => .ok (.long (a * b))
  | .rem => if b = 0 then .error .arithmetic else .ok (.long (a.srem b))
  | .and => .ok (.long (a &&& b))
  | .or => .ok (.long (a ||| b))
  | .xor => .ok (.long (a ^^^ b))
  | .lt => .ok (.bool (a.toInt < b.toInt))
  | .gt => .ok (.bool (b.toInt < a.toInt))
  | .eq => .ok (.bool (a == b))
  | .ne => .ok (.bool (a != b))
  | .shl | .shr | .ushr => .error .stuck

/-- A shift of a `long` by an `int` distance: its low six bits. [LongBitMap.java:10,
LongBitMap.java:29] -/
def Op.shiftLong (op : Op) (a : BitVec 64) (b : BitVec 32) : Except Exn V :=
  match op with
  | .shl => .ok (.long (a <<< (b &&& 63#32).toNat))
  | .shr => .ok (.long (a.sshiftRight (b &&& 63#32).toNat))
  | .ushr => .ok (.long (a >>> (b &&& 63#32).toNat))
  | _ => .error .stuck

/-- Is it a shift?. [IntBitMap.java:10, IntBitMap.java:28] -/
def Op.isShift : Op → Bool
  | .shl | .shr | .ushr => true
  | _ => false

/-- `a op b` with numeric promotion (JLS 5.6): if one side is a `long`, both are made `long`s, else both `int`s; a shift has the type of its left side.
(Shift distances of type `long` do not occur.) [BinaryCodec.java:13-69,
Crc16ChecksumService.java:8-36, IntBitMap.java:8-45] -/
def binary (op : Op) (a b : V) : Except Exn V :=
  match a.int?, b.int? with
  | some u, some v => op.int u v
  | _, _ =>
    if op.isShift then
      match a.long?, b.int? with
      | some u, some v => op.shiftLong u v
      | _, _ => .error .stuck
    else
      match a.long?, b.long? with
      | some u, some v => op.long u v
      | _, _ => .error .stuck

/-- Casting conversion between integer types: narrowing keeps the low bits, widening extends.
[IntBitMap.java:28, SzseBinChecksumService.java:21] -/
def castTo (t : Ty) (v : V) : Except Exn V :=
  match v.long? with
  | none => .error .stuck
  | some x =>
    match t with
    | .byte => .ok (.byte (x.setWidth 8))
    | .short => .ok (.short (x.setWidth 16))
    | .char => .ok (.char (x.setWidth 16))
    | .int => .ok (.int (x.setWidth 32))
    | .long => .ok (.long x)
    | _ => .error .stuck

/-- Conversion on assignment: the same type, or widening (JLS 5.2; narrowing of constants does not
occur). [BinaryCodec.java:13-69, Crc16ChecksumService.java:8-36, IntBitMap.java:8-45] -/
def assignTo (t : Ty) (v : V) : Except Exn V :=
  match t, v with
  | .byte, .byte v => .ok (.byte v)
  | .short, .short v => .ok (.short v)
  | .short, .byte v => .ok (.short (v.signExtend 16))
  | .char, .char v => .ok (.char v)
  | .boolean, .bool b => .ok (.bool b)
  | .string, .str s => .ok (.str s)
  | .bytes, .bytes bs => .ok (.bytes bs)
  | .buf, .buf => .ok .buf
  | .int, v => match v.int? with | some x => .ok (.int x) | none => .error .stuck
  | .long, v => match v.long? with | some x => .ok (.long x) | none => .error .stuck
  | _, _ => .error .stuck

/-- The type of a variable that holds `v`. [BinaryCodec.java:13-69, Crc16ChecksumService.java:8-36,
IntBitMap.java:8-45] -/
def V.ty : V → Option Ty
  | .byte _ => some .byte | .short _ => some .short | .char _ => some .char | .int _ => some .int | .long _ => some .long
  | .bool _ => some .boolean | .str _ => some .string | .bytes _ => some .bytes | .buf => some .buf | .ints _ => none

/-- What a variable without initialiser holds (the compiler makes sure that nobody looks).
[BinaryCodec.java:13-69, Crc16ChecksumService.java:8-36, IntBitMap.java:8-45] -/
def Ty.default : Ty → V
  | .byte => .byte 0 | .short => .short 0 | .char => .char 0 | .int => .int 0 | .long => .long 0 | .boolean => .bool false
  | .string => .str none | .bytes => .bytes [] | .buf => .buf

/-! ### Running -/

/-- The state: fields of `this` and of the class, local variables and parameters, the buffer as it is written to and as it is read from (a method does one of the
two).  Local variables are not removed at the end of their block: the compiler makes sure that no later statement refers to them, and Java has no shadowing of
local variables. [BinaryCodec.java:13-69, Crc16ChecksumService.java:8-36, IntBitMap.java:8-45] -/
structure St where
  fld : String → Option V
  loc : String → Option V
  out : WBuf
  inp : RBuf

/-- The value of a variable: a local one, else a field. [BinaryCodec.java:13-69,
Crc16ChecksumService.java:8-36, IntBitMap.java:8-45] -/
def St.get (st : St) (x : String) : Option V :=
  match st.loc x with
  | some v => some v
  | none => st.fld x

/-- Set a local variable. [BinaryCodec.java:13-69, Crc16ChecksumService.java:8-36,
IntBitMap.java:8-45] -/
def St.setLoc (st : St) (x : String) (v : V) : St := { st with loc := fun y => if y = x then some v else st.loc y }

/-- Assign to a variable that exists: a local one, else a field. [BinaryCodec.java:13-69,
Crc16ChecksumService.java:8-36, IntBitMap.java:8-45] -/
def St.set (st : St) (x : String) (v : V) : St :=
  match st.loc x with
  | some _ => st.setLoc x v
  | none => { st with fld := fun y => if y = x then some v else st.fld y }

/-- `writeBytes(src, o, n)`: `ensureWritable(n)` comes first. [BinaryCodec.java:26] -/
def writeBytes (b : WBuf) (bs : List Byte) (o n : Int) : WBuf × Option Exn :=
  if n < 0 then (b, some .illegalArgument)
  else if b.maxCap < b.data.length + n.toNat then (b, some .indexOutOfBounds)
  else if o < 0 ∨ (bs.length : Int) < o + n then (b, some .indexOutOfBounds)
  else ({ b with data := b.data ++ (bs.drop o.toNat).take n.toNat }, none)

/-- The exceptions of `Buf.lean`. [BinaryCodec.java:13-69, Crc16ChecksumService.java:8-36,
IntBitMap.java:8-45] -/
def ofJErr : JErr → Exn
  | .indexOutOfBounds => .indexOutOfBounds
  | .illegalArgument => .illegalArgument
  | .nullPointer => .nullPointer
  | _ => .stuck

/-- Value of an expression, with the state it leaves (reading moves the reader index).
[BinaryCodec.java:13-69, Crc16ChecksumService.java:8-36, IntBitMap.java:8-45] -/
def eval : Expr → St → St × Except Exn V
  | .var x, st =>
    match st.get x with
    | some v => (st, .ok v)
    | none => (st, .error .stuck)
  | .dec n, st => (st, .ok (.int (BitVec.ofNat 32 n)))
  | .decL n, st => (st, .ok (.long (BitVec.ofNat 64 n)))
  | .hex n, st => (st, .ok (.int (BitVec.ofNat 32 n)))
  | .chr c, st => (st, .ok (.char c))
  | .lit b, st => (st, .ok (.bool b))
  | .paren e, st => eval e st
  | .bin op a b, st =>
    match eval a st with
    | (st', .ok u) =>
      match eval b st' with
      | (st'', .ok v) => (st'', binary op u v)
      | (st'', .error e) => (st'', .error e)
    | (st', .error e) => (st', .error e)
  | .land a b, st =>
    match eval a st with
    | (st', .ok (.bool true)) =>
      match eval b st' with
      | (st'', .ok (.bool v)) => (st'', .ok (.bool v))
      | (st'', .ok _) => (st'', .error .stuck)
      | (st'', .error e) => (st'', .error e)
    | (st', .ok (.bool false)) => (st', .ok (.bool false))
    | (st', .ok _) => (st', .error .stuck)
    | (st', .error e) => (st', .error e)
  | .not e, st =>
    match eval e st with
    | (st', .ok (.bool b)) => (st', .ok (.bool !b))
    | (st', .ok _) => (st', .error .stuck)
    | (st', .error e) => (st', .error e)
  | .compl e, st =>
    match eval e st with
    | (st', .ok (.long v)) => (st', .ok (.long (~~~v)))
    | (st', .ok v) =>
      match v.int? with
      | some u => (st', .ok (.int (~~~u)))
      | none => (st', .error .stuck)
    | (st', .error e) => (st', .error e)
  | .cast t e, st =>
    match eval e st with
    | (st', .ok v) => (st', castTo t v)
    | (st', .error e) => (st', .error e)
  | .index a i, st =>
    match eval a st with
    | (st', .ok (.ints xs)) =>
      match eval i st' with
      | (st'', .ok v) =>
        match v.int? with
        | some k =>
          match xs[k.toNat]? with
          | some x => if k.toInt < 0 then (st'', .error .indexOutOfBounds) else (st'', .ok (.int x))
          | none => (st'', .error .indexOutOfBounds)
        | none => (st'', .error .stuck)
      | (st'', .error e) => (st'', .error e)
    | (st', .ok _) => (st', .error .stuck)
    | (st', .error e) => (st', .error e)
  | .length e, st =>
    match eval e st with
    | (st', .ok (.str (some s))) => (st', .ok (.int (BitVec.ofNat 32 s.length)))
    | (st', .ok (.str none)) => (st', .error .nullPointer)
    | (st', .ok _) => (st', .error .stuck)
    | (st', .error e) => (st', .error e)
  | .arrayLength e, st =>
    match eval e st with
    | (st', .ok (.bytes bs)) => (st', .ok (.int (BitVec.ofNat 32 bs.length)))
    | (st', .ok _) => (st', .error .stuck)
    | (st', .error e) => (st', .error e)
  | .charAt e i, st =>
    match eval e st with
    | (st', .ok (.str s)) =>
      match eval i st' with
      | (st'', .ok v) =>
        match s, v.int? with
        | some s, some k =>
          match s[k.toNat]? with
          | some c => if k.toInt < 0 then (st'', .error .indexOutOfBounds) else (st'', .ok (.char c))
          | none => (st'', .error .indexOutOfBounds)
        | none, some _ => (st'', .error .nullPointer)
        | _, none => (st'', .error .stuck)
      | (st'', .error e) => (st'', .error e)
    | (st', .ok _) => (st', .error .stuck)
    | (st', .error e) => (st', .error e)
  | .substring e a b, st =>
    match eval e st with
    | (st', .ok (.str s)) =>
      match eval a st' with
      | (st'', .ok u) =>
        match eval b st'' with
        | (st3, .ok v) =>
          match s, u.int?, v.int? with
          | some s, some i, some j =>
            if 0 ≤ i.toInt ∧ i.toInt ≤ j.toInt ∧ j.toInt ≤ s.length then
              (st3, .ok (.str (some ((s.take j.toInt.toNat).drop i.toInt.toNat))))
            else (st3, .error .indexOutOfBounds)
          | none, some _, some _ => (st3, .error .nullPointer)
          | _, _, _ => (st3, .error .stuck)
        | (st3, .error e) => (st3, .error e)
      | (st'', .error e) => (st'', .error e)
    | (st', .ok _) => (st', .error .stuck)
    | (st', .error e) => (st', .error e)
  | .utf8 e, st =>
    match eval e st with
    | (st', .ok (.str (some s))) => (st', .ok (.bytes (utf8Enc s)))
    | (st', .ok (.str none)) => (st', .error .nullPointer)
    | (st', .ok _) => (st', .error .stuck)
    | (st', .error e) => (st', .error e)
  | .min a b, st =>
    match eval a st with
    | (st', .ok u) =>
      match eval b st' with
      | (st'', .ok v) =>
        match u.int?, v.int? with
        | some i, some j => (st'', .ok (.int (if i.toInt ≤ j.toInt then i else j)))
        | _, _ => (st'', .error .stuck)
      | (st'', .error e) => (st'', .error e)
    | (st', .error e) => (st', .error e)
  | .isNullOrEmpty e, st =>
    match eval e st with
    | (st', .ok (.str none)) => (st', .ok (.bool true))
    | (st', .ok (.str (some s))) => (st', .ok (.bool s.isEmpty))
    | (st', .ok _) => (st', .error .stuck)
    | (st', .error e) => (st', .error e)
  | .readerIndex b, st =>
    match eval b st with
    | (st', .ok .buf) => (st', .ok (.int (BitVec.ofNat 32 st'.inp.rd)))
    | (st', .ok _) => (st', .error .stuck)
    | (st', .error e) => (st', .error e)
  | .readableBytes b, st =>
    match eval b st with
    | (st', .ok .buf) => (st', .ok (.int (BitVec.ofNat 32 (st'.inp.data.length - st'.inp.rd))))
    | (st', .ok _) => (st', .error .stuck)
    | (st', .error e) => (st', .error e)
  | .getUnsignedByte b i, st =>
    match eval b st with
    | (st', .ok .buf) =>
      match eval i st' with
      | (st'', .ok v) =>
        match v.int? with
        | some k =>
          if k.toInt < 0 then (st'', .error .indexOutOfBounds)
          else
            match st''.inp.getUnsignedByte k.toNat with
            | .ok x => (st'', .ok (.short (x.setWidth 16)))
            | .error e => (st'', .error (ofJErr e))
        | none => (st'', .error .stuck)
      | (st'', .error e) => (st'', .error e)
    | (st', .ok _) => (st', .error .stuck)
    | (st', .error e) => (st', .error e)
  | .readByte b, st =>
    match eval b st with
    | (st', .ok .buf) =>
      match st'.inp.readNum .be .i8 with
      | (b', .ok n) => ({ st' with inp := b' }, .ok (.byte (n.bits.setWidth 8)))
      | (b', .error e) => ({ st' with inp := b' }, .error (ofJErr e))
    | (st', .ok _) => (st', .error .stuck)
    | (st', .error e) => (st', .error e)
  | .readText b n, st =>
    match eval b st with
    | (st', .ok .buf) =>
      match eval n st' with
      | (st'', .ok v) =>
        match v.int? with
        | some k =>
          if k.toInt < 0 then (st'', .error .indexOutOfBounds)
          else
            match st''.inp.readText k.toInt.toNat with
            | (b', .ok s) => ({ st'' with inp := b' }, .ok (.str (some s)))
            | (b', .error e) => ({ st'' with inp := b' }, .error (ofJErr e))
        | none => (st'', .error .stuck)
      | (st'', .error e) => (st'', .error e)
    | (st', .ok _) => (st', .error .stuck)
    | (st', .error e) => (st', .error e)

/-- How statements end: go on, `return v` or an exception. [BinaryCodec.java:13-69,
Crc16ChecksumService.java:8-36, IntBitMap.java:8-45] -/
inductive Out
  | next
  | ret (v : V)
  | thrown (e : Exn)

/-- Assign `v` to the variable `x`, converted to its type by `conv`. [BinaryCodec.java:13-69,
Crc16ChecksumService.java:8-36, IntBitMap.java:8-45] -/
def assignVar (conv : Ty → V → Except Exn V) (x : String) (v : V) (st : St) : St × Out :=
  match (st.get x).bind V.ty with
  | some t =>
    match conv t v with
    | .ok w => (st.set x w, .next)
    | .error e => (st, .thrown e)
  | none => (st, .thrown .stuck)

/-- Statements without blocks and calls; `none`: it is not one of these. [BinaryCodec.java:13-69,
Crc16ChecksumService.java:8-36, IntBitMap.java:8-45] -/
def simple : Stmt → St → Option (St × Out)
  | .decl t x none, st => some (st.setLoc x t.default, .next)
  | .decl t x (some e), st =>
    match eval e st with
    | (st', .ok v) =>
      match assignTo t v with
      | .ok w => some (st'.setLoc x w, .next)
      | .error err => some (st', .thrown err)
    | (st', .error err) => some (st', .thrown err)
  | .assign x e, st =>
    match eval e st with
    | (st', .ok v) => some (assignVar assignTo x v st')
    | (st', .error err) => some (st', .thrown err)
  | .opAssign x op e, st =>
    -- `x op= e` is `x = (T) (x op e)`; the left side is read first
    match st.get x with
    | some u =>
      match eval e st with
      | (st', .ok v) =>
        match binary op u v with
        | .ok w => some (assignVar castTo x w st')
        | .error err => some (st', .thrown err)
      | (st', .error err) => some (st', .thrown err)
    | none => some (st, .thrown .stuck)
  | .incr x, st =>
    match st.get x with
    | some u =>
      match binary .add u (.int 1) with
      | .ok w => some (assignVar castTo x w st)
      | .error err => some (st, .thrown err)
    | none => some (st, .thrown .stuck)
  | .decr x, st =>
    match st.get x with
    | some u =>
      match binary .sub u (.int 1) with
      | .ok w => some (assignVar castTo x w st)
      | .error err => some (st, .thrown err)
    | none => some (st, .thrown .stuck)
  | .store a i e, st =>
    match st.get a, eval i st with
    | some (.ints xs), (st', .ok u) =>
      match eval e st' with
      | (st'', .ok v) =>
        match u.int?, v.int? with
        | some k, some x =>
          if 0 ≤ k.toInt ∧ k.toInt < xs.length then some (st''.set a (.ints (xs.set k.toNat x)), .next)
          else some (st'', .thrown .indexOutOfBounds)
        | _, _ => some (st'', .thrown .stuck)
      | (st'', .error err) => some (st'', .thrown err)
    | some (.ints _), (st', .error err) => some (st', .thrown err)
    | _, _ => some (st, .thrown .stuck)
  | .writeByte b e, st =>
    match eval b st with
    | (st', .ok .buf) =>
      match eval e st' with
      | (st'', .ok v) =>
        match v.int? with
        | some x =>
          match st''.out.write [x.setWidth 8] with
          | (b', none) => some ({ st'' with out := b' }, .next)
          | (b', some err) => some ({ st'' with out := b' }, .thrown (ofJErr err))
        | none => some (st'', .thrown .stuck)
      | (st'', .error err) => some (st'', .thrown err)
    | (st', .ok _) => some (st', .thrown .stuck)
    | (st', .error err) => some (st', .thrown err)
  | .writeBytes b e o n, st =>
    match eval b st with
    | (st', .ok .buf) =>
      match eval e st' with
      | (st'', .ok (.bytes bs)) =>
        match eval o st'' with
        | (st3, .ok u) =>
          match eval n st3 with
          | (st4, .ok v) =>
            match u.int?, v.int? with
            | some i, some k =>
              match writeBytes st4.out bs i.toInt k.toInt with
              | (b', none) => some ({ st4 with out := b' }, .next)
              | (b', some err) => some ({ st4 with out := b' }, .thrown err)
            | _, _ => some (st4, .thrown .stuck)
          | (st4, .error err) => some (st4, .thrown err)
        | (st3, .error err) => some (st3, .thrown err)
      | (st'', .ok _) => some (st'', .thrown .stuck)
      | (st'', .error err) => some (st'', .thrown err)
    | (st', .ok _) => some (st', .thrown .stuck)
    | (st', .error err) => some (st', .thrown err)
  | .ret e, st =>
    match eval e st with
    | (st', .ok v) => some (st', .ret v)
    | (st', .error err) => some (st', .thrown err)
  | _, _ => none

/-- Evaluate the arguments of a call from left to right. [BinaryCodec.java:13-69,
Crc16ChecksumService.java:8-36, IntBitMap.java:8-45] -/
def evals : List Expr → St → St × Except Exn (List V)
  | [], st => (st, .ok [])
  | e :: es, st =>
    match eval e st with
    | (st', .ok v) =>
      match evals es st' with
      | (st'', .ok vs) => (st'', .ok (v :: vs))
      | (st'', .error err) => (st'', .error err)
    | (st', .error err) => (st', .error err)

/-- Give the parameters their values, converted to their types. [BinaryCodec.java:13-69,
Crc16ChecksumService.java:8-36, IntBitMap.java:8-45] -/
def bindParams : List (Ty × String) → List V → (String → Option V) → Except Exn (String → Option V)
  | [], [], loc => .ok loc
  | (t, x) :: ps, v :: vs, loc =>
    match assignTo t v with
    | .ok w => bindParams ps vs (fun y => if y = x then some w else loc y)
    | .error err => .error err
  | _, _, _ => .error .stuck

/-- The methods that can be called, by name and number of parameters. [BinaryCodec.java:13-69,
Crc16ChecksumService.java:8-36, IntBitMap.java:8-45] -/
abbrev Methods := String → Nat → Option Method

/-- Run a list of statements.  `none`: it runs forever. [BinaryCodec.java:13-69,
Crc16ChecksumService.java:8-36, IntBitMap.java:8-45] -/
def exec (ms : Methods) (ss : List Stmt) (st : St) : Option (St × Out) :=
  match ss with
  | [] => some (st, .next)
  | .ite c a b :: rest =>
    match eval c st with
    | (st', .ok (.bool v)) => do
      let o ← exec ms (if v then a else b) st'
      match o.2 with
      | .next => exec ms rest o.1
      | _ => some o
    | (st', .ok _) => some (st', .thrown .stuck)
    | (st', .error err) => some (st', .thrown err)
  | .when c s :: rest => exec ms (.ite c [s] [] :: rest) st
  | .while c body :: rest =>
    match eval c st with
    | (st', .ok (.bool true)) => do
      let o ← exec ms body st'
      match o.2 with
      | .next => exec ms (.while c body :: rest) o.1
      | _ => some o
    | (st', .ok (.bool false)) => exec ms rest st'
    | (st', .ok _) => some (st', .thrown .stuck)
    | (st', .error err) => some (st', .thrown err)
  | .doWhile body c :: rest => do
    let o ← exec ms body st
    match o.2 with
    | .next => exec ms (.ite c [.doWhile body c] [] :: rest) o.1
    | _ => some o
  | .for x e c body :: rest => exec ms (.decl .int x (some e) :: .while c (body ++ [.incr x]) :: rest) st
  | .call m args :: rest =>
    match evals args st with
    | (st', .ok vs) =>
      match ms m vs.length with
      | some d =>
        match bindParams d.params vs (fun _ => none) with
        | .ok loc => do
          let o ← exec ms d.body { st' with loc := loc }
          match o.2 with
          | .thrown err => some ({ o.1 with loc := st'.loc }, .thrown err)
          | _ => exec ms rest { o.1 with loc := st'.loc }
        | .error err => some (st', .thrown err)
      | none => some (st', .thrown .stuck)
    | (st', .error err) => some (st', .thrown err)
  | .retCall m args :: _ =>
    match evals args st with
    | (st', .ok vs) =>
      match ms m vs.length with
      | some d =>
        match bindParams d.params vs (fun _ => none) with
        | .ok loc => do
          let o ← exec ms d.body { st' with loc := loc }
          match o.2 with
          | .next => some ({ o.1 with loc := st'.loc }, .thrown .stuck)
          | r => some ({ o.1 with loc := st'.loc }, r)
        | .error err => some (st', .thrown err)
      | none => some (st', .thrown .stuck)
    | (st', .error err) => some (st', .thrown err)
  | s :: rest => do
    let o ← simple s st
    match o.2 with
    | .next => exec ms rest o.1
    | _ => some o
partial_fixpoint

/-- Call the method `m` with the values `vs` on an object with the fields `fld`; the buffer is
written from `out` on and read as `inp`. [BinaryCodec.java:13-69, Crc16ChecksumService.java:8-36,
IntBitMap.java:8-45] -/
def call (ms : Methods) (m : Method) (vs : List V) (fld : String → Option V) (out : WBuf) (inp : RBuf) : Option (St × Out) :=
  match bindParams m.params vs (fun _ => none) with
  | .ok loc => exec ms m.body ⟨fld, loc, out, inp⟩
  | .error err => some (⟨fld, fun _ => none, out, inp⟩, .thrown err)

end FinProto.Mini
