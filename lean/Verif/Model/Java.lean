import Verif.Model.Heap
/-
The Java statements of `encode` and `decode`, one by one.

`Interp.lean` and `Heap.lean` give a meaning to whole idioms (the constructors of `IR.lean`), for example to "write a counted list".  Here is the syntax of the
Java that these idioms stand for - conditions, blocks, `for` loops, local variables, calls - and its meaning, statement by statement as the Java Language
Specification has it: expressions are evaluated when and as often as they stand in the text, `||` does not evaluate its right side when the left one is true,
an exception leaves everything done so far, a loop tests its condition before each round.  `encBody c` and `decBody c` are the bodies of the methods of class `c`
in this syntax; `Tests/Render.lean` prints them, and `tools/roundtrip.py` compares what is printed with /repo.  `Props/Java.lean` proves that running them is
`hencode` and `hdecode`.

What is left to the Netty and JDK methods is taken from the other modules of the model: `Buf.lean` (ByteBuf), `BinaryCodec.lean` (the two default methods),
`Utf8.lean` (`getBytes`), `Checksum.lean` (the registry and the services).
-/
namespace FinProto.Java

/-- A local variable.  The number is the field its name is made from: `textLen` for the field
`text`. [StringPacket.java:212, SseBinary.java:64] -/
inductive Var
  | len (f : Nat)     -- `fLen`
  | size (f : Nat)    -- `fSize`
  | elem (f : Nat)    -- `f_`
  | pos (f : Nat)     -- `fPos`
  | start (f : Nat)   -- `fStart`
  | fin (f k : Nat)   -- `fEnd` (`k` is 0)
  | bytes             -- `bytes`
  | i                 -- `i`
  | service           -- `checksumService`
  deriving DecidableEq

/-- Expressions. [SseBinary.java:61-90, NestedPacket.java:40-72] -/
inductive Expr
  | field (f : Nat)                             -- `this.F`
  | var (x : Var)                               -- `x`
  | lit (k : Nat)                               -- `0`
  | size (e : Expr)                             -- `e.size()`
  | get (e i : Expr)                            -- `e.get(i)`
  | cast (t : PTy) (e : Expr)                   -- `(short) e`
  | sub (a b : Expr)                            -- `(a - b)`
  | utf8 (e : Expr)                             -- `e.getBytes(StandardCharsets.UTF_8)`
  | length (e : Expr)                           -- `e.length`
  | writerIndex                                 -- `byteBuf.writerIndex()`
  | read (t : PTy) (en : Endian)                -- `byteBuf.readXxx()`
  | readText (e : Expr)                         -- `byteBuf.readCharSequence(e, StandardCharsets.UTF_8).toString()`
  | readFixed (n : Nat) (pad : JChar) (left : Bool)  -- `readFixedString(byteBuf, n, pad, left)`
  | newList                                     -- `new ArrayList<>()`
  | newObj (c : Cls)                            -- `new C()`
  | create (fac : Fac) (e : Expr)               -- `Factory.getInstance().create(e)`
  | service (alg : String)                      -- `ChecksumServiceFactory.getInstance().getChecksumService("alg")`
  | calc (e : Expr)                             -- `e.calc(byteBuf)`

/-- Conditions.  (The flag tells whether `null` stands on the left.) [SseBinary.java:68,
NestedPacket.java:42, NestedPacket.java:55] -/
inductive Cond
  | isNull (left : Bool) (e : Expr)             -- `null == e`
  | notNull (left : Bool) (e : Expr)            -- `null != e`, `e != null`
  | isNullOrEmpty (e : Expr)                    -- `StringUtil.isNullOrEmpty(e)`
  | isZero (e : Expr)                           -- `e == 0`
  | positive (e : Expr)                         -- `e > 0`
  | or (a b : Cond)                             -- `a || b`

/-- The declared type of a local variable. [StringPacket.java:212, SseBinary.java:64,
SseBinary.java:74] -/
inductive LTy
  | prim (t : PTy) | bytes | obj (c : Cls) | service
  deriving DecidableEq

/-- Statements. [SseBinary.java:61-90, NestedPacket.java:40-72] -/
inductive Stmt
  | assign (f : Nat) (e : Expr)                 -- `this.F = e;`
  | local (ty : LTy) (x : Var) (e : Expr)       -- `T x = e;`
  | write (t : PTy) (en : Endian) (e : Expr)    -- `byteBuf.writeXxx(e);`
  | setAt (t : PTy) (en : Endian) (p e : Expr)  -- `byteBuf.setXxx(p, e);`
  | writeBytes (e : Expr)                       -- `byteBuf.writeBytes(e);`
  | writeFixed (e : Expr) (n : Nat) (pad : JChar) (left : Bool)  -- `writeFixedString(byteBuf, e, n, pad, left);`
  | add (f : Nat) (e : Expr)                    -- `this.F.add(e);`
  | encode (e : Expr)                           -- `e.encode(byteBuf);`
  | decode (e : Expr)                           -- `e.decode(byteBuf);`
  | ite (c : Cond) (a b : List Stmt)            -- `if (c) { a } else { b }`
  | loop (x : Var) (k : BitVec 32) (bound : Expr) (body : List Stmt)  -- `for (int x = k; x < bound; x++) { body }`

/-! ### The bodies of the methods -/

/-- The local variables of a frame: number 0, 1, 2 of `IR.lean`'s `save`.  Their names are made
from the field with the length and the field with the body. [SseBinary.java:64-71] -/
def saved (d : ClassDecl) (x : Nat) : Var :=
  let len := (d.enc.findSome? fun s => match s with | .setLen f _ _ => some f | _ => none).getD 0
  let body := (d.enc.findSome? fun s => match s with | .objOpt f => some f | _ => none).getD 0
  match x with
  | 0 => .pos len
  | 1 => .start body
  | k + 2 => .fin body k

/-- A text `x` with its length in front, for example risk-bin RiskResult.java:103-109. -/
def dynText (x : Expr) (zt t : PTy) (e : Endian) : List Stmt :=
  [.ite (.isNullOrEmpty x)
    [.write zt .be (.lit 0)]
    [.local .bytes .bytes (.utf8 x), .write t e (.length (.var .bytes)), .writeBytes (.var .bytes)]]

/-- The body of the loop that writes a list; `x` is the element. [NestedPacket.java:47,
StringPacket.java:151-157] -/
def encElem (x : Expr) : EncElem → List Stmt
  | .num t e => [.write t e x]
  | .fixed n pad left => [.writeFixed x n pad left]
  | .dyn zt t e => dynText x zt t e
  | .obj => [.encode x]

/-- The Java statements a constructor of `EncStmt` stands for. [SseBinary.java:61-80,
StringPacket.java:125-208] -/
def encStmt (d : ClassDecl) : EncStmt → List Stmt
  | .num f t e => [.write t e (.field f)]
  | .fixed f n pad left => [.writeFixed (.field f) n pad left]
  | .dyn f zt t e => dynText (.field f) zt t e
  | .list f zt t e el =>
    [.ite (.or (.isNull true (.field f)) (.isZero (.size (.field f))))
      [.write zt .be (.lit 0)]
      [.write t e (.cast t (.size (.field f))),
       .loop .i 0 (.size (.field f)) (encElem (.get (.field f) (.var .i)) el)]]
  | .obj f => [.encode (.field f)]
  | .objOpt f =>
    -- in the frames the two sides of `!=` are the other way round
    [.ite (.notNull (!d.enc.any fun s => match s with | .setLen _ _ _ => true | _ => false) (.field f)) [.encode (.field f)] []]
  | .save x => [.local (.prim .i32) (saved d x) .writerIndex]
  | .zero t e => [.write t e (.lit 0)]
  | .setLen f x y => [.assign f (.cast .i32 (.sub (.var (saved d x)) (.var (saved d y))))]
  | .patch x f t e => [.setAt t e (.var (saved d x)) (.field f)]
  | .checksum f alg =>
    [.local .service .service (.service alg),
     .ite (.notNull false (.var .service)) [.assign f (.cast .i32 (.calc (.var .service)))] []]

/-- The body of the loop that reads a list. [NestedPacket.java:63-65, StringPacket.java:230-236] -/
def decElem (f : Nat) : DecElem → List Stmt
  | .num t e => [.add f (.read t e)]
  | .fixed n pad left => [.add f (.readFixed n pad left)]
  | .dyn t e => [.local (.prim t) (.len f) (.read t e), .ite (.positive (.var (.len f))) [.add f (.readText (.var (.len f)))] []]
  | .obj c => [.local (.obj c) (.elem f) (.newObj c), .decode (.var (.elem f)), .add f (.var (.elem f))]

/-- The Java statements a constructor of `DecStmt` stands for. [SseBinary.java:83-90,
StringPacket.java:211-281] -/
def decStmt : DecStmt → List Stmt
  | .num f t e => [.assign f (.read t e)]
  | .fixed f n pad left => [.assign f (.readFixed n pad left)]
  | .dyn f t e => [.local (.prim t) (.len f) (.read t e), .ite (.positive (.var (.len f))) [.assign f (.readText (.var (.len f)))] []]
  | .list f t e el =>
    [.local (.prim t) (.size f) (.read t e),
     .ite (.positive (.var (.size f))) [.assign f .newList, .loop .i 0 (.var (.size f)) (decElem f el)] []]
  | .obj f c => [.ite (.isNull true (.field f)) [.assign f (.newObj c)] [], .decode (.field f)]
  | .create f fac key => [.assign f (.create fac (.field key))]
  | .call f => [.decode (.field f)]

/-- The body of `encode` of class `c`. [SseBinary.java:61-80, StringPacket.java:125-208] -/
def encBody (c : Cls) : List Stmt := (decl c).enc.flatMap (encStmt (decl c))

/-- The body of `decode` of class `c`. [SseBinary.java:83-90, StringPacket.java:211-281] -/
def decBody (c : Cls) : List Stmt := (decl c).dec.flatMap decStmt

/-! ### Meaning -/

/-- What an expression evaluates to: a value that can be in a field, a `byte[]` (never changed
after it was made), or a `ChecksumService` reference. [StringPacket.java:129, SseBinary.java:74] -/
inductive JVal
  | val (x : HVal)
  | bytes (bs : List Byte)
  | service (s : Option Service)

/-- The state: the heap, the buffer to write into, the buffer to read from (a method uses one of
them), the local variables. [SseBinary.java:61-90, NestedPacket.java:40-72] -/
structure St where
  h : Heap
  out : WBuf
  inp : RBuf
  loc : Var → Option JVal

/-- What does not change while a method runs: the registries, the object `this` and the declared
types of its fields. [SseBinary.java:61-90, NestedPacket.java:40-72] -/
structure Env where
  svc : Registry
  sup : Suppliers
  this : Nat
  tys : List FTy

/-- Set a local variable. [SseBinary.java:64] -/
def St.setLoc (st : St) (x : Var) (v : JVal) : St := { st with loc := fun y => if y = x then some v else st.loc y }

/-- Value of an expression, with the state it leaves.  `illTyped` is for what the Java compiler
rejects (or a type check of the JVM, after heap pollution). [SseBinary.java:61-90,
NestedPacket.java:40-72] -/
def eval (env : Env) : Expr → St → St × Except JErr JVal
  | .field f, st =>
    match st.h.field env.this f with
    | some x => (st, .ok (.val x))
    | none => (st, .error .illTyped)
  | .var x, st =>
    match st.loc x with
    | some v => (st, .ok v)
    | none => (st, .error .illTyped)
  | .lit k, st => (st, .ok (.val (.num (.int (BitVec.ofNat 32 k)))))
  | .size e, st =>
    match eval env e st with
    | (st', .ok (.val (.ref a))) =>
      match st'.h[a]? with
      | some (.arr xs) => (st', .ok (.val (.num (.int (BitVec.ofNat 32 xs.length)))))
      | _ => (st', .error .illTyped)
    | (st', .ok (.val .null)) => (st', .error .nullPointer)
    | (st', .ok _) => (st', .error .illTyped)
    | (st', .error err) => (st', .error err)
  | .get e i, st =>
    match eval env e st with
    | (st', .ok (.val x)) =>
      match eval env i st' with
      | (st'', .ok (.val (.num n))) =>
        match x with
        | .null => (st'', .error .nullPointer)
        | .ref a =>
          match st''.h[a]? with
          | some (.arr xs) =>
            match xs[n.bits.toNat]? with
            | some y => if n.bits.toInt < 0 then (st'', .error .indexOutOfBounds) else (st'', .ok (.val y))
            | none => (st'', .error .indexOutOfBounds)
          | _ => (st'', .error .illTyped)
        | _ => (st'', .error .illTyped)
      | (st'', .ok _) => (st'', .error .illTyped)
      | (st'', .error err) => (st'', .error err)
    | (st', .ok _) => (st', .error .illTyped)
    | (st', .error err) => (st', .error err)
  | .cast t e, st =>
    match eval env e st with
    | (st', .ok (.val (.num n))) =>
      match n.convert t with
      | some m => (st', .ok (.val (.num m)))
      | none => (st', .error .illTyped)
    | (st', .ok (.val .null)) => (st', .error .nullPointer)
    | (st', .ok _) => (st', .error .illTyped)
    | (st', .error err) => (st', .error err)
  | .sub a b, st =>
    match eval env a st with
    | (st', .ok (.val (.num ⟨.i32, u⟩))) =>
      match eval env b st' with
      | (st'', .ok (.val (.num ⟨.i32, v⟩))) => (st'', .ok (.val (.num (.int (u - v)))))
      | (st'', .ok _) => (st'', .error .illTyped)
      | (st'', .error err) => (st'', .error err)
    | (st', .ok _) => (st', .error .illTyped)
    | (st', .error err) => (st', .error err)
  | .utf8 e, st =>
    match eval env e st with
    | (st', .ok (.val (.str s))) => (st', .ok (.bytes (utf8Enc s)))
    | (st', .ok (.val .null)) => (st', .error .nullPointer)
    | (st', .ok _) => (st', .error .illTyped)
    | (st', .error err) => (st', .error err)
  | .length e, st =>
    match eval env e st with
    | (st', .ok (.bytes bs)) => (st', .ok (.val (.num (.int (BitVec.ofNat 32 bs.length)))))
    | (st', .ok _) => (st', .error .illTyped)
    | (st', .error err) => (st', .error err)
  | .writerIndex, st => (st, .ok (.val (.num (.int (BitVec.ofNat 32 st.out.wr)))))
  | .read t en, st =>
    match st.inp.readNum en t with
    | (b', .ok n) => ({ st with inp := b' }, .ok (.val (.num n)))
    | (b', .error err) => ({ st with inp := b' }, .error err)
  | .readText e, st =>
    match eval env e st with
    | (st', .ok (.val (.num n))) =>
      if n.bits.toInt < 0 then (st', .error .indexOutOfBounds)
      else
        match st'.inp.readText n.bits.toNat with
        | (b', .ok s) => ({ st' with inp := b' }, .ok (.val (.str s)))
        | (b', .error err) => ({ st' with inp := b' }, .error err)
    | (st', .ok (.val .null)) => (st', .error .nullPointer)
    | (st', .ok _) => (st', .error .illTyped)
    | (st', .error err) => (st', .error err)
  | .readFixed n pad left, st =>
    match readFixedString st.inp n pad left with
    | (b', .ok s) => ({ st with inp := b' }, .ok (.val (.str s)))
    | (b', .error err) => ({ st with inp := b' }, .error err)
  | .newList, st => ({ st with h := st.h ++ [.arr []] }, .ok (.val (.ref st.h.length)))
  | .newObj c, st => ({ st with h := st.h ++ [newMsg c] }, .ok (.val (.ref st.h.length)))
  | .create fac e, st =>
    match eval env e st with
    | (st', .ok (.val k)) =>
      match env.sup fac (keyOf k.leaf) with
      | some (.make v) => let o := alloc v st'.h; ({ st' with h := o.1 }, .ok (.val o.2))
      | some (.give x) => (st', .ok (.val x))
      | none => (st', .error .illegalArgument)
    | (st', .ok _) => (st', .error .illTyped)
    | (st', .error err) => (st', .error err)
  | .service alg, st => (st, .ok (.service (Registry.getService env.svc alg)))
  | .calc e, st =>
    match eval env e st with
    | (st', .ok (.service (some s))) => (st', .ok (.val (.num (.int (s.calcOn st'.out.readable)))))
    | (st', .ok (.service none)) => (st', .error .nullPointer)
    | (st', .ok _) => (st', .error .illTyped)
    | (st', .error err) => (st', .error err)

/-- Value of a condition. [SseBinary.java:68, NestedPacket.java:42, NestedPacket.java:55] -/
def test (env : Env) : Cond → St → St × Except JErr Bool
  | .isNull _ e, st =>
    match eval env e st with
    | (st', .ok (.val .null)) => (st', .ok true)
    | (st', .ok (.service none)) => (st', .ok true)
    | (st', .ok _) => (st', .ok false)
    | (st', .error err) => (st', .error err)
  | .notNull _ e, st =>
    match eval env e st with
    | (st', .ok (.val .null)) => (st', .ok false)
    | (st', .ok (.service none)) => (st', .ok false)
    | (st', .ok _) => (st', .ok true)
    | (st', .error err) => (st', .error err)
  | .isNullOrEmpty e, st =>
    match eval env e st with
    | (st', .ok (.val .null)) => (st', .ok true)
    | (st', .ok (.val (.str s))) => (st', .ok s.isEmpty)
    | (st', .ok _) => (st', .error .illTyped)
    | (st', .error err) => (st', .error err)
  | .isZero e, st =>
    match eval env e st with
    | (st', .ok (.val (.num n))) => (st', .ok (n.bits.toInt == 0))
    | (st', .ok _) => (st', .error .illTyped)
    | (st', .error err) => (st', .error err)
  | .positive e, st =>
    match eval env e st with
    | (st', .ok (.val (.num n))) => (st', .ok (decide (0 < n.bits.toInt)))
    | (st', .ok _) => (st', .error .illTyped)
    | (st', .error err) => (st', .error err)
  | .or a b, st =>
    match test env a st with
    | (st', .ok true) => (st', .ok true)
    | (st', .ok false) => test env b st'
    | (st', .error err) => (st', .error err)

/-- Statements without blocks and without calls of `encode` and `decode`.  `none`: it is not one of
these. [SseBinary.java:61-90, NestedPacket.java:40-72] -/
def simple (env : Env) : Stmt → St → Option (St × Option JErr)
  | .assign f e, st =>
    match eval env e st with
    | (st', .ok (.val (.num n))) =>
      -- a primitive field: the value is widened to its type; the field is of the class of `this`
      match env.tys[f]?.bind (assignNum · n) with
      | some (.num m) => some ({ st' with h := st'.h.setField env.this f (.num m) }, none)
      | _ => some (st', some .illTyped)
    | (st', .ok (.val x)) => some ({ st' with h := st'.h.setField env.this f x }, none)
    | (st', .ok _) => some (st', some .illTyped)
    | (st', .error err) => some (st', some err)
  | .local _ x e, st =>
    match eval env e st with
    | (st', .ok v) => some (st'.setLoc x v, none)
    | (st', .error err) => some (st', some err)
  | .write t en e, st =>
    match eval env e st with
    | (st', .ok (.val x)) => let o := writeVal st'.out t en x.leaf; some ({ st' with out := o.1 }, o.2)
    | (st', .ok _) => some (st', some .illTyped)
    | (st', .error err) => some (st', some err)
  | .setAt t en p e, st =>
    match eval env p st with
    | (st', .ok (.val (.num ⟨.i32, v⟩))) =>
      match eval env e st' with
      | (st'', .ok (.val (.num n))) =>
        match n.convert t with
        | some m =>
          if v.toInt < 0 then some (st'', some .indexOutOfBounds)
          else let o := st''.out.set v.toNat (m.bytes en); some ({ st'' with out := o.1 }, o.2)
        | none => some (st'', some .illTyped)
      | (st'', .ok _) => some (st'', some .illTyped)
      | (st'', .error err) => some (st'', some err)
    | (st', .ok _) => some (st', some .illTyped)
    | (st', .error err) => some (st', some err)
  | .writeBytes e, st =>
    match eval env e st with
    | (st', .ok (.bytes bs)) => let o := st'.out.write bs; some ({ st' with out := o.1 }, o.2)
    | (st', .ok _) => some (st', some .illTyped)
    | (st', .error err) => some (st', some err)
  | .writeFixed e n pad left, st =>
    match eval env e st with
    | (st', .ok (.val x)) => let o := writeFixedVal st'.out x.leaf n pad left; some ({ st' with out := o.1 }, o.2)
    | (st', .ok _) => some (st', some .illTyped)
    | (st', .error err) => some (st', some err)
  | .add f e, st =>
    -- `this.F` is evaluated before `e`; evaluating `e` changes no field of `this`, and the call comes last
    match eval env e st with
    | (st', .ok (.val x)) => let o := hadd st'.h env.this f x; some ({ st' with h := o.1 }, o.2)
    | (st', .ok _) => some (st', some .illTyped)
    | (st', .error err) => some (st', some err)
  | _, _ => none

/-- The declared types of the fields of a class. [SseBinary.java:14-18] -/
def fieldTys (c : Cls) : List FTy := (decl c).fields.map (·.2)

/-- The object a reference points to, and its class: the method that is called is the one of this
class. [SseBinary.java:69, SseBinary.java:88] -/
def callee (h : Heap) : HVal → Option (Nat × Cls)
  | .ref a =>
    match h[a]? with
    | some (.msg c _) => some (a, c)
    | _ => none
  | _ => none

/-- Run a list of statements; `n` is the call-stack depth that is left.  `none`: it runs forever.  (The statements are taken in the order they are reached, as a
loop that is not finished or a block is put in front of what follows; the variables declared in a
block end with it.) [SseBinary.java:61-90, NestedPacket.java:40-72] -/
def run (svc : Registry) (sup : Suppliers) (n r : Nat) (tys : List FTy) (ss : List Stmt) (st : St) : Option (St × Option JErr) :=
  match ss with
  | [] => some (st, none)
  | .ite c a b :: rest =>
    match test ⟨svc, sup, r, tys⟩ c st with
    | (st', .ok v) => do
      let o ← run svc sup n r tys (if v then a else b) st'
      match o.2 with
      | none => run svc sup n r tys rest { o.1 with loc := st'.loc }
      | some err => some ({ o.1 with loc := st'.loc }, some err)
    | (st', .error err) => some (st', some err)
  | .loop x k bound body :: rest =>
    match eval ⟨svc, sup, r, tys⟩ bound st with
    | (st', .ok (.val (.num m))) =>
      if k.toInt < m.bits.toInt then do
        let o ← run svc sup n r tys body (st'.setLoc x (.val (.num (.int k))))
        match o.2 with
        | none => run svc sup n r tys (.loop x (k + 1) bound body :: rest) { o.1 with loc := st'.loc }
        | some err => some ({ o.1 with loc := st'.loc }, some err)
      else run svc sup n r tys rest st'
    | (st', .ok _) => some (st', some .illTyped)
    | (st', .error err) => some (st', some err)
  | .encode e :: rest =>
    match eval ⟨svc, sup, r, tys⟩ e st with
    | (st', .ok (.val .null)) => some (st', some .nullPointer)
    | (st', .ok (.val x)) =>
      match n with
      | 0 => some (st', some .stackOverflow)
      | n' + 1 =>
        match callee st'.h x with
        | some (a, c) => do
          let o ← run svc sup n' a (fieldTys c) (encBody c) { st' with loc := fun _ => none }
          match o.2 with
          | none => run svc sup n r tys rest { o.1 with loc := st'.loc }
          | some err => some ({ o.1 with loc := st'.loc }, some err)
        | none => some (st', some .illTyped)
    | (st', .ok _) => some (st', some .illTyped)
    | (st', .error err) => some (st', some err)
  | .decode e :: rest =>
    match eval ⟨svc, sup, r, tys⟩ e st with
    | (st', .ok (.val .null)) => some (st', some .nullPointer)
    | (st', .ok (.val x)) =>
      match n with
      | 0 => some (st', some .stackOverflow)
      | n' + 1 =>
        match callee st'.h x with
        | some (a, c) => do
          let o ← run svc sup n' a (fieldTys c) (decBody c) { st' with loc := fun _ => none }
          match o.2 with
          | none => run svc sup n r tys rest { o.1 with loc := st'.loc }
          | some err => some ({ o.1 with loc := st'.loc }, some err)
        | none => some (st', some .illTyped)
    | (st', .ok _) => some (st', some .illTyped)
    | (st', .error err) => some (st', some err)
  | s :: rest => do
    let o ← simple ⟨svc, sup, r, tys⟩ s st
    match o.2 with
    | none => run svc sup n r tys rest o.1
    | some _ => some o
partial_fixpoint

/-- `x.encode(byteBuf)` with call-stack depth `n`: heap, buffer and exception afterwards; `none` if
it runs forever. [SseBinary.java:61-80, StringPacket.java:125-208] -/
def callEncode (svc : Registry) (sup : Suppliers) (n : Nat) (x : HVal) (h : Heap) (b : WBuf) : Option (Heap × WBuf × Option JErr) :=
  (run svc sup n 0 [] [.encode (.var .i)] ⟨h, b, ⟨[], [], 0⟩, fun _ => some (.val x)⟩).map fun o => (o.1.h, o.1.out, o.2)

/-- `x.decode(byteBuf)` with call-stack depth `n`. [SseBinary.java:83-90,
StringPacket.java:211-281] -/
def callDecode (svc : Registry) (sup : Suppliers) (n : Nat) (x : HVal) (h : Heap) (b : RBuf) : Option (Heap × RBuf × Option JErr) :=
  (run svc sup n 0 [] [.decode (.var .i)] ⟨h, ⟨[], 0, 0⟩, b, fun _ => some (.val x)⟩).map fun o => (o.1.h, o.1.inp, o.2)

end FinProto.Java
