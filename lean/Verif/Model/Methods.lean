import Verif.Model.HeapObjects
import Verif.Model.Factory
/-
The Java statements of all other methods, one by one: `hashCode`, `equals`, `toString`, getters and setters of the message classes, the methods and static
initialisers of the message factories, `MessageType.fromValue`, the methods and the constructor of `ChecksumServiceFactory`, and `ChecksumService.verify`.

As in `Java.lean` there is a syntax and its meaning (evaluation from left to right; `||` and `&&` do not evaluate their right side when the left one decides; an
exception leaves everything done so far), and then the bodies of the methods in this syntax.  `Tests/Render.lean` and `Tests/RenderCodec.lean` print them, and
`tools/roundtrip.py` compares what is printed with /repo.  `Props/Methods.lean` proves that running them is what `ObjectMethods.lean`, `HeapObjects.lean`, `Factory.lean` and
`Checksum.lean` say.

What is left to the JDK: `HashMap` (get, put, remove, containsKey, clear; null keys and null values allowed), `Objects.equals`, `Objects.hash`, string
conversion, `equals`, `hashCode` and `toString` of `ArrayList`, `String` and the boxed numbers.
-/
namespace FinProto.Methods

/-- What a `Class` object stands for: a message class, `ArrayList`, `String`, the class of a boxed
number, or a class of the application. [SseBinary.java:102, SseBinary.java:171] -/
inductive Kind
  | msg (c : Cls)
  | list
  | string
  | boxed (t : PTy)
  | app (k : Nat)
  deriving DecidableEq

/-- Values: what can be in a field (a key of a factory is one of these), a `boolean`, and references to a class, a supplier, a checksum service, the name of an
algorithm (any of these may be null) and a constant of `MessageType`. [SseBinary.java:92-225,
ChecksumServiceFactory.java:13-39] -/
inductive JV
  | val (x : HVal)
  | bool (b : Bool)
  | cls (k : Option Kind)
  | supplier (s : Option Supplier)
  | service (s : Option Service)
  | name (s : Option String)
  | const (m : SseMessageType)

/-- Parameters and local variables. [SseBinary.java:98, SseBinary.java:201-202, SseBinary.java:209]
-/
inductive Name
  | obj            -- `obj`, parameter of `equals`
  | other          -- `orther_`, local variable of `equals`
  | param          -- the parameter of a setter (it has the name of the field)
  | key            -- `msgType` or `applId`, parameter of the methods of a factory; `value`, parameter of `fromValue`
  | supplier       -- `supplier`
  | clazz          -- `clazz`
  | type           -- `type`, variable of the loop in `fromValue`
  | service        -- `checksumService`
  | name           -- `name`
  | expected       -- `expectedChecksum`
  deriving DecidableEq

/-- Expressions. [SseBinary.java:94, SseBinary.java:99-110, SseBinary.java:201-220] -/
inductive Expr
  | this                          -- `this`
  | null                          -- `null`
  | bool (b : Bool)               -- `true`, `false`
  | text (s : String)             -- `"s"`
  | var (x : Name)                -- `x`
  | own (dot : Bool) (f : Nat)    -- `this.F`, `F`
  | of (x : Name) (f : Nat)       -- `x.F`
  | same (a b : Expr)             -- `a == b`
  | differ (a b : Expr)           -- `a != b`
  | or (a b : Expr)               -- `a || b`
  | and (a b : Expr)              -- `a && b`
  | plus (a b : Expr)             -- `a + b` where `a` is a `String`
  | getClass                      -- `getClass()`
  | getClassOf (e : Expr)         -- `e.getClass()`
  | cast (c : Cls) (e : Expr)     -- `(C) e`
  | objectsEquals (a b : Expr)    -- `Objects.equals(a, b)`
  | objectsHash (fs : List Nat)   -- `Objects.hash(F, …, F)`
  | thisHashCode                  -- `this.hashCode()`
  | mapGet (e : Expr)             -- `bodyMap.get(e)`, the map of the factory
  | mapRemove (e : Expr)          -- `bodyMap.remove(e)`
  | supply (e : Expr)             -- `e.get()` of a supplier
  | typeGet (e : Expr)            -- `reverseMap.get(e)`
  | cacheGet (e : Expr)           -- `(ChecksumService<T, R>) CACHE.get(e)`; the cast is not checked at run time
  | cacheHas (e : Expr)           -- `CACHE.containsKey(e)`
  | algorithm (e : Expr)          -- `e.algorithm()`
  | calc                          -- `calc(buffer)`
  | constValue (e : Expr)         -- `e.value` of a `MessageType`

/-- Statements. [SseBinary.java:99-106, SseBinary.java:161-166, SseBinary.java:201-220] -/
inductive Stmt
  | ret (e : Expr)                    -- `return e;`
  | ite (c : Expr) (body : List Stmt) -- `if (c) { body }`
  | local (x : Name) (e : Expr)       -- `T x = e;`
  | assign (f : Nat) (e : Expr)       -- `this.F = e;`
  | mapPut (k e : Expr)               -- `bodyMap.put(k, e);`
  | typePut (k e : Expr)              -- `reverseMap.put(k, e);`
  | cachePut (k e : Expr)             -- `CACHE.put(k, e);`
  | cacheRemove (e : Expr)            -- `CACHE.remove(e);`
  | cacheClear                        -- `CACHE.clear();`
  | illegal (e : Expr)                -- `throw new IllegalArgumentException(e);`
  | forTypes (body : List Stmt)       -- `for (MessageType type : values()) { body }`

/-! ### Meaning -/

/-- The heap and the maps.  A `HashMap` may hold null under a key (`some none`), which is not the
same as having no entry. [SseBinary.java:131-132, ChecksumServiceFactory.java:13] -/
structure St where
  h : Heap
  map : Fac → Key → Option (Option Supplier)     -- the maps of the factories
  types : Option Kind → Option HVal              -- `reverseMap` (an entry is an `Integer` or null)
  cache : Option String → Option (Option Service)  -- `CACHE`

/-- The local variables. [SseBinary.java:92-225, ChecksumServiceFactory.java:13-39] -/
abbrev Loc := Name → Option JV

/-- What a running method works with: `this`, the factory it belongs to, the buffer that is its argument, and the methods it calls: `Objects.equals`,
`Objects.hashCode`, `String.valueOf`. [SseBinary.java:92-225, ChecksumServiceFactory.java:13-39] -/
structure Env where
  this : JV
  fac : Fac
  buffer : RBuf
  equals : Heap → HVal → HVal → Except JErr Bool
  hash : Heap → HVal → Except JErr (BitVec 32)
  str : Heap → HVal → Except JErr JStr

/-- `x == y` for references.  (Boxed numbers and strings are only compared with null.)
[SseBinary.java:99] -/
def identical : HVal → HVal → Bool
  | .null, .null => true
  | .ref a, .ref b => decide (a = b)
  | _, _ => false

/-- `x.getClass()`. [SseBinary.java:102] -/
def kindOf (h : Heap) : HVal → Except JErr Kind
  | .null => .error .nullPointer
  | .num n => .ok (.boxed n.ty)
  | .str _ => .ok .string
  | .ref r =>
    match h[r]? with
    | some (.msg c _) => .ok (.msg c)
    | some (.arr _) => .ok .list
    | none => .error .illTyped

/-- `a == b`; null is the value `.val .null` whatever the type of the other side is.
[SseBinary.java:99, SseBinary.java:102, SseBinary.java:203] -/
def sameRef : JV → JV → Except JErr Bool
  | .val (.num ⟨.i32, u⟩), .val (.num ⟨.i32, v⟩) => .ok (decide (u = v))   -- two `int`s
  | .val x, .val y => .ok (identical x y)
  | .cls k, .cls l => .ok (decide (k = l))
  | .val .null, .supplier s => .ok s.isNone
  | _, _ => .error .illTyped

/-- The bucket a key belongs to. [SseBinary.java:202] -/
def keyIn : HVal → Key := fun x => keyOf x.leaf

/-- `hashCode` of the arguments, one after the other, as `Arrays.hashCode` does.
[SseBinary.java:93-95] -/
def hashArgs (f : HVal → Except JErr (BitVec 32)) : BitVec 32 → List HVal → Except JErr (BitVec 32) := hhashSeq f

/-- Value of an expression, with the state it leaves. [SseBinary.java:92-225,
ChecksumServiceFactory.java:13-39] -/
def eval (env : Env) (loc : Loc) : Expr → St → St × Except JErr JV
  | .this, st => (st, .ok env.this)
  | .null, st => (st, .ok (.val .null))
  | .bool b, st => (st, .ok (.bool b))
  | .text s, st => (st, .ok (.val (.str (js s))))
  | .var x, st =>
    match loc x with
    | some v => (st, .ok v)
    | none => (st, .error .illTyped)
  | .own _ f, st =>
    match env.this with
    | .val (.ref r) =>
      match st.h.field r f with
      | some x => (st, .ok (.val x))
      | none => (st, .error .illTyped)
    | _ => (st, .error .illTyped)
  | .of x f, st =>
    match loc x with
    | some (.val (.ref r)) =>
      match st.h.field r f with
      | some y => (st, .ok (.val y))
      | none => (st, .error .illTyped)
    | some (.val .null) => (st, .error .nullPointer)
    | _ => (st, .error .illTyped)
  | .same a b, st =>
    match eval env loc a st with
    | (st', .ok u) =>
      match eval env loc b st' with
      | (st'', .ok v) => (st'', (sameRef u v).map .bool)
      | o => o
    | o => o
  | .differ a b, st =>
    match eval env loc a st with
    | (st', .ok u) =>
      match eval env loc b st' with
      | (st'', .ok v) => (st'', (sameRef u v).map fun r => .bool (!r))
      | o => o
    | o => o
  | .or a b, st =>
    match eval env loc a st with
    | (st', .ok (.bool true)) => (st', .ok (.bool true))
    | (st', .ok (.bool false)) => eval env loc b st'
    | (st', .ok _) => (st', .error .illTyped)
    | o => o
  | .and a b, st =>
    match eval env loc a st with
    | (st', .ok (.bool true)) => eval env loc b st'
    | (st', .ok (.bool false)) => (st', .ok (.bool false))
    | (st', .ok _) => (st', .error .illTyped)
    | o => o
  | .plus a b, st =>
    match eval env loc a st with
    | (st', .ok (.val (.str s))) =>
      match b with
      | .text t => (st', .ok (.val (.str (s ++ js t))))   -- a literal needs no conversion
      | _ =>
        match eval env loc b st' with
        | (st'', .ok (.val x)) => (st'', (env.str st''.h x).map fun t => .val (.str (s ++ t)))
        | (st'', .ok _) => (st'', .error .illTyped)
        | o => o
    | (st', .ok _) => (st', .error .illTyped)
    | o => o
  | .getClass, st =>
    match env.this with
    | .val x => (st, (kindOf st.h x).map fun k => .cls (some k))
    | _ => (st, .error .illTyped)
  | .getClassOf e, st =>
    match eval env loc e st with
    | (st', .ok (.val x)) => (st', (kindOf st'.h x).map fun k => .cls (some k))
    | (st', .ok _) => (st', .error .illTyped)
    | o => o
  | .cast c e, st =>
    match eval env loc e st with
    | (st', .ok (.val .null)) => (st', .ok (.val .null))
    | (st', .ok (.val x)) =>
      match kindOf st'.h x with
      | .ok k => if k = .msg c then (st', .ok (.val x)) else (st', .error .illTyped)   -- ClassCastException
      | .error err => (st', .error err)
    | (st', .ok _) => (st', .error .illTyped)
    | o => o
  | .objectsEquals a b, st =>
    match eval env loc a st with
    | (st', .ok (.val x)) =>
      match eval env loc b st' with
      | (st'', .ok (.val y)) => (st'', (env.equals st''.h x y).map .bool)
      | (st'', .ok _) => (st'', .error .illTyped)
      | o => o
    | (st', .ok _) => (st', .error .illTyped)
    | o => o
  | .objectsHash fs, st =>
    match env.this with
    | .val (.ref r) =>
      match st.h[r]? with
      | some (.msg _ ys) =>
        match hpick ys fs with
        | some xs => (st, (hashArgs (env.hash st.h) 1 xs).map fun k => .val (.num (.int k)))
        | none => (st, .error .illTyped)
      | _ => (st, .error .illTyped)
    | _ => (st, .error .illTyped)
  | .thisHashCode, st =>
    match env.this with
    | .val x => (st, (env.hash st.h x).map fun k => .val (.num (.int k)))
    | _ => (st, .error .illTyped)
  | .mapGet e, st =>
    match eval env loc e st with
    | (st', .ok (.val k)) => (st', .ok (.supplier (st'.map env.fac (keyIn k)).join))
    | (st', .ok _) => (st', .error .illTyped)
    | o => o
  | .mapRemove e, st =>
    match eval env loc e st with
    | (st', .ok (.val k)) =>
      ({ st' with map := fun f' k' => if f' = env.fac ∧ k' = keyIn k then none else st'.map f' k' }, .ok (.supplier (st'.map env.fac (keyIn k)).join))
    | (st', .ok _) => (st', .error .illTyped)
    | o => o
  | .supply e, st =>
    match eval env loc e st with
    | (st', .ok (.supplier (some (.make v)))) => let o := alloc v st'.h; ({ st' with h := o.1 }, .ok (.val o.2))
    | (st', .ok (.supplier (some (.give x)))) => (st', .ok (.val x))
    | (st', .ok (.supplier none)) => (st', .error .nullPointer)
    | (st', .ok _) => (st', .error .illTyped)
    | o => o
  | .typeGet e, st =>
    match eval env loc e st with
    | (st', .ok (.cls k)) => (st', .ok (.val ((st'.types k).getD .null)))
    | (st', .ok _) => (st', .error .illTyped)
    | o => o
  | .cacheGet e, st =>
    match eval env loc e st with
    | (st', .ok (.name s)) => (st', .ok (.service (st'.cache s).join))
    | (st', .ok _) => (st', .error .illTyped)
    | o => o
  | .cacheHas e, st =>
    match eval env loc e st with
    | (st', .ok (.name s)) => (st', .ok (.bool (st'.cache s).isSome))
    | (st', .ok _) => (st', .error .illTyped)
    | o => o
  | .algorithm e, st =>
    match eval env loc e st with
    | (st', .ok (.service (some s))) => (st', .ok (.name (some s.algorithm)))
    | (st', .ok (.service none)) => (st', .error .nullPointer)
    | (st', .ok _) => (st', .error .illTyped)
    | o => o
  | .calc, st =>
    match env.this with
    | .service (some s) => (st, .ok (.val (.num (.int (s.calcOn env.buffer.readable)))))
    | _ => (st, .error .illTyped)
  | .constValue e, st =>
    match eval env loc e st with
    | (st', .ok (.const m)) => (st', .ok (.val (.num (.int m.getValue))))
    | (st', .ok _) => (st', .error .illTyped)
    | o => o

/-- How a statement ends: the next one is to be run, the method returns, the `throw` statement of the method throws an `IllegalArgumentException` with
a text, or another exception is thrown. [SseBinary.java:92-225, SseBinary.java:204,
ChecksumServiceFactory.java:13-39] -/
inductive Flow
  | next
  | ret (v : JV)
  | illegal (text : JStr)
  | throw (e : JErr)

/-- Set a local variable. [SseBinary.java:92-225, ChecksumServiceFactory.java:13-39] -/
def Loc.put (loc : Loc) (x : Name) (v : JV) : Loc := fun y => if y = x then some v else loc y

/-- The body of a loop for each constant. [SseBinary.java:161-165] -/
def forEach (run : SseMessageType → St → St × Flow) : List SseMessageType → St → St × Flow
  | [], st => (st, .next)
  | m :: ms, st =>
    match run m st with
    | (st', .next) => forEach run ms st'
    | o => o

mutual
/-- Run a statement. [SseBinary.java:92-225, ChecksumServiceFactory.java:13-39] -/
def step (env : Env) : Stmt → Loc → St → Loc × St × Flow
  | .ret e, loc, st =>
    match eval env loc e st with
    | (st', .ok v) => (loc, st', .ret v)
    | (st', .error err) => (loc, st', .throw err)
  | .ite c body, loc, st =>
    match eval env loc c st with
    | (st', .ok (.bool true)) => let o := exec env body loc st'; (loc, o.1, o.2)
    | (st', .ok (.bool false)) => (loc, st', .next)
    | (st', .ok _) => (loc, st', .throw .illTyped)
    | (st', .error err) => (loc, st', .throw err)
  | .local x e, loc, st =>
    match eval env loc e st with
    | (st', .ok v) => (loc.put x v, st', .next)
    | (st', .error err) => (loc, st', .throw err)
  | .assign f e, loc, st =>
    match eval env loc e st with
    | (st', .ok (.val x)) =>
      match env.this with
      | .val (.ref r) => (loc, { st' with h := st'.h.setField r f x }, .next)
      | _ => (loc, st', .throw .illTyped)
    | (st', .ok _) => (loc, st', .throw .illTyped)
    | (st', .error err) => (loc, st', .throw err)
  | .mapPut k e, loc, st =>
    match eval env loc k st with
    | (st', .ok (.val x)) =>
      match eval env loc e st' with
      | (st'', .ok (.supplier s)) =>
        (loc, { st'' with map := fun f' k' => if f' = env.fac ∧ k' = keyIn x then some s else st''.map f' k' }, .next)
      | (st'', .ok _) => (loc, st'', .throw .illTyped)
      | (st'', .error err) => (loc, st'', .throw err)
    | (st', .ok _) => (loc, st', .throw .illTyped)
    | (st', .error err) => (loc, st', .throw err)
  | .typePut k e, loc, st =>
    match eval env loc k st with
    | (st', .ok (.cls c)) =>
      match eval env loc e st' with
      | (st'', .ok (.val x)) => (loc, { st'' with types := fun c' => if c' = c then some x else st''.types c' }, .next)
      | (st'', .ok _) => (loc, st'', .throw .illTyped)
      | (st'', .error err) => (loc, st'', .throw err)
    | (st', .ok _) => (loc, st', .throw .illTyped)
    | (st', .error err) => (loc, st', .throw err)
  | .cachePut k e, loc, st =>
    match eval env loc k st with
    | (st', .ok (.name s)) =>
      match eval env loc e st' with
      | (st'', .ok (.service x)) => (loc, { st'' with cache := fun s' => if s' = s then some x else st''.cache s' }, .next)
      | (st'', .ok _) => (loc, st'', .throw .illTyped)
      | (st'', .error err) => (loc, st'', .throw err)
    | (st', .ok _) => (loc, st', .throw .illTyped)
    | (st', .error err) => (loc, st', .throw err)
  | .cacheRemove e, loc, st =>
    match eval env loc e st with
    | (st', .ok (.name s)) => (loc, { st' with cache := fun s' => if s' = s then none else st'.cache s' }, .next)
    | (st', .ok _) => (loc, st', .throw .illTyped)
    | (st', .error err) => (loc, st', .throw err)
  | .cacheClear, loc, st => (loc, { st with cache := fun _ => none }, .next)
  | .illegal e, loc, st =>
    match eval env loc e st with
    | (st', .ok (.val (.str s))) => (loc, st', .illegal s)
    | (st', .ok _) => (loc, st', .throw .illTyped)
    | (st', .error err) => (loc, st', .throw err)
  | .forTypes body, loc, st =>
    let o := forEach (fun m st => exec env body (loc.put .type (.const m)) st) (sseMessageTypes.map (·.1)) st
    (loc, o.1, o.2)
/-- Run a list of statements. [SseBinary.java:92-225, ChecksumServiceFactory.java:13-39] -/
def exec (env : Env) : List Stmt → Loc → St → St × Flow
  | [], _, st => (st, .next)
  | s :: ss, loc, st =>
    match step env s loc st with
    | (loc', st', .next) => exec env ss loc' st'
    | (_, st', f) => (st', f)
end

/-! ### The methods of the message classes -/

/-- `hashCode()`, e.g. SseBinary.java:92-95, Heartbeat.java:14-17. -/
def hashBody (d : ClassDecl) : List Stmt :=
  match d.hash with
  | .self => [.ret .thisHashCode]
  | .fields fs => [.ret (.objectsHash fs)]

/-- `Objects.equals(F, orther_.G)`. [SseBinary.java:106-110] -/
def fieldsEqual (p : Nat × Nat) : Expr := .objectsEquals (.own false p.1) (.of .other p.2)

/-- `equals(Object obj)`, e.g. SseBinary.java:97-110, Heartbeat.java:19-28. -/
def equalsBody (c : Cls) : List Stmt :=
  [.ite (.same .this (.var .obj)) [.ret (.bool true)],
   .ite (.or (.same .null (.var .obj)) (.differ .getClass (.getClassOf (.var .obj)))) [.ret (.bool false)]]
    ++ match (decl c).eqs with
      | [] => [.ret (.bool true)]
      | p :: ps => [.local .other (.cast c (.var .obj)), .ret (ps.foldl (fun e q => .and e (fieldsEqual q)) (fieldsEqual p))]

/-- A piece of the concatenation. [SseBinary.java:114-127] -/
def strExpr : StrPart → Expr
  | .lit s => .text s
  | .field f => .own true f

/-- `toString()`, e.g. SseBinary.java:112-127. -/
def toStringBody (d : ClassDecl) : List Stmt :=
  match d.str with
  | [] => [.ret (.text "")]   -- does not occur
  | p :: ps => [.ret (ps.foldl (fun e q => .plus e (strExpr q)) (strExpr p))]

/-- `getX()`, e.g. SseBinary.java:21-23, where X is the property of `a`. -/
def getterBody (a : String × Nat × Nat) : List Stmt := [.ret (.own true a.2.1)]

/-- `setX(v)`, e.g. SseBinary.java:25-27. -/
def setterBody (a : String × Nat × Nat) : List Stmt := [.assign a.2.2 (.var .param)]

/-- A heap, and no maps: the methods of a message do not look at them. [SseBinary.java:92-225,
ChecksumServiceFactory.java:13-39] -/
def St.ofHeap (h : Heap) : St := ⟨h, fun _ _ => none, fun _ => none, fun _ => none⟩

/-- The result of a method that returns a `boolean`. [SseBinary.java:98-111] -/
def boolResult : St × Flow → Except JErr Bool
  | (_, .ret (.bool b)) => .ok b
  | (_, .illegal _) => .error .illegalArgument
  | (_, .throw e) => .error e
  | _ => .error .illTyped

/-- The result of a method that returns an `int`. [SseBinary.java:93-95] -/
def intResult : St × Flow → Except JErr (BitVec 32)
  | (_, .ret (.val (.num ⟨.i32, v⟩))) => .ok v
  | (_, .illegal _) => .error .illegalArgument
  | (_, .throw e) => .error e
  | _ => .error .illTyped

/-- The result of a method that returns a `String`. [SseBinary.java:114-127] -/
def strResult : St × Flow → Except JErr JStr
  | (_, .ret (.val (.str s))) => .ok s
  | (_, .illegal _) => .error .illegalArgument
  | (_, .throw e) => .error e
  | _ => .error .illTyped

/-- A method that is not called. [SseBinary.java:94] -/
def unused {α : Type} : Except JErr α := .error .illTyped

/-- `ArrayList.equals(y)` for the list at `r` (JDK 11): the same reference; otherwise `y` is a list
of the same size with equal elements. [NestedPacket.java:89] -/
def listEquals (eq : HVal → HVal → Except JErr Bool) (h : Heap) (r : Nat) (xs : List HVal) : HVal → Except JErr Bool
  | .ref q =>
    if r = q then .ok true
    else
      match h[q]? with
      | some (.arr ys) => if xs.length = ys.length then hequalsAll eq xs ys else .ok false
      | some _ => .ok false
      | none => .error .illTyped
  | _ => .ok false

/-- `Objects.equals(x, y)`: `x == y || (x != null && x.equals(y))`, where `equals` is the method of the class of `x`: for a message the one above.  `n` is the
call-stack depth that is left.  (Two boxed numbers or strings that are the same object are equal,
so whether they are the same object does not matter.) [SseBinary.java:106-110] -/
def objectsEquals : Nat → Heap → HVal → HVal → Except JErr Bool
  | 0, _, _, _ => .error .stackOverflow
  | n + 1, h, x, y =>
    if identical x y then .ok true
    else
      match x with
      | .null => .ok false
      | .num a => .ok (match y with | .num b => a.eqv b | _ => false)
      | .str s => .ok (match y with | .str t => decide (s = t) | _ => false)
      | .ref r =>
        match h[r]? with
        | some (.arr xs) => listEquals (objectsEquals n h) h r xs y
        | some (.msg c _) =>
          boolResult (exec ⟨.val x, .sse_SseBinary, ⟨[], [], 0⟩, objectsEquals n, fun _ _ => unused, fun _ _ => unused⟩ (equalsBody c)
            (fun z => if z = .obj then some (.val y) else none) (.ofHeap h))
        | none => .error .illTyped

/-- `Objects.hashCode(x)`: 0 for null, otherwise the method of the class of `x`: for a message the
one above, for a list `31 * h + hash(element)` from 1 on. [SseBinary.java:93-95] -/
def objectsHashCode : Nat → Heap → HVal → Except JErr (BitVec 32)
  | 0, _, _ => .error .stackOverflow
  | n + 1, h, x =>
    match x with
    | .null => .ok 0
    | .num a => .ok a.hash
    | .str s => .ok (strHash s)
    | .ref r =>
      match h[r]? with
      | some (.arr xs) => hhashSeq (objectsHashCode n h) 1 xs
      | some (.msg c _) =>
        intResult (exec ⟨.val x, .sse_SseBinary, ⟨[], [], 0⟩, fun _ _ _ => unused, objectsHashCode n, fun _ _ => unused⟩ (hashBody (decl c))
          (fun _ => none) (.ofHeap h))
      | none => .error .illTyped

/-- The elements of a list as `AbstractCollection.toString` prints them. [NestedPacket.java:99] -/
def elemStrs (f : HVal → Except JErr JStr) (self : HVal) : List HVal → Except JErr (List JStr)
  | [] => .ok []
  | x :: xs =>
    match if x = self then .ok (js "(this Collection)") else f x with
    | .ok s =>
      match elemStrs f self xs with
      | .ok ss => .ok (s :: ss)
      | .error e => .error e
    | .error e => .error e

/-- `String.valueOf(x)`: "null", or the `toString` of the class of `x`: for a message the one
above. [SseBinary.java:123, NestedPacket.java:97-101] -/
def stringValueOf (flt : Num → JStr) : Nat → Heap → HVal → Except JErr JStr
  | 0, _, _ => .error .stackOverflow
  | n + 1, h, x =>
    match x with
    | .null => .ok (js "null")
    | .num a => .ok (a.toStr flt)
    | .str s => .ok s
    | .ref r =>
      match h[r]? with
      | some (.arr xs) => (elemStrs (stringValueOf flt n h) (.ref r) xs).map fun ss => js "[" ++ joinComma ss ++ js "]"
      | some (.msg c _) =>
        strResult (exec ⟨.val x, .sse_SseBinary, ⟨[], [], 0⟩, fun _ _ _ => unused, fun _ _ => unused, stringValueOf flt n⟩ (toStringBody (decl c))
          (fun _ => none) (.ofHeap h))
      | none => .error .illTyped

/-- The environment in which the methods below run: the methods of values can be called with `n`
levels of stack. [SseBinary.java:92-225, ChecksumServiceFactory.java:13-39] -/
def Env.at (flt : Num → JStr) (n : Nat) (this : JV) (fac : Fac) (buffer : RBuf) : Env :=
  ⟨this, fac, buffer, objectsEquals n, objectsHashCode n, stringValueOf flt n⟩

/-! ### The methods of the factories -/

/-- `create(key)`: RootPacket.java:126-132, SseBinary.java:201-207, TradeCaptureCofirm.java:364-370, etc.  `what` is `MsgType` or `ApplID`. -/
def createBody (what : String) : List Stmt :=
  [.local .supplier (.mapGet (.var .key)),
   .ite (.same .null (.var .supplier)) [.illegal (.plus (.text ("Unsupported " ++ what ++ ":")) (.var .key))],
   .ret (.supply (.var .supplier))]

/-- What the text of the exception calls the key: RootPacket.java:129, SseBinary.java:204, SzseBinary.java:202, BjseBinary.java:123, RcBinary.java:124, and
e.g. NewOrder.java:319. -/
def keyWord : Fac → String
  | .sample_RootPacket | .sse_SseBinary | .szse_SzseBinary | .bjse_BjseBinary | .risk_RcBinary => "MsgType"
  | _ => "ApplID"

/-- `register(key, supplier)`: RootPacket.java:134-136 etc. -/
def registerBody : List Stmt := [.mapPut (.var .key) (.var .supplier)]

/-- `register(clazz, msgType, supplier)`, SseBinary.java:209-212. -/
def registerSseBody : List Stmt := [.mapPut (.var .key) (.var .supplier), .typePut (.var .clazz) (.var .key)]

/-- `remove(key)`: RootPacket.java:138-140, SseBinary.java:214-216, etc. -/
def removeBody : List Stmt := [.ret (.differ .null (.mapRemove (.var .key)))]

/-- `getMsgType(clazz)`, SseBinary.java:218-220. -/
def getMsgTypeBody : List Stmt := [.ret (.typeGet (.var .clazz))]

/-- `MessageType.fromValue(value)`, SseBinary.java:160-167. -/
def fromValueBody : List Stmt :=
  [.forTypes [.ite (.same (.constValue (.var .type)) (.var .key)) [.ret (.var .type)]],
   .illegal (.plus (.text "Unknown MessageType value: ") (.var .key))]

/-- The arguments of a call. [SseBinary.java:92-225, ChecksumServiceFactory.java:13-39] -/
def args (as : List (Name × JV)) : Loc := fun x => (as.find? fun a => a.1 = x).map (·.2)

/-- Call a method of factory `fac` in state `st`. [SseBinary.java:201-220] -/
def callFac (flt : Num → JStr) (n : Nat) (fac : Fac) (body : List Stmt) (as : List (Name × JV)) (st : St) : St × Flow :=
  exec (.at flt n (.val .null) fac ⟨[], [], 0⟩) body (args as) st

/-- `new C()` registered as `C::new`. [SseBinary.java:171] -/
def ctor (c : Cls) : JV := .supplier (some (.make (fresh c)))

/-- A key as a value. [SseBinary.java:201] -/
def keyVal : Key → HVal
  | .null => .null
  | .int v => .num (.int v)
  | .short v => .num ⟨.i16, v⟩
  | .str s => .str s

/-- A static initialiser: its calls of `register`, one after the other (they return normally).  RootPacket.java:118-123 etc. -/
def initFac (flt : Num → JStr) (n : Nat) (fac : Fac) (regs : List Reg) (st : St) : St :=
  regs.foldl (fun st r => (callFac flt n fac registerBody [(.key, .val (keyVal r.key)), (.supplier, ctor r.cls)] st).1) st

/-- The one of the SSE factory, SseBinary.java:170-199: `getInstance().register(C.class, MessageType.X.getValue(), C::new)`. -/
def initSse (flt : Num → JStr) (n : Nat) (regs : List (Cls × SseMessageType × Cls)) (st : St) : St :=
  regs.foldl (fun st r => (callFac flt n .sse_SseBinary registerSseBody
    [(.clazz, .cls (some (.msg r.1))), (.key, .val (.num (.int r.2.1.getValue))), (.supplier, ctor r.2.2)] st).1) st

/-! ### The methods of the checksum registry -/

/-- `registry(checksumService)`, ChecksumServiceFactory.java:28-34. -/
def registryBody : List Stmt :=
  [.ite (.cacheHas (.algorithm (.var .service))) [.ret (.bool false)],
   .cachePut (.algorithm (.var .service)) (.var .service),
   .ret (.bool true)]

/-- `removeChecksumService(name)`, ChecksumServiceFactory.java:20-22. -/
def removeServiceBody : List Stmt := [.cacheRemove (.var .name)]

/-- `clearAllChecksumService()`, ChecksumServiceFactory.java:24-26. -/
def clearBody : List Stmt := [.cacheClear]

/-- `getChecksumService(name)`, ChecksumServiceFactory.java:37-39. -/
def getServiceBody : List Stmt := [.ret (.cacheGet (.var .name))]

/-- `verify(buffer, expectedChecksum)`, ChecksumService.java:22-24. -/
def verifyBody : List Stmt := [.ret (.objectsEquals .calc (.var .expected))]

/-- Call a method of the registry. [ChecksumServiceFactory.java:20-39] -/
def callReg (flt : Num → JStr) (n : Nat) (body : List Stmt) (as : List (Name × JV)) (st : St) : St × Flow :=
  exec (.at flt n (.val .null) .sse_SseBinary ⟨[], [], 0⟩) body (args as) st

/-- The constructor, ChecksumServiceFactory.java:15-18: `registry(new Crc16ChecksumService()); registry(new Crc32ChecksumService());`. -/
def initReg (flt : Num → JStr) (n : Nat) (services : List Service) (st : St) : St :=
  services.foldl (fun st s => (callReg flt n registryBody [(.service, .service (some s))] st).1) st

/-- The services the constructor registers. [ChecksumServiceFactory.java:15-18] -/
def ctorServices : List Service := [crc16Service, crc32Service]

end FinProto.Methods
