import Verif.Model.Interp
/-
`encode` of a message whose setters other threads call at the same time.

`encode` reads the fields of `this` when and as often as they stand in the text: a text with its length in front is read twice
(`StringUtil.isNullOrEmpty(this.F)`, `this.F.getBytes(...)`), an optional part twice, a list many times.  Between any two accesses other threads
may call any number of setters, or change the list a field refers to.

Simplifications: an access is indivisible and sees all assignments made before it (the Java memory model allows an access to see older values too, and
halves of a `long`); others do not change the parts of the message during the calls of their `encode` methods (they may replace them); what a called
`encode` changes inside a part is not recorded, because a part is visited once.
-/
namespace FinProto

/-- What other threads do: the field and the new value of each assignment they make just before the access number `k` of the running `encode`.
`this.F = v` is a setter; a list with other elements stands for both a setter and operations on the list. [SseBinary.java:20-58] -/
abbrev Others := Nat → List (Nat × Val)

/-- Assign one after the other. [SseBinary.java:20-58] -/
def setAll (fs : List Val) : List (Nat × Val) → List Val
  | [] => fs
  | p :: ps => setAll (fs.set p.1 p.2) ps

/-- State of a running `encode`: the fields of `this`, the number of accesses so far, the buffer, the local `int` variables. [SseBinary.java:64-71] -/
structure RSt where
  fs : List Val
  k : Nat
  buf : WBuf
  loc : Nat → Option Nat

/-- Read `this.F`. [SseBinary.java:62] -/
def RSt.look (o : Others) (f : Nat) (st : RSt) : RSt × Option Val :=
  ({ st with fs := setAll st.fs (o st.k), k := st.k + 1 }, (setAll st.fs (o st.k))[f]?)

/-- `this.F = v`. [SseBinary.java:72] -/
def RSt.put (o : Others) (f : Nat) (v : Val) (st : RSt) : RSt :=
  { st with fs := (setAll st.fs (o st.k)).set f v, k := st.k + 1 }

/-- The outcome of writing to the buffer. [SseBinary.java:62] -/
def RSt.wrote (st : RSt) (r : WBuf × Option JErr) : RSt × Option JErr := ({ st with buf := r.1 }, r.2)

/-- `this.F.size()`. [NestedPacket.java:42-46] -/
def RSt.size (o : Others) (f : Nat) (st : RSt) : RSt × Except JErr Nat :=
  match st.look o f with
  | (st', some (.list xs)) => (st', .ok xs.length)
  | (st', some .null) => (st', .error .nullPointer)
  | (st', _) => (st', .error .illTyped)

/-- `this.F.get(i)`. [NestedPacket.java:47] -/
def RSt.get (o : Others) (f i : Nat) (st : RSt) : RSt × Except JErr Val :=
  match st.look o f with
  | (st', some (.list xs)) =>
    match xs[i]? with
    | some v => (st', .ok v)
    | none => (st', .error .indexOutOfBounds)
  | (st', some .null) => (st', .error .nullPointer)
  | (st', _) => (st', .error .illTyped)

/-- `this.F`, as an expression. [StringPacket.java:126] -/
def RSt.field (o : Others) (f : Nat) (st : RSt) : RSt × Except JErr Val :=
  match st.look o f with
  | (st', some v) => (st', .ok v)
  | (st', none) => (st', .error .illTyped)

/-- `if (StringUtil.isNullOrEmpty(x)) writeXxx(0) else { bytes = x.getBytes(UTF_8); writeXxx(bytes.length); writeBytes(bytes) }`;
the expression `x` is evaluated twice. [StringPacket.java:126-132, StringPacket.java:151-157] -/
def rdyn (x : RSt → RSt × Except JErr Val) (zt t : PTy) (e : Endian) (st : RSt) : RSt × Option JErr :=
  match x st with
  | (st, .error err) => (st, some err)
  | (st, .ok v) =>
    match v.asStr with
    | none => (st, some .illTyped)
    | some (some (_ :: _)) =>
      match x st with
      | (st, .error err) => (st, some err)
      | (st, .ok .null) => (st, some .nullPointer)
      | (st, .ok (.str s)) =>
        match writeInt st.buf t e (utf8Enc s).length with
        | (b, some err) => ({ st with buf := b }, some err)
        | (b, none) => st.wrote (b.write (utf8Enc s))
      | (st, .ok _) => (st, some .illTyped)
    | some _ => st.wrote (writeInt st.buf zt .be 0)

/-- One iteration of the `for` loop that writes a list. [NestedPacket.java:47,
StringPacket.java:151-157] -/
def relem (o : Others) (call : EncCall) (el : EncElem) (f i : Nat) (st : RSt) : RSt × Option JErr :=
  match el with
  | .dyn zt t e => rdyn (fun st => st.get o f i) zt t e st
  | .num t e =>
    match st.get o f i with
    | (st, .error err) => (st, some err)
    | (st, .ok v) => st.wrote (writeVal st.buf t e v)
  | .fixed n pad left =>
    match st.get o f i with
    | (st, .error err) => (st, some err)
    | (st, .ok v) => st.wrote (writeFixedVal st.buf v n pad left)
  | .obj =>
    match st.get o f i with
    | (st, .error err) => (st, some err)
    | (st, .ok v) => st.wrote (call v st.buf).2

/-- `for (int i = ...; i < this.F.size(); i++) { ... }`.  The first argument bounds the rounds that are left: an `int` index ends the loop after
`2^31 - 1` rounds, because `size()` is an `int`. [NestedPacket.java:46-48] -/
def rloop (o : Others) (call : EncCall) (el : EncElem) (f : Nat) : Nat → Nat → RSt → RSt × Option JErr
  | 0, _, st => (st, none)
  | m + 1, i, st =>
    match st.size o f with
    | (st, .error err) => (st, some err)
    | (st, .ok len) =>
      if i < len then
        match relem o call el f i st with
        | (st, some err) => (st, some err)
        | (st, none) => rloop o call el f m (i + 1) st
      else (st, none)

/-- One `encode` statement; as `encStmt`, with the accesses of the Java text. [SseBinary.java:61-80,
StringPacket.java:125-208] -/
def rstmt (w : World) (o : Others) (call : EncCall) (s : EncStmt) (st : RSt) : RSt × Option JErr :=
  match s with
  | .num f t e =>
    match st.look o f with
    | (st, some (.num n)) => st.wrote (writeVal st.buf t e (.num n))
    | (st, _) => (st, some .illTyped)
  | .fixed f n pad left =>
    match st.look o f with
    | (st, some v) => st.wrote (writeFixedVal st.buf v n pad left)
    | (st, none) => (st, some .illTyped)
  | .dyn f zt t e => rdyn (fun st => st.field o f) zt t e st
  | .list f zt t e el =>
    match st.look o f with
    | (st, none) => (st, some .illTyped)
    | (st, some .null) => st.wrote (writeInt st.buf zt .be 0)
    | (st, some _) =>
      match st.size o f with
      | (st, .error err) => (st, some err)
      | (st, .ok 0) => st.wrote (writeInt st.buf zt .be 0)
      | (st, .ok (_ + 1)) =>
        match st.size o f with
        | (st, .error err) => (st, some err)
        | (st, .ok len) =>
          match st.wrote (writeInt st.buf t e len) with
          | (st, some err) => (st, some err)
          | (st, none) => rloop o call el f 2147483647 0 st
  | .obj f =>
    match st.look o f with
    | (st, some v) => st.wrote (call v st.buf).2
    | (st, none) => (st, some .illTyped)
  | .objOpt f =>
    match st.look o f with
    | (st, none) => (st, some .illTyped)
    | (st, some .null) => (st, none)
    | (st, some _) =>
      match st.look o f with
      | (st, some v) => st.wrote (call v st.buf).2
      | (st, none) => (st, some .illTyped)
  | .save x => ({ st with loc := setLoc st.loc x st.buf.wr }, none)
  | .zero t e => st.wrote (writeInt st.buf t e 0)
  | .setLen f x y =>
    match st.loc x, st.loc y with
    | some a, some b => (st.put o f (.num (.int (BitVec.ofNat 32 a - BitVec.ofNat 32 b))), none)
    | _, _ => (st, some .illTyped)
  | .patch x f t e =>
    match st.look o f with
    | (st, some (.num n)) =>
      match st.loc x, n.convert t with
      | some p, some m => st.wrote (st.buf.set p (m.bytes e))
      | _, _ => (st, some .illTyped)
    | (st, _) => (st, some .illTyped)
  | .checksum f alg =>
    match Registry.getService w.svc alg with
    | some s => (st.put o f (.num (.int (s.calcOn st.buf.readable))), none)
    | none => (st, none)

/-- A statement sequence: stops at the first exception. [SseBinary.java:61-80,
StringPacket.java:125-208] -/
def rstmts (w : World) (o : Others) (call : EncCall) : List EncStmt → RSt → RSt × Option JErr
  | [], st => (st, none)
  | s :: ss, st =>
    match rstmt w o call s st with
    | (st', none) => rstmts w o call ss st'
    | (st', some e) => (st', some e)

/-- `encode` on a message of class `c` with fields `fs`, while other threads do `o`. [SseBinary.java:61-80, StringPacket.java:125-208] -/
def rencode (w : World) (o : Others) (n : Nat) (c : Cls) (fs : List Val) (b : WBuf) : RSt × Option JErr :=
  rstmts w o (encode w n) (decl c).enc ⟨fs, 0, b, fun _ => none⟩

end FinProto
