import Verif.Model.Racing
/-
`decode` into a message whose setters other threads call at the same time.

`decode` assigns the fields of `this` as it goes, and reads some of them again: the message type to find the class of the body, a list each time an
element is added to it, a part before its `decode` is called.  Between any two accesses other threads may call any number of setters.

Simplifications: as in `Racing.lean`.  Further, others do not use a list between the moment at which `decode` reads the field for adding an element and
the moment at which the element is added.
-/
namespace FinProto

/-- State of a running `decode`: the fields of `this`, the number of accesses so far, the buffer. [SseBinary.java:83-90] -/
structure RDSt where
  fs : List Val
  k : Nat
  buf : RBuf

/-- Read `this.F`. [SseBinary.java:87] -/
def RDSt.look (o : Others) (f : Nat) (st : RDSt) : RDSt × Option Val :=
  ({ st with fs := setAll st.fs (o st.k), k := st.k + 1 }, (setAll st.fs (o st.k))[f]?)

/-- `this.F = v`. [SseBinary.java:84] -/
def RDSt.put (o : Others) (f : Nat) (v : Val) (st : RDSt) : RDSt :=
  { st with fs := (setAll st.fs (o st.k)).set f v, k := st.k + 1 }

/-- The object a field was just read from has changed. [SseBinary.java:88] -/
def RDSt.store (f : Nat) (v : Val) (st : RDSt) : RDSt := { st with fs := st.fs.set f v }

/-- Add an element to the list that was read from `this.F`. [NestedPacket.java:65] -/
def RDSt.add (f : Nat) (l : Option Val) (v : Val) (st : RDSt) : RDSt × Option JErr :=
  match l with
  | some (.list xs) => (st.store f (.list (xs ++ [v])), none)
  | some .null => (st, some .nullPointer)
  | _ => (st, some .illTyped)

/-- One iteration of the `for` loop that reads a list.  Elements that are messages are decoded first, then `this.F` is read; of other elements `this.F` is
read first (`this.F.add(byteBuf.readXxx())`).  An absent text of a list of texts is not added, and `this.F` is not read.
[NestedPacket.java:63-65, StringPacket.java:230-236] -/
def rdelem (o : Others) (call : DecCall) (el : DecElem) (f : Nat) (st : RDSt) : RDSt × Option JErr :=
  match el with
  | .obj c =>
    match call c (freshFields c) st.buf with
    | (_, b', some err) => ({ st with buf := b' }, some err)
    | (fs, b', none) =>
      let r := { st with buf := b' }.look o f
      r.1.add f r.2 (.obj c fs)
  | .num t e =>
    let r := st.look o f
    match st.buf.readNum e t with
    | (b', .error err) => ({ r.1 with buf := b' }, some err)
    | (b', .ok n) => { r.1 with buf := b' }.add f r.2 (.num n)
  | .fixed n pad left =>
    let r := st.look o f
    match readFixedString st.buf n pad left with
    | (b', .error err) => ({ r.1 with buf := b' }, some err)
    | (b', .ok s) => { r.1 with buf := b' }.add f r.2 (.str s)
  | .dyn t e =>
    match st.buf.readNum e t with
    | (b', .error err) => ({ st with buf := b' }, some err)
    | (b', .ok n) =>
      if 0 < n.bits.toInt then
        let r := st.look o f
        match b'.readText n.bits.toNat with
        | (b'', .error err) => ({ r.1 with buf := b'' }, some err)
        | (b'', .ok s) => { r.1 with buf := b'' }.add f r.2 (.str s)
      else ({ st with buf := b' }, none)

/-- The `for` loop that reads the elements of a list. [NestedPacket.java:62-66] -/
def rdloop (o : Others) (call : DecCall) (el : DecElem) (f : Nat) : Nat → RDSt → RDSt × Option JErr
  | 0, st => (st, none)
  | m + 1, st =>
    match rdelem o call el f st with
    | (st', some err) => (st', some err)
    | (st', none) => rdloop o call el f m st'

/-- `this.F.decode(byteBuf)`. [SseBinary.java:88] -/
def rdcall (o : Others) (call : DecCall) (f : Nat) (st : RDSt) : RDSt × Option JErr :=
  match st.look o f with
  | (st', some .null) => (st', some .nullPointer)
  | (st', some (.obj c fs)) =>
    let r := call c fs st'.buf
    ({ st' with buf := r.2.1 }.store f (.obj c r.1), r.2.2)
  | (st', _) => (st', some .illTyped)

/-- One `decode` statement; as `decStmt`, with the accesses of the Java text. [SseBinary.java:83-90, StringPacket.java:211-281] -/
def rdstmt (w : World) (o : Others) (call : DecCall) (tys : List FTy) (s : DecStmt) (st : RDSt) : RDSt × Option JErr :=
  match s with
  | .num f t e =>
    match st.buf.readNum e t with
    | (b', .error err) => ({ st with buf := b' }, some err)
    | (b', .ok n) =>
      match tys[f]?.bind (assignNum · n) with
      | some v => ({ st with buf := b' }.put o f v, none)
      | none => ({ st with buf := b' }, some .illTyped)
  | .fixed f n pad left =>
    match readFixedString st.buf n pad left with
    | (b', .ok s) => ({ st with buf := b' }.put o f (.str s), none)
    | (b', .error err) => ({ st with buf := b' }, some err)
  | .dyn f t e =>
    match readDyn st.buf t e with
    | (b', .ok (some s)) => ({ st with buf := b' }.put o f (.str s), none)
    | (b', .ok none) => ({ st with buf := b' }, none)
    | (b', .error err) => ({ st with buf := b' }, some err)
  | .list f t e el =>
    match st.buf.readNum e t with
    | (b', .error err) => ({ st with buf := b' }, some err)
    | (b', .ok n) =>
      if 0 < n.bits.toInt then rdloop o call el f n.bits.toNat ({ st with buf := b' }.put o f (.list []))
      else ({ st with buf := b' }, none)
  | .obj f c =>
    match st.look o f with
    | (st', some .null) => rdcall o call f (st'.put o f (fresh c))
    | (st', some _) => rdcall o call f st'
    | (st', none) => (st', some .illTyped)
  | .create f fac key =>
    match st.look o key with
    | (st', some k) =>
      match w.fac fac (keyOf k) with
      | some v => (st'.put o f v, none)
      | none => (st', some .illegalArgument)
    | (st', none) => (st', some .illTyped)
  | .call f => rdcall o call f st

/-- A statement sequence: stops at the first exception. [SseBinary.java:83-90, StringPacket.java:211-281] -/
def rdstmts (w : World) (o : Others) (call : DecCall) (tys : List FTy) : List DecStmt → RDSt → RDSt × Option JErr
  | [], st => (st, none)
  | s :: ss, st =>
    match rdstmt w o call tys s st with
    | (st', none) => rdstmts w o call tys ss st'
    | (st', some e) => (st', some e)

/-- `decode` on a message of class `c` with fields `fs`, while other threads do `o`. [SseBinary.java:83-90, StringPacket.java:211-281] -/
def rdecode (w : World) (o : Others) (n : Nat) (c : Cls) (fs : List Val) (b : RBuf) : RDSt × Option JErr :=
  rdstmts w o (decode w n) ((decl c).fields.map (·.2)) (decl c).dec ⟨fs, 0, b⟩

end FinProto
