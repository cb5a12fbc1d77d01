import Verif.Model.AnyHeap
/-
`decode` into a message while other threads do anything whatever to the objects in memory.

As `hdecode`, with any change of the heap before each access to a field or a list.  `this.F.add(byteBuf.readXxx())` reads the field, then the buffer, then adds to the
list that was in the field.

Simplifications: `add` of a list is indivisible; the buffer is used by this thread only.
-/
namespace FinProto

/-- State of a running `decode`: the heap, the number of accesses so far, the buffer. [SseBinary.java:83-90] -/
structure ADSt where
  h : Heap
  k : Nat
  buf : RBuf

/-- Read `this.F`; `this` is at `r`. [SseBinary.java:87] -/
def ADSt.look (o : Acts) (r f : Nat) (st : ADSt) : ADSt × Option HVal :=
  ({ st with h := o st.k st.h, k := st.k + 1 }, (o st.k st.h).field r f)

/-- `this.F = y`. [SseBinary.java:84] -/
def ADSt.put (o : Acts) (r f : Nat) (y : HVal) (st : ADSt) : ADSt :=
  { st with h := (o st.k st.h).setField r f y, k := st.k + 1 }

/-- Add an element to the list that was read from a field; nothing if the class does not have the field, which cannot be written in Java (as `hadd`).
[NestedPacket.java:65] -/
def ADSt.add (o : Acts) (l : Option HVal) (y : HVal) (st : ADSt) : ADSt × Option JErr :=
  match l with
  | some (.ref a) =>
    match (o st.k st.h)[a]? with
    | some (.arr xs) => ({ st with h := (o st.k st.h).set a (.arr (xs ++ [y])), k := st.k + 1 }, none)
    | _ => ({ st with h := o st.k st.h, k := st.k + 1 }, some .illTyped)
  | some .null => (st, some .nullPointer)
  | none => (st, none)
  | _ => (st, some .illTyped)

/-- Type of "call decode on the message at this reference", with the accesses made before. [SseBinary.java:88, NestedPacket.java:58] -/
abbrev ADCall := Nat → Heap → Nat → RBuf → Heap × Nat × RBuf × Option JErr

/-- `a.decode(byteBuf)`. [SseBinary.java:88, NestedPacket.java:58] -/
def ADSt.call (call : ADCall) (a : Nat) (st : ADSt) : ADSt × Option JErr :=
  let x := call a st.h st.k st.buf
  (⟨x.1, x.2.1, x.2.2.1⟩, x.2.2.2)

/-- One iteration of the `for` loop that reads a list; order of the accesses as in `rdelem`. [NestedPacket.java:63-65, StringPacket.java:230-236] -/
def adelem (o : Acts) (call : ADCall) (r f : Nat) (el : DecElem) (st : ADSt) : ADSt × Option JErr :=
  match el with
  | .obj c =>
    match { st with h := st.h ++ [newMsg c] }.call call st.h.length with
    | (st', some err) => (st', some err)
    | (st', none) =>
      let x := st'.look o r f
      x.1.add o x.2 (.ref st.h.length)
  | .num t e =>
    let x := st.look o r f
    match st.buf.readNum e t with
    | (b', .error err) => ({ x.1 with buf := b' }, some err)
    | (b', .ok n) => { x.1 with buf := b' }.add o x.2 (.num n)
  | .fixed n pad left =>
    let x := st.look o r f
    match readFixedString st.buf n pad left with
    | (b', .error err) => ({ x.1 with buf := b' }, some err)
    | (b', .ok s) => { x.1 with buf := b' }.add o x.2 (.str s)
  | .dyn t e =>
    match st.buf.readNum e t with
    | (b', .error err) => ({ st with buf := b' }, some err)
    | (b', .ok n) =>
      if 0 < n.bits.toInt then
        let x := st.look o r f
        match b'.readText n.bits.toNat with
        | (b'', .error err) => ({ x.1 with buf := b'' }, some err)
        | (b'', .ok s) => { x.1 with buf := b'' }.add o x.2 (.str s)
      else ({ st with buf := b' }, none)

/-- The `for` loop that reads `m` elements of a list. [NestedPacket.java:62-66] -/
def adloop (o : Acts) (call : ADCall) (r f : Nat) (el : DecElem) : Nat → ADSt → ADSt × Option JErr
  | 0, st => (st, none)
  | m + 1, st =>
    match adelem o call r f el st with
    | (st', some err) => (st', some err)
    | (st', none) => adloop o call r f el m st'

/-- `this.F.decode(byteBuf)`. [SseBinary.java:88] -/
def adcall (o : Acts) (call : ADCall) (r f : Nat) (st : ADSt) : ADSt × Option JErr :=
  match st.look o r f with
  | (st', some .null) => (st', some .nullPointer)
  | (st', some (.ref a)) =>
    match st'.h[a]? with
    | some (.msg _ _) => st'.call call a
    | _ => (st', some .illTyped)
  | (st', _) => (st', some .illTyped)

/-- `this.F = Factory.getInstance().create(…)`: the supplier, then the assignment. [SseBinary.java:87] -/
def adcreate (o : Acts) (r f : Nat) (s : Supplier) (st : ADSt) : ADSt :=
  match s with
  | .make v => { st with h := (alloc v st.h).1 }.put o r f (alloc v st.h).2
  | .give x => st.put o r f x

/-- One `decode` statement of the message at `r`; as `hdecStmt`, with the accesses of the Java text. [SseBinary.java:83-90, StringPacket.java:211-281] -/
def adstmt (sup : Suppliers) (o : Acts) (call : ADCall) (r : Nat) (tys : List FTy) (s : DecStmt) (st : ADSt) : ADSt × Option JErr :=
  match s with
  | .num f t e =>
    match st.buf.readNum e t with
    | (b', .error err) => ({ st with buf := b' }, some err)
    | (b', .ok n) =>
      match tys[f]?.bind (assignNum · n) with
      | some (.num m) => ({ st with buf := b' }.put o r f (.num m), none)
      | _ => ({ st with buf := b' }, some .illTyped)
  | .fixed f n pad left =>
    match readFixedString st.buf n pad left with
    | (b', .ok s) => ({ st with buf := b' }.put o r f (.str s), none)
    | (b', .error err) => ({ st with buf := b' }, some err)
  | .dyn f t e =>
    match readDyn st.buf t e with
    | (b', .ok (some s)) => ({ st with buf := b' }.put o r f (.str s), none)
    | (b', .ok none) => ({ st with buf := b' }, none)
    | (b', .error err) => ({ st with buf := b' }, some err)
  | .list f t e el =>
    match st.buf.readNum e t with
    | (b', .error err) => ({ st with buf := b' }, some err)
    | (b', .ok n) =>
      if 0 < n.bits.toInt then
        adloop o call r f el n.bits.toNat (ADSt.put o r f (.ref st.h.length) ⟨st.h ++ [.arr []], st.k, b'⟩)
      else ({ st with buf := b' }, none)
  | .obj f c =>
    match st.look o r f with
    | (st', some .null) => adcall o call r f (ADSt.put o r f (.ref st'.h.length) ⟨st'.h ++ [newMsg c], st'.k, st'.buf⟩)
    | (st', _) => adcall o call r f st'
  | .create f fac key =>
    match st.look o r key with
    | (st', some k) =>
      match sup fac (keyOf k.leaf) with
      | some s => (adcreate o r f s st', none)
      | none => (st', some .illegalArgument)
    | (st', none) => (st', some .illTyped)
  | .call f => adcall o call r f st

/-- A statement sequence: stops at the first exception. [SseBinary.java:83-90, StringPacket.java:211-281] -/
def adstmts (sup : Suppliers) (o : Acts) (call : ADCall) (r : Nat) (tys : List FTy) : List DecStmt → ADSt → ADSt × Option JErr
  | [], st => (st, none)
  | s :: ss, st =>
    match adstmt sup o call r tys s st with
    | (st', none) => adstmts sup o call r tys ss st'
    | (st', some e) => (st', some e)

/-- `decode` of the message at `r` while other threads do `o`; the numbers are the call-stack depth left, the message and the accesses made before.
[SseBinary.java:83-90, StringPacket.java:211-281] -/
def adecode (sup : Suppliers) (o : Acts) : Nat → Nat → Heap → Nat → RBuf → Heap × Nat × RBuf × Option JErr
  | 0, _, h, k, b => (h, k, b, some .stackOverflow)
  | n + 1, r, h, k, b =>
    match h[r]? with
    | some (.msg c _) =>
      let x := adstmts sup o (adecode sup o n) r ((decl c).fields.map (·.2)) (decl c).dec ⟨h, k, b⟩
      (x.1.h, x.1.k, x.1.buf, x.2)
    | _ => (h, k, b, some .illTyped)

end FinProto
