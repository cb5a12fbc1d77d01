import Verif.Model.AnyDecode
import Verif.Model.AnyObjects
/-
A program that makes, fills, reads, compares, prints, encodes and decodes messages, run by one thread while other threads do anything whatever to the objects in memory.

The program decides what to do next from all that it has seen so far: the values it has read, and how its calls have ended.  It has a list of values it knows, those it
started with and those it has seen, and can use only these: there is no other way in Java to get hold of an object.

Simplifications: as in `AnyHeap.lean`, `AnyDecode.lean` and `AnyObjects.lean`; the program is not checked for types, so it can do more than one that the compiler accepts; an operation
on something of the wrong type ends with an error.
-/
namespace FinProto

/-- What the program can do; `i` and `j` say which of the values it knows are meant. [SubPacket.java:10-82] -/
inductive OwnOp where
  | leaf (y : Num ⊕ JStr)
  | null
  | new (c : Cls)
  | newList
  | get (i f : Nat)
  | set (i f j : Nat)
  | size (i : Nat)
  | item (i m : Nat)
  | add (i j : Nat)
  | encode (i : Nat) (b : WBuf)
  | decode (i : Nat) (b : RBuf)
  | equals (i j : Nat)
  | hashCode (i : Nat)
  | toString (i : Nat)

/-- What it sees: a value, the size of a list, the end of an operation, the buffer and the exception of a call, what `equals`,
`hashCode` or `toString` gave (no text: `StackOverflowError`). [SubPacket.java:10-82] -/
inductive Sight where
  | value (y : HVal)
  | count (m : Nat)
  | threw (e : Option JErr)
  | wrote (b : WBuf) (e : Option JErr)
  | read (b : RBuf) (e : Option JErr)
  | compared (r : Except JErr Bool)
  | hashed (r : Except JErr (BitVec 32))
  | printed (t : Option JStr)

/-- State of the program: the heap, the number of accesses so far, the values it knows, what it has seen. [SubPacket.java:10-82] -/
structure BusySt where
  h : Heap
  k : Nat
  env : List HVal
  log : List Sight

/-- The program learns a value. [SubPacket.java:14-16] -/
def BusySt.learn (y : HVal) (st : BusySt) : BusySt := { st with env := st.env ++ [y], log := st.log ++ [.value y] }

/-- The program sees something. [SubPacket.java:14-16] -/
def BusySt.see (s : Sight) (st : BusySt) : BusySt := { st with log := st.log ++ [s] }

/-- Before an access, the others do something. [SubPacket.java:15] -/
def BusySt.wait (o : Acts) (st : BusySt) : BusySt := { st with h := o st.k st.h, k := st.k + 1 }

/-- The error of an operation on something that is not an object. [SubPacket.java:14-16] -/
def notObject : Option HVal → JErr
  | some .null => .nullPointer
  | _ => .illTyped

/-- What others make of the memory `h` in their next `d` actions, from number `k` on. [SubPacket.java:15] -/
def lapse (o : Acts) (h : Heap) (k : Nat) : Nat → Heap
  | 0 => h
  | d + 1 => o (k + d) (lapse o h k d)

/-- The memory that each access of a call that only reads finds, from number `k` on. [SubPacket.java:55-81] -/
def lapses (o : Acts) (h : Heap) (k : Nat) : Memory := fun j => lapse o h k (j + 1 - k)

/-- After a call that only reads and has made its last access before number `k`. [SubPacket.java:55-81] -/
def BusySt.till (o : Acts) (k : Nat) (st : BusySt) : BusySt := { st with h := lapse o st.h st.k (k - st.k), k := k }

/-- One operation; `flt` is the text of a `float` or `double`. [SubPacket.java:10-82: constructor, getters, setters, encode, decode, hashCode, equals, toString;
NestedPacket.java:62-66: lists] -/
def busyStep (w : World) (flt : Num → JStr) (o : Acts) (n : Nat) (op : OwnOp) (st : BusySt) : BusySt :=
  match op with
  | .leaf (.inl m) => st.learn (.num m)
  | .leaf (.inr s) => st.learn (.str s)
  | .null => st.learn .null
  | .new c => { st with h := st.h ++ [newMsg c] }.learn (.ref st.h.length)
  | .newList => { st with h := st.h ++ [HObj.arr []] }.learn (.ref st.h.length)
  | .get i f =>
    match st.env[i]? with
    | some (.ref a) =>
      let st := st.wait o
      match st.h.field a f with
      | some y => st.learn y
      | none => st.see (.threw (some .illTyped))
    | y => st.see (.threw (some (notObject y)))
  | .set i f j =>
    match st.env[i]?, st.env[j]? with
    | some (.ref a), some y =>
      let st := st.wait o
      { st with h := st.h.setField a f y }.see (.threw none)
    | y, _ => st.see (.threw (some (notObject y)))
  | .size i =>
    match st.env[i]? with
    | some (.ref a) =>
      let st := st.wait o
      match st.h[a]? with
      | some (.arr xs) => st.see (.count xs.length)
      | _ => st.see (.threw (some .illTyped))
    | y => st.see (.threw (some (notObject y)))
  | .item i m =>
    match st.env[i]? with
    | some (.ref a) =>
      let st := st.wait o
      match st.h[a]? with
      | some (.arr xs) =>
        match xs[m]? with
        | some y => st.learn y
        | none => st.see (.threw (some .indexOutOfBounds))
      | _ => st.see (.threw (some .illTyped))
    | y => st.see (.threw (some (notObject y)))
  | .add i j =>
    match st.env[i]?, st.env[j]? with
    | some (.ref a), some y =>
      let st := st.wait o
      match st.h[a]? with
      | some (.arr xs) => { st with h := st.h.set a (.arr (xs ++ [y])) }.see (.threw none)
      | _ => st.see (.threw (some .illTyped))
    | y, _ => st.see (.threw (some (notObject y)))
  | .encode i b =>
    match st.env[i]? with
    | some x =>
      let r := aencode w o n x st.h st.k b
      { st with h := r.1, k := r.2.1 }.see (.wrote r.2.2.1 r.2.2.2)
    | none => st.see (.threw (some .illTyped))
  | .decode i b =>
    match st.env[i]? with
    | some (.ref a) =>
      let r := adecode w.suppliers o n a st.h st.k b
      { st with h := r.1, k := r.2.1 }.see (.read r.2.2.1 r.2.2.2)
    | y => st.see (.threw (some (notObject y)))
  | .equals i j =>
    match st.env[i]?, st.env[j]? with
    | some (.ref a), some y =>
      let r := gequals (lapses o st.h st.k) n (.ref a) y st.k
      (st.till o r.2).see (.compared r.1)
    | y, _ => st.see (.threw (some (notObject y)))
  | .hashCode i =>
    match st.env[i]? with
    | some (.ref a) =>
      let r := ghash (lapses o st.h st.k) n (.ref a) st.k
      (st.till o r.2).see (.hashed r.1)
    | y => st.see (.threw (some (notObject y)))
  | .toString i =>
    match st.env[i]? with
    | some (.ref a) =>
      let r := gtoStr (lapses o st.h st.k) flt n (.ref a) st.k
      (st.till o r.2).see (.printed r.1)
    | y => st.see (.threw (some (notObject y)))

/-- The program `p` does `m` operations. [SubPacket.java:10-82] -/
def busyRun (w : World) (flt : Num → JStr) (o : Acts) (n : Nat) (p : List Sight → OwnOp) : Nat → BusySt → BusySt
  | 0, st => st
  | m + 1, st => busyRun w flt o n p m (busyStep w flt o n (p st.log) st)

end FinProto
