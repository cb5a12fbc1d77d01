import Verif.Model.HeapObjects
import Verif.Model.Heap
/-
Messages as keys of a `java.util.HashMap` (and so as elements of a `HashSet`, which is one): the only use of `hashCode` by code outside the messages
(e.g. SseBinary.java:92-110 are the methods called).

The map is modelled after JDK 11: every entry keeps the hash code its key had when it was put in; an operation computes the hash code of its
argument first, and then compares the argument with the keys that have this hash code, first by reference and then by `equals`, in the order in which
they came in.  Simplifications: the array of buckets is one list (keys in other buckets have other hash codes, so nobody compares them); long
buckets stay lists (a tree finds a key by the same comparisons, in another order); the values are numbers.
-/
namespace FinProto

/-- An entry of the map (`HashMap.Node`): the hash code, the key, the value. [the application's map
calls SseBinary.java:93-111] -/
structure Entry where
  hash : BitVec 32
  key : HVal
  val : Nat

/-- `e.hash == hash && (e.key == x || x.equals(e.key))` (`HashMap.getNode`); for messages see SseBinary.java:97-110. -/
def Entry.hit (h : Heap) (n : Nat) (hash : BitVec 32) (x : HVal) (e : Entry) : Except JErr Bool :=
  if e.hash = hash then if e.key = x then .ok true else hequals h n x e.key else .ok false

/-- `HashMap.getNode`: the value of the first entry that is hit. [the application's map calls
SseBinary.java:93-111] -/
def getIn (h : Heap) (n : Nat) (hash : BitVec 32) (x : HVal) : List Entry → Except JErr (Option Nat)
  | [] => .ok none
  | e :: es =>
    match e.hit h n hash x with
    | .error err => .error err
    | .ok true => .ok (some e.val)
    | .ok false => getIn h n hash x es

/-- `HashMap.putVal`: the first entry that is hit gets the new value and keeps its key; if there is none, a new entry comes last.  The answer is the
old value. [the application's map calls SseBinary.java:93-111] -/
def putIn (h : Heap) (n : Nat) (hash : BitVec 32) (x : HVal) (k : Nat) : List Entry → Except JErr (List Entry × Option Nat)
  | [] => .ok ([⟨hash, x, k⟩], none)
  | e :: es =>
    match e.hit h n hash x with
    | .error err => .error err
    | .ok true => .ok ({ e with val := k } :: es, some e.val)
    | .ok false =>
      match putIn h n hash x k es with
      | .error err => .error err
      | .ok (es', old) => .ok (e :: es', old)

/-- `HashMap.removeNode`: the first entry that is hit goes.  The answer is its value. [the
application's map calls SseBinary.java:93-111] -/
def removeIn (h : Heap) (n : Nat) (hash : BitVec 32) (x : HVal) : List Entry → Except JErr (List Entry × Option Nat)
  | [] => .ok ([], none)
  | e :: es =>
    match e.hit h n hash x with
    | .error err => .error err
    | .ok true => .ok (es, some e.val)
    | .ok false =>
      match removeIn h n hash x es with
      | .error err => .error err
      | .ok (es', old) => .ok (e :: es', old)

/-- The objects of the process and the entries of one map. [the application's map calls
SseBinary.java:93-111] -/
structure KeyMap where
  h : Heap
  entries : List Entry

/-- `map.get(x)`; `n` is the size of the call stack. [the application's map calls
SseBinary.java:93-111] -/
def KeyMap.get (n : Nat) (m : KeyMap) (x : HVal) : Except JErr (Option Nat) :=
  match hhash m.h n x with
  | .error e => .error e
  | .ok k => getIn m.h n k x m.entries

/-- `map.put(x, v)`: the map afterwards, and the answer. [the application's map calls
SseBinary.java:93-111] -/
def KeyMap.put (n : Nat) (m : KeyMap) (x : HVal) (v : Nat) : KeyMap × Except JErr (Option Nat) :=
  match hhash m.h n x with
  | .error e => (m, .error e)
  | .ok k =>
    match putIn m.h n k x v m.entries with
    | .error e => (m, .error e)
    | .ok (es, old) => (⟨m.h, es⟩, .ok old)

/-- `map.remove(x)`: the map afterwards, and the answer. [the application's map calls
SseBinary.java:93-111] -/
def KeyMap.remove (n : Nat) (m : KeyMap) (x : HVal) : KeyMap × Except JErr (Option Nat) :=
  match hhash m.h n x with
  | .error e => (m, .error e)
  | .ok k =>
    match removeIn m.h n k x m.entries with
    | .error e => (m, .error e)
    | .ok (es, old) => (⟨m.h, es⟩, .ok old)

/-- What the application does with messages in between. [SseBinary.java:20-90] -/
inductive AppOp
  | new (c : Cls)                          -- `new C()`
  | newList                                -- `new ArrayList<>()`
  | set (r f : Nat) (y : HVal)             -- a setter, e.g. SseBinary.java:25-27
  | list (a : Nat) (ys : List HVal)        -- any change of a list: `ys` are its elements afterwards
  | encode (x : HVal) (b : WBuf)           -- `x.encode(b)`, e.g. SseBinary.java:55-73
  | decode (r : Nat) (b : RBuf)            -- `r.decode(b)`, e.g. SseBinary.java:75-90

/-- The objects afterwards. [SseBinary.java:20-90] -/
def AppOp.run (w : World) (n : Nat) (h : Heap) : AppOp → Heap
  | .new c => h ++ [newMsg c]
  | .newList => h ++ [.arr []]
  | .set r f y => h.setField r f y
  | .list a ys => h.set a (.arr ys)
  | .encode x b => (hencode w n x h b).1
  | .decode r b => (hdecode w.suppliers n r h b).1

end FinProto
