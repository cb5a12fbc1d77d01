import Verif.Model.HeapObjects
/-
`equals`, `hashCode` and `toString` of messages on the heap while other threads do anything whatever to the objects in memory, at any depth.

As `HeapObjects.lean`, with the accesses to fields and lists one by one, in the order of the Java text.  Access number `k` finds the memory `M k`; nothing is
assumed about how the memories at different accesses are related, so this covers stale and torn reads as well.  The three methods assign nothing, so the memories
are given and are not changed by them.

`hashCode` reads all fields before it hashes the first (`Objects.hash` is called with an array of them), `toString` converts each field right after it was read
(the classes are compiled for Java 8, where `+` on strings is a `StringBuilder`), `equals` reads a field of `this`, then of the other message, then compares them.

Simplifications: the size of a list is one access and each element is one, and that the size does not change meanwhile is not checked (`ArrayList` throws
`ConcurrentModificationException` in such a case; here the methods go on, or end with `illTyped` when the element is no longer there).
-/
namespace FinProto

/-- The memory that each access finds. [SseBinary.java:93-127] -/
abbrev Memory := Nat → Heap

/-- Element `i` of the list at `a`. [NestedPacket.java:89] -/
def Heap.item (h : Heap) (a i : Nat) : Option HVal :=
  match h[a]? with
  | some (.arr xs) => xs[i]?
  | _ => none

/-! ### hashCode -/

/-- The arguments of `Objects.hash`: the listed fields of the message at `r`, the first read by access `k`. [SseBinary.java:94] -/
def gread (M : Memory) (r : Nat) : List Nat → Nat → Option (List HVal)
  | [], _ => some []
  | f :: fs, k =>
    match (M k).field r f, gread M r fs (k + 1) with
    | some y, some ys => some (y :: ys)
    | _, _ => none

/-- `Arrays.hashCode` of the array of arguments, which nobody else knows. [SseBinary.java:94] -/
def ghashSeq (f : HVal → Nat → Except JErr (BitVec 32) × Nat) : BitVec 32 → List HVal → Nat → Except JErr (BitVec 32) × Nat
  | s, [], k => (.ok s, k)
  | s, x :: xs, k =>
    match f x k with
    | (.ok i, k') => ghashSeq f (31 * s + i) xs k'
    | (.error e, k') => (.error e, k')

/-- The loop of `ArrayList.hashCode` of the list at `a`: `m` elements are left, the next is number `i`. [NestedPacket.java:76] -/
def ghashList (M : Memory) (f : HVal → Nat → Except JErr (BitVec 32) × Nat) (a : Nat) : Nat → Nat → BitVec 32 → Nat → Except JErr (BitVec 32) × Nat
  | 0, _, s, k => (.ok s, k)
  | m + 1, i, s, k =>
    match (M k).item a i with
    | none => (.error .illTyped, k + 1)
    | some x =>
      match f x (k + 1) with
      | (.ok j, k') => ghashList M f a m (i + 1) (31 * s + j) k'
      | (.error e, k') => (.error e, k')

/-- `Objects.hashCode(x)`, as `hhash`, from access `k` on; the result, and the number of the next access. [SseBinary.java:92-95] -/
def ghash (M : Memory) : Nat → HVal → Nat → Except JErr (BitVec 32) × Nat
  | 0, _, k => (.error .stackOverflow, k)
  | _ + 1, .null, k => (.ok 0, k)
  | _ + 1, .num n, k => (.ok n.hash, k)
  | _ + 1, .str s, k => (.ok (strHash s), k)
  | n + 1, .ref r, k =>
    match (M k)[r]? with
    | some (.arr xs) => ghashList M (ghash M n) r xs.length 0 1 (k + 1)
    | some (.msg c _) =>
      match (decl c).hash with
      | .self => ghash M n (.ref r) k
      | .fields is =>
        match gread M r is k with
        | some ys => ghashSeq (ghash M n) 1 ys (k + is.length)
        | none => (.error .illTyped, k + is.length)
    | none => (.error .illTyped, k)

/-! ### toString -/

/-- The operands of `+`, from left to right; `f` is string conversion. [SseBinary.java:115-126] -/
def gparts (M : Memory) (f : HVal → Nat → Option JStr × Nat) (r : Nat) : List StrPart → Nat → Option (List JStr) × Nat
  | [], k => (some [], k)
  | .lit s :: ps, k =>
    match gparts M f r ps k with
    | (some ss, k') => (some (js s :: ss), k')
    | (none, k') => (none, k')
  | .field i :: ps, k =>
    match (M k).field r i with
    | none => (none, k + 1)
    | some y =>
      match f y (k + 1) with
      | (none, k') => (none, k')
      | (some s, k') =>
        match gparts M f r ps k' with
        | (some ss, k'') => (some (s :: ss), k'')
        | (none, k'') => (none, k'')

/-- The loop of `AbstractCollection.toString` for the list at `a`: `m` elements are left, the next is number `i`. [NestedPacket.java:99] -/
def gitems (M : Memory) (f : HVal → Nat → Option JStr × Nat) (a : Nat) : Nat → Nat → Nat → Option (List JStr) × Nat
  | 0, _, k => (some [], k)
  | m + 1, i, k =>
    match (M k).item a i with
    | none => (none, k + 1)
    | some x =>
      match (if x = .ref a then (some (js "(this Collection)"), k + 1) else f x (k + 1)) with
      | (none, k') => (none, k')
      | (some s, k') =>
        match gitems M f a m (i + 1) k' with
        | (some ss, k'') => (some (s :: ss), k'')
        | (none, k'') => (none, k'')

/-- `String.valueOf(x)`, as `htoStr`, from access `k` on (`none`: StackOverflowError). [SseBinary.java:112-127] -/
def gtoStr (M : Memory) (flt : Num → JStr) : Nat → HVal → Nat → Option JStr × Nat
  | 0, _, k => (none, k)
  | _ + 1, .null, k => (some (js "null"), k)
  | _ + 1, .num n, k => (some (n.toStr flt), k)
  | _ + 1, .str s, k => (some s, k)
  | n + 1, .ref r, k =>
    match (M k)[r]? with
    | some (.arr xs) =>
      let a := gitems M (gtoStr M flt n) r xs.length 0 (k + 1)
      (a.1.map fun ss => js "[" ++ joinComma ss ++ js "]", a.2)
    | some (.msg c _) =>
      let a := gparts M (gtoStr M flt n) r (decl c).str k
      (a.1.map List.flatten, a.2)
    | none => (none, k)

/-! ### equals -/

/-- `Objects.equals(this.F, orther_.F) && ...` for the messages at `r` and `q`. [SseBinary.java:106-110] -/
def gequalsFields (M : Memory) (eq : HVal → HVal → Nat → Except JErr Bool × Nat) (r q : Nat) : List (Nat × Nat) → Nat → Except JErr Bool × Nat
  | [], k => (.ok true, k)
  | p :: ps, k =>
    match (M k).field r p.1, (M (k + 1)).field q p.2 with
    | some x, some y =>
      match eq x y (k + 2) with
      | (.ok true, k') => gequalsFields M eq r q ps k'
      | o => o
    | _, _ => (.error .illTyped, k + 2)

/-- The loop of `ArrayList.equals` for the lists at `a` and `b`: `m` elements are left, the next is number `i`. [NestedPacket.java:89] -/
def gequalsAll (M : Memory) (eq : HVal → HVal → Nat → Except JErr Bool × Nat) (a b : Nat) : Nat → Nat → Nat → Except JErr Bool × Nat
  | 0, _, k => (.ok true, k)
  | m + 1, i, k =>
    match (M k).item a i, (M (k + 1)).item b i with
    | some x, some y =>
      match eq x y (k + 2) with
      | (.ok true, k') => gequalsAll M eq a b m (i + 1) k'
      | o => o
    | _, _ => (.error .illTyped, k + 2)

/-- `Objects.equals(x, y)`, as `hequals`, from access `k` on. [SseBinary.java:97-110] -/
def gequals (M : Memory) : Nat → HVal → HVal → Nat → Except JErr Bool × Nat
  | 0, _, _, k => (.error .stackOverflow, k)
  | _ + 1, .null, y, k => (.ok (match y with | .null => true | _ => false), k)
  | _ + 1, .num a, y, k => (.ok (match y with | .num b => a.eqv b | _ => false), k)
  | _ + 1, .str s, y, k => (.ok (match y with | .str t => decide (s = t) | _ => false), k)
  | n + 1, .ref r, .ref q, k =>
    if r = q then (.ok true, k)
    else
      match (M k)[r]?, (M (k + 1))[q]? with
      | some (.msg c _), some (.msg d _) => if c = d then gequalsFields M (gequals M n) r q (decl c).eqs (k + 2) else (.ok false, k + 2)
      | some (.arr xs), some (.arr ys) => if xs.length = ys.length then gequalsAll M (gequals M n) r q xs.length 0 (k + 2) else (.ok false, k + 2)
      | some _, some _ => (.ok false, k + 2)
      | _, _ => (.error .illTyped, k + 2)
  | _ + 1, .ref r, _, k => match (M k)[r]? with | some _ => (.ok false, k + 1) | none => (.error .illTyped, k + 1)

end FinProto
