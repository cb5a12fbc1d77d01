import Verif.Model.Heap
import Verif.Model.ObjectMethods
/-
`equals`, `hashCode` and `toString` of messages on the heap (tables `eqs`, `hash`, `str` of each class, as in `ObjectMethods.lean`): the
arguments may be the same object, share parts or contain cycles.  The number is the remaining call-stack depth; the methods of a list or
message and the `Objects.…`/`String.valueOf` call around it together count as one level, and so does a call on null, a number or a string.
-/
namespace FinProto

/-! ### equals -/

/-- The loop of `ArrayList.equals` (JDK 11, `equalsArrayList`), after the sizes have been compared.
[NestedPacket.java:89] -/
def hequalsAll (eq : HVal → HVal → Except JErr Bool) : List HVal → List HVal → Except JErr Bool
  | x :: xs, y :: ys =>
    match eq x y with
    | .ok true => hequalsAll eq xs ys
    | o => o
  | _, _ => .ok true

/-- The conjunction of `Objects.equals(this.f, other.g)` over the listed pairs of fields, from left to right, e.g. SseBinary.java:105-109. -/
def hequalsFields (eq : HVal → HVal → Except JErr Bool) (fs gs : List HVal) : List (Nat × Nat) → Except JErr Bool
  | [] => .ok true
  | p :: ps =>
    match fs[p.1]?, gs[p.2]? with
    | some a, some b =>
      match eq a b with
      | .ok true => hequalsFields eq fs gs ps
      | o => o
    | _, _ => .error .illTyped

/-- `Objects.equals(x, y)`: the same reference, or `x` is not null and `x.equals(y)`.  For messages, e.g. SseBinary.java:97-110: same object, else
not null and of the same class, else the fields; for lists the same with sizes and elements; for boxed numbers and strings their values. -/
def hequals (h : Heap) : Nat → HVal → HVal → Except JErr Bool
  | 0, _, _ => .error .stackOverflow
  | _ + 1, .null, y => .ok (match y with | .null => true | _ => false)
  | _ + 1, .num a, y => .ok (match y with | .num b => a.eqv b | _ => false)
  | _ + 1, .str s, y => .ok (match y with | .str t => decide (s = t) | _ => false)
  | n + 1, .ref r, .ref q =>
    if r = q then .ok true
    else
      match h[r]?, h[q]? with
      | some (.msg c fs), some (.msg d gs) => if c = d then hequalsFields (hequals h n) fs gs (decl c).eqs else .ok false
      | some (.arr xs), some (.arr ys) => if xs.length = ys.length then hequalsAll (hequals h n) xs ys else .ok false
      | some _, some _ => .ok false
      | _, _ => .error .illTyped
  | _ + 1, .ref r, _ => match h[r]? with | some _ => .ok false | none => .error .illTyped

/-! ### hashCode -/

/-- `Arrays.hashCode` / `ArrayList.hashCode`, as `hashSeq`. [NestedPacket.java:76] -/
def hhashSeq (f : HVal → Except JErr (BitVec 32)) : BitVec 32 → List HVal → Except JErr (BitVec 32)
  | k, [] => .ok k
  | k, x :: xs =>
    match f x with
    | .ok i => hhashSeq f (31 * k + i) xs
    | .error e => .error e

/-- Look up the listed fields. [SseBinary.java:93-95] -/
def hpick (fs : List HVal) : List Nat → Option (List HVal)
  | [] => some []
  | i :: is =>
    match fs[i]?, hpick fs is with
    | some v, some vs => some (v :: vs)
    | _, _ => none

/-- `Objects.hashCode(x)`, as `Val.hashCode`; e.g. SseBinary.java:92-95. -/
def hhash (h : Heap) : Nat → HVal → Except JErr (BitVec 32)
  | 0, _ => .error .stackOverflow
  | _ + 1, .null => .ok 0
  | _ + 1, .num n => .ok n.hash
  | _ + 1, .str s => .ok (strHash s)
  | n + 1, .ref r =>
    match h[r]? with
    | some (.arr xs) => hhashSeq (hhash h n) 1 xs
    | some (.msg c fs) =>
      match (decl c).hash with
      | .self => hhash h n (.ref r)
      | .fields is =>
        match hpick fs is with
        | some vs => hhashSeq (hhash h n) 1 vs
        | none => .error .illTyped
    | none => .error .illTyped

/-! ### toString -/

/-- `String.valueOf(x)`, as `Val.toStr` (`none`: StackOverflowError); e.g. SseBinary.java:112-127.  `AbstractCollection.toString` prints
an element that is the list itself as `(this Collection)`. -/
def htoStr (h : Heap) (flt : Num → JStr) : Nat → HVal → Option JStr
  | 0, _ => none
  | _ + 1, .null => some (js "null")
  | _ + 1, .num n => some (n.toStr flt)
  | _ + 1, .str s => some s
  | n + 1, .ref r =>
    match h[r]? with
    | some (.arr xs) =>
      (allSome (fun x => if x = .ref r then some (js "(this Collection)") else htoStr h flt n x) xs).map fun ss =>
        js "[" ++ joinComma ss ++ js "]"
    | some (.msg c fs) =>
      (allSome (fun p => match p with
        | StrPart.lit s => some (js s)
        | .field i => match fs[i]? with | some v => htoStr h flt n v | none => none) (decl c).str).map List.flatten
    | none => none

end FinProto
