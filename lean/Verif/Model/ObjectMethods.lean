import Verif.Model.Interp
/-
`equals`, `hashCode`, `toString`, getters and setters of the message classes
(tables `eqs`, `hash`, `str`, `acc` of each class; the Java text of these methods is identical up to names in all
classes and cited there).
-/
namespace FinProto

/-- `Float.floatToIntBits`: every NaN becomes 0x7FC00000. [BasicPacket.java:20] -/
def canon32 (v : BitVec 32) : BitVec 32 :=
  if v &&& 0x7F800000#32 = 0x7F800000#32 ∧ v &&& 0x007FFFFF#32 ≠ 0 then 0x7FC00000#32 else v

/-- `Double.doubleToLongBits`: every NaN becomes 0x7FF8000000000000. [BasicPacket.java:21] -/
def canon64 (v : BitVec 64) : BitVec 64 :=
  if v &&& 0x7FF0000000000000#64 = 0x7FF0000000000000#64 ∧ v &&& 0x000FFFFFFFFFFFFF#64 ≠ 0 then
    0x7FF8000000000000#64 else v

/-- The bit pattern boxed `equals`/`hashCode` look at. [SseBinary.java:94, SseBinary.java:106] -/
def Num.canon (n : Num) : Num :=
  match n with
  | ⟨.f32, v⟩ => ⟨.f32, canon32 v⟩
  | ⟨.f64, v⟩ => ⟨.f64, canon64 v⟩
  | n => n

/-- `Integer.equals`, `Float.equals`, ... on boxed primitives. [SseBinary.java:106-108] -/
def Num.eqv (a b : Num) : Bool := decide (a.canon = b.canon)

mutual
/-- `Objects.equals(a, b)` on field values: nulls, boxed `equals`, `String.equals`, `List.equals`, and the
message classes' own `equals` (`getClass() != obj.getClass()` → false; then `Objects.equals` on the
field pairs in `eqs`). [SseBinary.java:98-111] -/
def Val.equals : Val → Val → Bool
  | .null, b => match b with | .null => true | _ => false
  | .num x, b => match b with | .num y => x.eqv y | _ => false
  | .str x, b => match b with | .str y => decide (x = y) | _ => false
  | .list xs, b => match b with | .list ys => Val.equalsList xs ys | _ => false
  | .obj c fs, b =>
    match b with
    | .obj d gs => decide (c = d) && (decl c).eqs.all fun p =>
        match (Val.equalsFns fs)[p.1]?, gs[p.2]? with
        | some e, some y => e y
        | _, _ => false
    | _ => false
/-- `List.equals`: same length and pairwise equal elements. [NestedPacket.java:89] -/
def Val.equalsList : List Val → List Val → Bool
  | [], ys => ys.isEmpty
  | x :: xs, ys => match ys with | [] => false | y :: ys => Val.equals x y && Val.equalsList xs ys
/-- The functions "is equal to field i". [SseBinary.java:106-110] -/
def Val.equalsFns : List Val → List (Val → Bool)
  | [] => []
  | x :: xs => (fun y => Val.equals x y) :: Val.equalsFns xs
end

/-- `String.hashCode`. [StringPacket.java:285-297] -/
def strHash (s : JStr) : BitVec 32 := s.foldl (fun h c => 31 * h + c.setWidth 32) 0

/-- `Long.hashCode`: `(int) (v ^ (v >>> 32))`. [SseBinary.java:93-95] -/
def longHash (v : BitVec 64) : BitVec 32 := (v ^^^ (v >>> 32)).setWidth 32

/-- `Byte/Short/Integer/Long/Float/Double.hashCode`. [SseBinary.java:93-95] -/
def Num.hash (n : Num) : BitVec 32 :=
  match n.canon with
  | ⟨.i8, v⟩ => v.signExtend 32
  | ⟨.i16, v⟩ => v.signExtend 32
  | ⟨.i32, v⟩ => v
  | ⟨.i64, v⟩ => longHash v
  | ⟨.f32, v⟩ => v
  | ⟨.f64, v⟩ => longHash v

/-- `Arrays.hashCode` / `List.hashCode`: `h = 31 * h + hash(e)`, starting from `h`.
[SseBinary.java:93-95, NestedPacket.java:76] -/
def hashSeq (f : Val → Except JErr (BitVec 32)) : BitVec 32 → List Val → Except JErr (BitVec 32)
  | h, [] => .ok h
  | h, v :: vs =>
    match f v with
    | .ok k => hashSeq f (31 * h + k) vs
    | .error e => .error e

/-- Look up the listed fields. [SseBinary.java:93-95] -/
def pick (fs : List Val) : List Nat → Option (List Val)
  | [] => some []
  | i :: is =>
    match fs[i]?, pick fs is with
    | some v, some vs => some (v :: vs)
    | _, _ => none

/-- `hashCode()` with the given remaining stack depth; null hashes to 0 (`Objects.hash`).
[SseBinary.java:93-95] -/
def Val.hashCode : Nat → Val → Except JErr (BitVec 32)
  | 0, _ => .error .stackOverflow
  | _ + 1, .null => .ok 0
  | _ + 1, .num n => .ok n.hash
  | _ + 1, .str s => .ok (strHash s)
  | n + 1, .list xs => hashSeq (Val.hashCode n) 1 xs
  | n + 1, .obj c fs =>
    match (decl c).hash with
    | .self => Val.hashCode n (.obj c fs)
    | .fields is =>
      match pick fs is with
      | some vs => hashSeq (Val.hashCode n) 1 vs
      | none => .error .illTyped

/-- Decimal digits of a natural number as Java chars (the least significant digit last); `fuel` ≥
number of digits. [SseBinary.java:117] -/
def digits : Nat → Nat → JStr
  | 0, _ => []
  | fuel + 1, n => if n < 10 then [BitVec.ofNat 16 (48 + n)] else digits fuel (n / 10) ++ [BitVec.ofNat 16 (48 + n % 10)]

/-- `Byte/Short/Integer/Long.toString` of a signed value (at most 20 digits).
[SseBinary.java:117-121] -/
def intStr (i : Int) : JStr := if i < 0 then js "-" ++ digits 20 i.natAbs else digits 20 i.natAbs

/-- String conversion of a primitive.  `flt` is `Float.toString`/`Double.toString` (not modelled, a
parameter). [SseBinary.java:117-121] -/
def Num.toStr (flt : Num → JStr) (n : Num) : JStr :=
  if n.ty.isInt then intStr n.bits.toInt else flt n

/-- Elements separated by `", "`, as `AbstractCollection.toString` does. [NestedPacket.java:99] -/
def joinComma : List JStr → JStr
  | [] => []
  | [s] => s
  | s :: t :: r => s ++ js ", " ++ joinComma (t :: r)

/-- All results of a partial function, or none. [NestedPacket.java:99] -/
def allSome {α β : Type} (f : α → Option β) : List α → Option (List β)
  | [] => some []
  | x :: xs => match f x, allSome f xs with | some y, some ys => some (y :: ys) | _, _ => none

/-- String conversion of a field value with the given remaining stack depth (`none`:
StackOverflowError). [SseBinary.java:114-127] -/
def Val.toStr (flt : Num → JStr) : Nat → Val → Option JStr
  | 0, _ => none
  | _ + 1, .null => some (js "null")
  | _ + 1, .num n => some (n.toStr flt)
  | _ + 1, .str s => some s
  | n + 1, .list xs => (allSome (Val.toStr flt n) xs).map fun ss => js "[" ++ joinComma ss ++ js "]"
  | n + 1, .obj c fs =>
    (allSome (fun p => match p with
      | StrPart.lit s => some (js s)
      | .field i => match fs[i]? with | some v => Val.toStr flt n v | none => none) (decl c).str).map List.flatten

/-- `getX()` where X is property number `p` of class `c`. [SseBinary.java:20-22] -/
def getProp (c : Cls) (p : Nat) (fs : List Val) : Option Val :=
  match (decl c).acc[p]? with
  | some a => fs[a.2.1]?
  | none => none

/-- `setX(v)` where X is property number `p` of class `c`. [SseBinary.java:24-26] -/
def setProp (c : Cls) (p : Nat) (v : Val) (fs : List Val) : List Val :=
  match (decl c).acc[p]? with
  | some a => fs.set a.2.2 v
  | none => fs

end FinProto
