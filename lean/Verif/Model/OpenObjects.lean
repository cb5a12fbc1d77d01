import Verif.Model.Open
import Verif.Model.ObjectMethods
/-
`equals`, `hashCode` and `toString` of messages whose field of interface type (`body`, `payload`, `applExtend`) holds an object of
the application: the methods of `ObjectMethods.lean`, with calls of that object's own methods, which may do anything a Java method
may do except change the message.  (Simplification: the other fields hold what the classes of the repository put there.)
-/
namespace FinProto

/-- The application's objects as far as these methods see them: the comparison `==`, and their `equals` (of another object or of
null), `hashCode` and `toString` (whose result may be null), each of which may throw.
[SseBinary.java:94, SseBinary.java:109, SseBinary.java:124] -/
structure Likeness (U : Type) where
  same : U → U → Bool
  eq : U → Option U → Except Thrown Bool
  hash : U → Except Thrown (BitVec 32)
  str : U → Except Thrown (Option JStr)

/-- Is field `i` the one of interface type? [SseBinary.java:14-18] -/
def isPart (c : Cls) (i : Nat) : Bool :=
  match (decl c).fields[i]? with
  | some f => f.2 == .codec
  | none => false

/-- `Objects.equals(a, b)`, that is `a == b || (a != null && a.equals(b))`, on the fields of
interface type. [SseBinary.java:109] -/
def oeqPart {U : Type} (L : Likeness U) : Option U → Option U → Except Thrown Bool
  | none, none => .ok true
  | none, some _ => .ok false
  | some a, none => L.eq a none
  | some a, some b => if L.same a b then .ok true else L.eq a (some b)

/-- One conjunct `Objects.equals(x, orther_.y)`. [SseBinary.java:106-110] -/
def oeqField {U : Type} (L : Likeness U) (c : Cls) (m m' : OMsg U) (p : Nat × Nat) : Except Thrown Bool :=
  if isPart c p.1 && isPart c p.2 then oeqPart L m.part m'.part
  else
    match m.fs[p.1]?, m'.fs[p.2]? with
    | some x, some y => .ok (x.equals y)
    | _, _ => .error (.java .illTyped)

/-- `a && b && …`: stops at the first `false` and at the first exception. [SseBinary.java:106-110] -/
def oeqAll {U : Type} (L : Likeness U) (c : Cls) (m m' : OMsg U) : List (Nat × Nat) → Except Thrown Bool
  | [] => .ok true
  | p :: ps =>
    match oeqField L c m m' p with
    | .ok true => oeqAll L c m m' ps
    | .ok false => .ok false
    | .error t => .error t

/-- `m.equals(m')`, where `this_` says whether they are one object. [SseBinary.java:98-111] -/
def oequals {U : Type} (L : Likeness U) (this_ : Bool) (c : Cls) (m : OMsg U) (d : Cls) (m' : OMsg U) : Except Thrown Bool :=
  if this_ then .ok true
  else if c ≠ d then .ok false
  else oeqAll L c m m' (decl c).eqs

/-- The hash code of one argument of `Objects.hash`; `n` is the call-stack depth left.
[SseBinary.java:93-95] -/
def ohashField {U : Type} (L : Likeness U) (n : Nat) (c : Cls) (m : OMsg U) (i : Nat) : Except Thrown (BitVec 32) :=
  if isPart c i then
    match m.part with
    | none => .ok 0
    | some u => L.hash u
  else
    match m.fs[i]? with
    | some v => (v.hashCode n).mapError .java
    | none => .error (.java .illTyped)

/-- `Arrays.hashCode`: `h = 31 * h + hash(e)`, stops at the first exception. [SseBinary.java:93-95] -/
def ohashSeq {U : Type} (L : Likeness U) (n : Nat) (c : Cls) (m : OMsg U) : BitVec 32 → List Nat → Except Thrown (BitVec 32)
  | h, [] => .ok h
  | h, i :: is =>
    match ohashField L n c m i with
    | .ok k => ohashSeq L n c m (31 * h + k) is
    | .error t => .error t

/-- `m.hashCode()`.  The classes without fields, whose `hashCode` calls itself, have no field of
interface type. [SseBinary.java:93-95] -/
def ohashCode {U : Type} (L : Likeness U) (n : Nat) (c : Cls) (m : OMsg U) : Except Thrown (BitVec 32) :=
  match (decl c).hash with
  | .self => .error (.java .stackOverflow)
  | .fields is => ohashSeq L n c m 1 is

/-- The text of one operand of the string concatenation; an object whose `toString` returns null
prints as null. [SseBinary.java:114-127] -/
def ostrPart {U : Type} (flt : Num → JStr) (L : Likeness U) (n : Nat) (c : Cls) (m : OMsg U) : StrPart → Except Thrown JStr
  | .lit s => .ok (js s)
  | .field i =>
    if isPart c i then
      match m.part with
      | none => .ok (js "null")
      | some u =>
        match L.str u with
        | .ok (some s) => .ok s
        | .ok none => .ok (js "null")
        | .error t => .error t
    else
      match m.fs[i]? with
      | some v =>
        match v.toStr flt n with
        | some s => .ok s
        | none => .error (.java .stackOverflow)
      | none => .error (.java .illTyped)

/-- The concatenation; operands are converted from left to right and the first exception ends it.
[SseBinary.java:114-127] -/
def ostrParts {U : Type} (flt : Num → JStr) (L : Likeness U) (n : Nat) (c : Cls) (m : OMsg U) : List StrPart → Except Thrown JStr
  | [] => .ok []
  | p :: ps =>
    match ostrPart flt L n c m p with
    | .error t => .error t
    | .ok s =>
      match ostrParts flt L n c m ps with
      | .ok r => .ok (s ++ r)
      | .error t => .error t

/-- `m.toString()`. [SseBinary.java:114-127] -/
def otoString {U : Type} (flt : Num → JStr) (L : Likeness U) (n : Nat) (c : Cls) (m : OMsg U) : Except Thrown JStr :=
  ostrParts flt L n c m (decl c).str

end FinProto
