import Verif.Model.OpenObjects
import Verif.Spec.Objects
import Verif.Spec.Open
/-
What `equals`, `hashCode` and `toString` mean for messages that hold an object of the application.
-/
namespace FinProto

/-- Two objects in fields of interface type are the same object or equal, as the first one sees it. -/
def PartsEqual {U : Type} (L : Likeness U) : Option U → Option U → Prop
  | none, b => b = none
  | some a, none => L.eq a none = .ok true
  | some a, some b => L.same a b = true ∨ L.eq a (some b) = .ok true

/-- Comparing them throws `t`: they are not the same object, and `equals` of the first one throws. -/
def PartsThrow {U : Type} (L : Likeness U) (t : Thrown) : Option U → Option U → Prop
  | none, _ => False
  | some a, none => L.eq a none = .error t
  | some a, some b => L.same a b = false ∧ L.eq a (some b) = .error t

/-- Field `i` of two messages holds the same value. -/
def SameAt (fs gs : List Val) (i : Nat) : Prop := ∃ x y, fs[i]? = some x ∧ gs[i]? = some y ∧ same x y

/-- The contract of `java.lang.Object.equals` and `hashCode`, for the objects of the application. -/
structure Contract {U : Type} (L : Likeness U) : Prop where
  total : ∀ a o, ∃ r, L.eq a o = .ok r
  null : ∀ a, L.eq a none = .ok false
  refl : ∀ a, L.eq a (some a) = .ok true
  ident : ∀ a b, L.same a b = true → a = b
  symm : ∀ a b, L.eq a (some b) = .ok true → L.eq b (some a) = .ok true
  trans : ∀ a b c, L.eq a (some b) = .ok true → L.eq b (some c) = .ok true → L.eq a (some c) = .ok true

/-- … and of `hashCode`: equal objects have equal hash codes (or both throw the same). -/
def HashContract {U : Type} (L : Likeness U) : Prop := ∀ a b, L.eq a (some b) = .ok true → L.hash a = L.hash b

/-- The hash code a field of interface type counts with. -/
def partHash {U : Type} (L : Likeness U) : Option U → Except Thrown (BitVec 32)
  | none => .ok 0
  | some u => L.hash u

/-- The text a field of interface type prints as. -/
def partText {U : Type} (L : Likeness U) : Option U → Except Thrown JStr
  | none => .ok (js "null")
  | some u => (L.str u).map fun s => s.getD (js "null")

/-- Messages of the repository seen as objects of an application, with call-stack depth `n`; `==` is not assumed to
notice that two of them are one object. -/
def libraryParts (flt : Num → JStr) (n : Nat) : Likeness Val where
  same _ _ := false
  eq a o := .ok (a.equals (o.getD .null))
  hash a := (a.hashCode n).mapError .java
  str a := match a.toStr flt n with | some s => .ok (some s) | none => .error (.java .stackOverflow)

end FinProto
