import Verif.Model.Heap
import Verif.Spec.Wire
/-
Specification: heaps in which every variable holds a value of its declared Java type.  Messages may be shared, contain themselves, or be
incomplete.
-/
namespace FinProto

/-- `x` can be an element of a `List<e>`. -/
inductive ElOf (h : Heap) : ElTy → HVal → Prop
  | null (e : ElTy) : ElOf h e .null
  | num {n : Num} {p : PTy} : n.ty = p → ElOf h (.prim p) (.num n)
  | str (s : JStr) : ElOf h .str (.str s)
  | obj {r : Nat} {c : Cls} {ys : List HVal} : h[r]? = some (.msg c ys) → ElOf h (.obj c) (.ref r)

/-- `x` can be the value of a field of type `t`. -/
inductive ValOf (h : Heap) : FTy → HVal → Prop
  | null {t : FTy} : (∀ p, t ≠ .prim p) → ValOf h t .null
  | num {n : Num} {p : PTy} : n.ty = p → ValOf h (.prim p) (.num n)
  | str (s : JStr) : ValOf h .str (.str s)
  | list {a : Nat} {e : ElTy} {xs : List HVal} : h[a]? = some (.arr xs) → (∀ x ∈ xs, ElOf h e x) → ValOf h (.list e) (.ref a)
  | obj {r : Nat} {c : Cls} {ys : List HVal} : h[r]? = some (.msg c ys) → ValOf h (.obj c) (.ref r)
  | codec {r : Nat} {c : Cls} {ys : List HVal} : h[r]? = some (.msg c ys) → ValOf h .codec (.ref r)

/-- A field of type `List<e>` holds the list at `a`. -/
def Holds (h : Heap) (a : Nat) (e : ElTy) : Prop :=
  ∃ (r : Nat) (c : Cls) (ys : List HVal) (f : Nat), h[r]? = some (.msg c ys) ∧ (javaTypes c)[f]? = some (.list e) ∧ ys[f]? = some (.ref a)

/-- Every message has the fields of its class, with values of their types; no list is at the same time a `List<e>` and a `List<e'>`. -/
structure TypedHeap (h : Heap) : Prop where
  fields : ∀ (r : Nat) c ys, h[r]? = some (.msg c ys) →
    ys.length = (javaTypes c).length ∧ ∀ (f : Nat) t y, (javaTypes c)[f]? = some t → ys[f]? = some y → ValOf h t y
  lists : ∀ a e e', Holds h a e → Holds h a e' → e = e'

/-- A supplier that returns a message or null. -/
def SupplierOf (h : Heap) : Supplier → Prop
  | .make v => v = .null ∨ wellTyped v = true
  | .give x => ValOf h .codec x

/-- All suppliers return messages or null. -/
def TypedSups (h : Heap) (sup : Suppliers) : Prop := ∀ fac key s, sup fac key = some s → SupplierOf h s

/-- The exceptions `encode` may throw. -/
def EncThrows (e : Option JErr) : Prop := e = none ∨ e = some .indexOutOfBounds ∨ e = some .nullPointer ∨ e = some .stackOverflow

/-- The exceptions `decode` may throw. -/
def DecThrows (e : Option JErr) : Prop :=
  e = none ∨ e = some .indexOutOfBounds ∨ e = some .illegalArgument ∨ e = some .nullPointer ∨ e = some .stackOverflow

end FinProto
