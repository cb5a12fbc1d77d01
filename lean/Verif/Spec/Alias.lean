import Verif.Spec.Heap
/-
Specification: what a message shows once one of the objects it consists of shows something else (C81).
-/
namespace FinProto

mutual
/-- The value `v` shown by `x` in the heap `h`, with `u` wherever the object `r` is met. -/
def swapped (h : Heap) (r : Nat) (u : Val) : Val → HVal → Val
  | .list xs, .ref a =>
    if a = r then u else .list (match h[a]? with | some (.arr ys) => swappedAll h r u xs ys | _ => xs)
  | .obj c fs, .ref q =>
    if q = r then u else .obj c (match h[q]? with | some (.msg _ ys) => swappedAll h r u fs ys | _ => fs)
  | v, _ => v
def swappedAll (h : Heap) (r : Nat) (u : Val) : List Val → List HVal → List Val
  | v :: vs, y :: ys => swapped h r u v y :: swappedAll h r u vs ys
  | vs, _ => vs
end

end FinProto
