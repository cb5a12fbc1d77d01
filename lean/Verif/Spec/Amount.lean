import Verif.Spec.Wire
/-
Specification: how much data an object holds.
-/
namespace FinProto

mutual
/-- Number of characters (UTF-16 units) in all texts of the object. -/
def Val.chars : Val → Nat
  | .str s => s.length
  | .list xs => charsAll xs
  | .obj _ fs => charsAll fs
  | _ => 0
def charsAll : List Val → Nat
  | [] => 0
  | v :: vs => v.chars + charsAll vs
end

mutual
/-- Number of list elements, over all lists at all levels of the object. -/
def Val.elements : Val → Nat
  | .list xs => xs.length + elementsAll xs
  | .obj _ fs => elementsAll fs
  | _ => 0
def elementsAll : List Val → Nat
  | [] => 0
  | v :: vs => v.elements + elementsAll vs
end

mutual
/-- Number of values of which the object consists: itself, its fields and their elements, at all levels. -/
def Val.nodes : Val → Nat
  | .list xs => 1 + nodesAll xs
  | .obj _ fs => 1 + nodesAll fs
  | _ => 1
def nodesAll : List Val → Nat
  | [] => 0
  | v :: vs => v.nodes + nodesAll vs
end

end FinProto
