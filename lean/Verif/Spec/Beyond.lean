import Verif.Spec.Suppliers
/-
Specification: the classes whose messages can end, on the wire, with text (C52).
-/
namespace FinProto

/-- Whether the last of these wire fields (given from the last to the first) can be text, when `part` says so of the classes of its parts.
A nested or polymorphic part may occupy no bytes at all, so the field in front of it counts too. -/
def textLast (part : Cls → Bool) : List WTy → Bool
  | [] => false
  | .num _ :: _ | .len _ :: _ | .cksum _ _ :: _ => false
  | .text _ _ _ :: _ | .vstr :: _ => true
  | .list (.num _) :: _ => false
  | .list (.text _ _ _) :: _ | .list .vstr :: _ => true
  | .list (.sub c) :: _ => part c
  | .sub c :: before => part c || textLast part before
  | .ext fac _ :: before => defaultRegs.any (fun r => decide (r.fac = fac) && part r.cls) || textLast part before

/-- The same for a class, looking at parts of parts up to the given depth. -/
def endsInTextUpTo : Nat → Cls → Bool
  | 0, _ => false
  | n + 1, c => textLast (endsInTextUpTo n) (wire c).reverse

/-- A message of class `c` can end, on the wire, with text: messages are nested three deep at most. -/
def endsInText (c : Cls) : Bool := endsInTextUpTo 3 c

end FinProto
