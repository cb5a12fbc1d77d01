import Verif.Spec.Wire
/-
Specification of the part of a message that the sender does not compute.
-/
namespace FinProto

/-- Is a field of this type computed by the sender when the given checksum services are registered? -/
def computedBy (svc : Registry) : WTy → Bool
  | .len _ => true
  | .cksum _ alg => (svc alg).isSome
  | _ => false

mutual
/-- The message with zeros in the fields the sender computes: lengths, and checksums whose algorithm is registered. -/
def content (svc : Registry) : Val → Val
  | .obj c fs => .obj c (contentFields svc (wire c) fs)
  | v => v
def contentFields (svc : Registry) (ts : List WTy) : List Val → List Val
  | [] => []
  | v :: vs => match ts with | [] => v :: vs | t :: ts => contentField svc t v :: contentFields svc ts vs
def contentField (svc : Registry) (t : WTy) : Val → Val
  | .num n => if computedBy svc t then .num (.int 0) else .num n
  | .list xs => .list (contentElems svc xs)
  | .obj c fs => .obj c (contentFields svc (wire c) fs)
  | v => v
def contentElems (svc : Registry) : List Val → List Val
  | [] => []
  | v :: vs => contentElem svc v :: contentElems svc vs
def contentElem (svc : Registry) : Val → Val
  | .obj c fs => .obj c (contentFields svc (wire c) fs)
  | v => v
end

end FinProto
