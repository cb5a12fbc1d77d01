import Verif.Spec.Wire
import Verif.Spec.Objects
/-
Specification: what a field nobody has set looks like on the wire.
-/
namespace FinProto

/-- What a field holds that was not set: zero or null. -/
def unset : FTy → Val
  | .prim t => .num ⟨t, 0⟩
  | .str | .list _ | .obj _ | .codec => .null

/-- The bytes of a field that was not set: zeros for numbers and counts, padding for texts of fixed width (nothing if the padding is on the left: C01),
nothing for absent messages. -/
def emptyField (k : Conv) : WTy → List Byte
  | .num t | .len t | .cksum t _ => List.replicate t.size 0
  | .text n pad left => if left then [] else List.replicate n (pad.setWidth 8)
  | .vstr => List.replicate k.strLen.size 0
  | .list _ => List.replicate k.listLen.size 0
  | .sub _ | .ext _ _ => []

/-- The bytes of fields that were not set, one behind the other. -/
def emptyFields (k : Conv) (ts : List WTy) : List Byte := ts.flatMap (emptyField k)

end FinProto
