import Verif.Spec.Wire
/-
Specification: messages that differ only in null against empty strings.
-/
namespace FinProto

mutual
/-- The message with every empty string, at any level, replaced by null. -/
def emptyToNull : Val → Val
  | .str s => match s with | [] => .null | c :: cs => .str (c :: cs)
  | .list xs => .list (emptyToNulls xs)
  | .obj c fs => .obj c (emptyToNulls fs)
  | .num n => .num n
  | .null => .null
def emptyToNulls : List Val → List Val
  | [] => []
  | v :: vs => emptyToNull v :: emptyToNulls vs
end

end FinProto
