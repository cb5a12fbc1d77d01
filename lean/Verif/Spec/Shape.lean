import Verif.Model.Interp
/-
Specification for C87: what of a message decides about the size of its encoding.
-/
namespace FinProto

mutual
/-- The same shape: messages of the same class, lists of the same length, texts whose UTF-8 forms are equally long, numbers of the same Java type; null only with null. -/
def sameShape : Val → Val → Prop
  | .null, b => b = .null
  | .num x, b => ∃ y, b = .num y ∧ x.ty = y.ty
  | .str s, b => ∃ t, b = .str t ∧ (utf8Enc s).length = (utf8Enc t).length
  | .list xs, b => ∃ ys, b = .list ys ∧ sameShapes xs ys
  | .obj c fs, b => ∃ gs, b = .obj c gs ∧ sameShapes fs gs
/-- Equally many values, of the same shape in the same positions. -/
def sameShapes : List Val → List Val → Prop
  | [], ys => ys = []
  | x :: xs, ys => ∃ z zs, ys = z :: zs ∧ sameShape x z ∧ sameShapes xs zs
end

/-- Room that is left in a buffer. -/
def WBuf.room (b : WBuf) : Nat := b.maxCap - b.data.length

end FinProto
