import Verif.Spec.Heap
import Verif.Spec.Wire
/-
Specification of C97: the objects `decode` may write to.
-/
namespace FinProto

/-- `q` is the message `r` itself, or a nested message of it, that is, it is met when following, from `r`, only fields declared with a message class
(such as `SubPacket subPacket`, and not `BinaryCodec body` or a list). -/
inductive Inner (h : Heap) : Nat → Nat → Prop
  | here (r : Nat) : Inner h r r
  | field (r q : Nat) (c d : Cls) (ys : List HVal) (f a : Nat) :
      h[r]? = some (.msg c ys) → (javaTypes c)[f]? = some (.obj d) → ys[f]? = some (.ref a) → Inner h a q → Inner h r q

/-- The object `q` is the message decoded into, or nested in it, or the same for an object that a supplier hands out again and again. -/
def MayChange (sup : Suppliers) (h : Heap) (r q : Nat) : Prop :=
  Inner h r q ∨ ∃ fac k a, sup fac k = some (.give (.ref a)) ∧ Inner h a q

/-- One message object is decoded into again and again, from one buffer after the other (also when one of the calls throws). -/
def decodeAll (sup : Suppliers) (n r : Nat) (bs : List RBuf) (h : Heap) : Heap := bs.foldl (fun h b => (hdecode sup n r h b).1) h

end FinProto
