import Verif.Model.Access
import Verif.Spec.AtOnce
import Verif.Spec.Wire
/-
Specification for data races (Java Language Specification, 17.4.1 and 17.4.5).
-/
namespace FinProto

/-- Two accesses conflict: same place, at least one is a write. -/
def Conflict (a b : Access) : Prop := a.place = b.place ∧ (a.write = true ∨ b.write = true)

/-- The job is a call of `encode`. -/
def Job.isEncode : Job → Bool
  | .enc _ _ => true
  | .dec _ _ => false

/-- An object that two threads can reach is reached by calls of `encode` only, and is not of a class that computes fields while encoding (a frame).
References lead to existing objects. -/
def Compatible (h : Heap) (jobs : Nat → Job) : Prop :=
  (∀ i j, i ≠ j → ∀ q, Reach h (jobs i).root q → Reach h (jobs j).root q →
    (jobs i).isEncode = true ∧ (jobs j).isEncode = true ∧ ∀ c ys, h[q]? = some (.msg c ys) → hasComputed c = false)
  ∧ ∀ i q, Reach h (jobs i).root q → q < h.length

/-- The heaps have the same objects, with possibly different contents. -/
def SameObjects (h k : Heap) : Prop :=
  k.length = h.length ∧ ∀ q : Nat, match h[q]?, k[q]? with
    | some (.msg c ys), some (.msg d zs) => d = c ∧ zs.length = ys.length
    | some (.arr _), some (.arr _) => True
    | none, none => True
    | _, _ => False

end FinProto
