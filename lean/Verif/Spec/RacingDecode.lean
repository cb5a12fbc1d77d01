import Verif.Spec.Racing
import Verif.Model.RacingDecode
/-
Specification: what other threads assign to a field while a message is being decoded.
-/
namespace FinProto

/-- Fields that `decode` reads again after it has assigned them: lists, parts, and the message type or application identifier that selects the class of
a part. -/
def Reread (c : Cls) (f : Nat) : Prop :=
  (match (wire c)[f]? with
    | some (.list _) | some (.sub _) | some (.ext _ _) => True
    | _ => False)
  ∨ ∃ (i : Nat) (fac : Fac), (wire c)[i]? = some (WTy.ext fac f)

/-- The other threads call setters of other fields only. -/
def LeavesReread (c : Cls) (o : Others) : Prop := ∀ k, ∀ p ∈ o k, ¬ Reread c p.1

end FinProto
