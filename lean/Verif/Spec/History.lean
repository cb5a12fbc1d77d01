import Verif.Model.History
import Verif.Spec.TypedHeap
/-
Specification: which operations a program accepted by the Java compiler can do (without unchecked casts).
-/
namespace FinProto

/-- The arguments have the declared types; a thread does one call at a time. -/
def Op.Legal (p : Proc) : Op → Prop
  | .set r f x => ∃ c ys t, p.h[r]? = some (.msg c ys) ∧ (javaTypes c)[f]? = some t ∧ ValOf p.h t x
      ∧ ∀ e a, t = .list e → x = .ref a → ∀ e', Holds p.h a e' → e' = e
  | .put a xs => (∃ zs, p.h[a]? = some (.arr zs)) ∧ ∀ e, Holds p.h a e → ∀ x ∈ xs, ElOf p.h e x
  | .call i (.enc x _) => (p.thr i).finished ∧ ValOf p.h .codec x
  | .call i (.dec r _) => (p.thr i).finished ∧ ∃ c ys, p.h[r]? = some (.msg c ys)
  | .suppliers sup => TypedSups p.h sup
  | _ => True

/-- Every operation is legal when it happens. -/
def Legal (n : Nat) : Proc → List Op → Prop
  | _, [] => True
  | p, o :: os => o.Legal p ∧ Legal n (p.after n o) os

/-- The exception of the call of a thread, if any, is one of those documented. -/
def Worker.throwsOk : Worker → Prop
  | .enc t => EncThrows t.err
  | .dec t => DecThrows t.err

end FinProto
