import Verif.Model.ConcurrentDecode
import Verif.Spec.Heap
/-
Specification for threads working at the same time: what a caller of `encode` or `decode` gets.
-/
namespace FinProto

/-- The object a job is about. -/
def Job.root : Job → HVal
  | .enc x _ => x
  | .dec r _ => .ref r

/-- What the caller has when the call ends: the buffer (with its indices) and the exception, if any. -/
inductive Outcome
  | enc (b : WBuf) (e : Option JErr)
  | dec (b : RBuf) (e : Option JErr)

/-- What the caller of a finished call has. -/
def Worker.outcome : Worker → Outcome
  | .enc t => .enc t.buf t.err
  | .dec t => .dec t.buf t.err

/-- The job done alone: the heap afterwards and what the caller has. -/
def Job.alone (w : World) (sup : Suppliers) (n : Nat) (h : Heap) : Job → Heap × Outcome
  | .enc x b => let o := hencode w n x h b; (o.1, .enc o.2.1 o.2.2)
  | .dec r b => let o := hdecode sup n r h b; (o.1, .dec o.2.1 o.2.2)

/-- No object is reached by two threads, and references lead to existing objects. -/
def Apart (h : Heap) (jobs : Nat → Job) : Prop :=
  (∀ i j, i ≠ j → ∀ q, Reach h (jobs i).root q → ¬ Reach h (jobs j).root q) ∧ ∀ i q, Reach h (jobs i).root q → q < h.length

end FinProto
