import Verif.Model.Keys
import Verif.Spec.Kept
import Verif.Spec.Objects
import Verif.Spec.Wire
/-
Specification of C96: what a map with messages as keys has to answer, said with the values of the messages alone.
-/
namespace FinProto

/-- A call that changes the map, with the value its argument had at the time. -/
inductive KeyCall
  | put (v : Val) (k : Nat)
  | remove (v : Val)

open Classical in
/-- The value stored under `u` after these calls, the latest of them first: what the latest `put` with the same message (the same class and the same
values of all fields) stored, unless a `remove` with the same message came later. -/
noncomputable def valueOf (u : Val) : List KeyCall → Option Nat
  | [] => none
  | .put v k :: cs => if same v u then some k else valueOf u cs
  | .remove v :: cs => if same v u then none else valueOf u cs

/-- `x` is a message with the value `v` that can be used as a key: it has a hash code (C44: no message without fields in it), and the stack is large
enough for it. -/
def IsKey (n : Nat) (h : Heap) (v : Val) (x : HVal) : Prop :=
  Shows h v x ∧ wellTyped v = true ∧ hashable v = true ∧ height v ≤ n

/-- The operation leaves the objects alone of which the keys in the map consist: setters and list operations are called on other objects; so is
`decode`, with no nested message in common (`Inner`: the body of a frame is not among these, so the frame can be used again after its body has been
made a key); `encode` may be called on anything but a message that shares a frame with a key, because it sets the frame's length and checksum. -/
def Harmless (m : KeyMap) : AppOp → Prop
  | .new _ => True
  | .newList => True
  | .set r _ _ => ∀ e ∈ m.entries, ¬ Reach m.h e.key r
  | .list a _ => ∀ e ∈ m.entries, ¬ Reach m.h e.key a
  | .encode x _ => ∀ e ∈ m.entries, ∀ q c ys, Reach m.h e.key q → Reach m.h x q → m.h[q]? = some (.msg c ys) → hasComputed c = false
  | .decode r _ => ∀ e ∈ m.entries, ∀ q, Reach m.h e.key q → ¬ Inner m.h r q

/-- The states of a map, and the calls that led to them, the latest first: it is empty at the beginning, messages are put in and removed, and the
application does anything harmless with its objects in between. -/
inductive MapHistory (w : World) (n : Nat) : KeyMap → List KeyCall → Prop
  | start (h : Heap) : MapHistory w n ⟨h, []⟩ []
  | put (m : KeyMap) (cs : List KeyCall) (x : HVal) (v : Val) (k : Nat) :
      MapHistory w n m cs → IsKey n m.h v x → MapHistory w n (m.put n x k).1 (.put v k :: cs)
  | remove (m : KeyMap) (cs : List KeyCall) (x : HVal) (v : Val) :
      MapHistory w n m cs → IsKey n m.h v x → MapHistory w n (m.remove n x).1 (.remove v :: cs)
  | app (m : KeyMap) (cs : List KeyCall) (a : AppOp) :
      MapHistory w n m cs → Harmless m a → MapHistory w n ⟨a.run w n m.h, m.entries⟩ cs

end FinProto
