import Verif.Model.ConcurrentRegistry
/-
What callers of the checksum registry in several threads expect: every call answers as if all calls had been made
one after the other.
-/
namespace FinProto

/-- The answer of a call when the calls in `history` (oldest first) were made before it, one after the other. -/
def RegCall.expected (history : List RegCall) : RegCall → RegAnswer
  | .registry s => .bool (registeredAfter history s.algorithm).isNone
  | .remove _ => .unit
  | .clear => .unit
  | .get n => .service (registeredAfter history n)

/-- Every call in the log (in order of return) answered as expected after the calls that returned before it. -/
def Sequential (past : List RegCall) (log : List RegDone) : Prop :=
  ∀ before d after, log = before ++ d :: after → d.answer = d.call.expected (past ++ before.map (·.call))

/-- The calls of thread `i` that have returned. -/
def doneBy (i : Nat) (log : List RegDone) : List RegCall := (log.filter fun d => d.thread = i).map (·.call)

/-- No algorithm is registered by two different threads. -/
def OneOwner (prog : Nat → List RegCall) : Prop :=
  ∀ i j s t, RegCall.registry s ∈ prog i → RegCall.registry t ∈ prog j → s.algorithm = t.algorithm → i = j

/-- No thread removes services. -/
def NoResets (prog : Nat → List RegCall) : Prop := ∀ i n, ∀ c ∈ prog i, c.resets n = false

end FinProto
