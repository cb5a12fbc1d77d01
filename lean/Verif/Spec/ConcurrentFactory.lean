import Verif.Model.ConcurrentFactory
/-
Vocabulary for threads sharing the message factories.
-/
namespace FinProto

/-- The change a call makes. -/
def FacCall.op : FacCall → Option FacOp
  | .change op => some op
  | _ => none

/-- The changes in a log, oldest first. -/
def changes (log : List FacDone) : List FacOp := log.filterMap fun d => d.call.op

/-- The calls of thread `i` that have returned. -/
def facDoneBy (i : Nat) (log : List FacDone) : List FacCall := (log.filter fun d => d.thread = i).map (·.call)

/-- The change keeps a supplier under key `k` of factory `f` (it is not a removal or a null registration of that key). -/
def FacOp.keeps (f : Fac) (k : Key) (op : FacOp) : Prop := op.stores f k ≠ some none

/-- Two changes concern a common key of a factory, or the type of a common class. -/
def FacOp.clash (a b : FacOp) : Prop :=
  (∃ f k, (a.stores f k).isSome ∧ (b.stores f k).isSome) ∨ (∃ c, (a.types c).isSome ∧ (b.types c).isSome)

/-- Changes made by different threads concern different keys and classes. -/
def Separate (prog : Nat → List FacCall) : Prop :=
  ∀ i j a b, FacCall.change a ∈ prog i → FacCall.change b ∈ prog j → a.clash b → i = j

/-- What a call answers after the changes `history` (oldest first) were made one after the other. -/
def FacCall.expected (F : Factories) (history : List FacOp) : FacCall → FacAnswer
  | .change (.remove f k) => .bool (lastStored f k (F.map f k) history).isSome
  | .change _ => .unit
  | .create f k => .created (match lastStored f k (F.map f k) history with | some v => .ok v | none => .error .illegalArgument)
  | .getMsgType c => .type (match history.reverse.findSome? (FacOp.types c) with | some t => some t | none => F.getMsgType c)

end FinProto
