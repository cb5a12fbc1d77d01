import Verif.Model.ConcurrentBitMap
/-
Specification: what threads may expect of a bit map they share.
-/
namespace FinProto

/-- The changes made by these calls. -/
def changesIn (log : List BmDone) : List BmCall := log.filterMap fun d => match d.op with
  | .change c => some c
  | .get _ => none

/-- Every `get` in the log answered as if the calls had been made one after the other in the order of the log, from the contents `s` on. -/
def OneByOne {σ : Type} (K : BmClass σ) (s : σ) (log : List BmDone) : Prop :=
  ∀ (before after : List BmDone) (i p : Nat) (a : Option Bool), log = before ++ ⟨i, .get p, a⟩ :: after →
    a = some (K.get (runBm K.set K.clear s (changesIn before)) (BitVec.ofNat 32 p))

/-- Only thread `j` changes the bit map. -/
def OneWriter (prog : Nat → List BmOp) (j : Nat) : Prop := ∀ i c, BmOp.change c ∈ prog i → i = j

/-- The calls a thread has completed. -/
def bmDoneBy (i : Nat) (log : List BmDone) : List BmOp := (log.filter fun d => d.thread = i).map BmDone.op

end FinProto
