import Verif.Model.Basic
/-
Specification of a bitmap as a set of positions, in terms of the history of calls.
-/
namespace FinProto

/-- A modifying call on a bitmap. -/
inductive BmCall where
  | set (pos : Nat)
  | clear (pos : Nat)
  deriving DecidableEq

def BmCall.pos : BmCall → Nat
  | .set p => p
  | .clear p => p

/-- The last call that concerned a position: `some true` if it was `set`, `some false` if it was `clear`. -/
def lastCall (history : List BmCall) (p : Nat) : Option Bool :=
  (history.reverse.find? fun c => c.pos == p).map fun c => match c with
    | .set _ => true
    | .clear _ => false

/-- Runs a history on a bitmap content, given its `set` and `clear` methods. -/
def runBm {σ : Type} (set clear : σ → BitVec 32 → σ) (s : σ) (history : List BmCall) : σ :=
  history.foldl (fun s c => match c with
    | .set p => set s (BitVec.ofNat 32 p)
    | .clear p => clear s (BitVec.ofNat 32 p)) s

end FinProto
