import Verif.Spec.Wire
import Verif.Model.Racing
/-
Specification: what other threads make of the fields of a message, and the messages `encode` may have seen.
-/
namespace FinProto

/-- Fields whose value `encode` computes, and lists. -/
def Touchy (c : Cls) (f : Nat) : Prop :=
  match (wire c)[f]? with
  | some (.len _) | some (.cksum _ _) | some (.list _) => True
  | _ => False

/-- Fields whose value `encode` computes: lengths and checksums. -/
def Computed (c : Cls) (f : Nat) : Prop :=
  match (wire c)[f]? with
  | some (.len _) | some (.cksum _ _) => True
  | _ => False

/-- The other threads call setters of other fields only. -/
def Spares (c : Cls) (o : Others) : Prop := ∀ k, ∀ p ∈ o k, ¬ Touchy c p.1

/-- The values other threads assign to field `f` from just before access number `i` on until just before access number `j`, in order. -/
def assigned (o : Others) (f i j : Nat) : List Val :=
  (((List.range' i (j - i)).flatMap o).filter fun p => p.1 == f).map (·.2)

/-- The last of some values, or else `v`. -/
def lastOr (v : Val) (vs : List Val) : Val := vs.getLast?.getD v

/-- The fields of the message after what the other threads did until just before access number `k`: each field has the value assigned to it last. -/
def fieldsAt (o : Others) (fs : List Val) (k : Nat) : List Val :=
  (List.range fs.length).map fun f => lastOr (fs[f]?.getD .null) (assigned o f 0 k)

/-- The message with each field as it was at a moment of its own. -/
def mixture (o : Others) (fs : List Val) (when : Nat → Nat) : List Val :=
  (List.range fs.length).map fun f => ((fieldsAt o fs (when f))[f]?).getD .null

/-- No Java list has more elements. -/
def ListsFit (fs : List Val) : Prop := ∀ xs, Val.list xs ∈ fs → xs.length ≤ 2147483647

end FinProto
