import Verif.Spec.Racing
import Verif.Spec.TypedHeap
import Verif.Model.RacingHeap
/-
Specification: what other threads make of the objects of a heap, and what a thread sees that reads them bit by bit.
-/
namespace FinProto

/-- The values other threads assign to field `f` of the object at `r` until just before access number `k`, in order. -/
def hassigned (o : HOthers) (r f k : Nat) : List HVal :=
  (((List.range k).flatMap o).filter fun p => p.1 == r && p.2.1 == f).map (·.2.2)

/-- Field `f` of the object at `r` after what the other threads did until just before access number `k`: the value assigned to it last. -/
def fieldAt (o : HOthers) (h : Heap) (r f k : Nat) : Option HVal :=
  (h.field r f).map fun y => ((hassigned o r f k).getLast?).getD y

/-- The other threads call no setters of lists and computed fields. -/
def HSpares (h : Heap) (o : HOthers) : Prop :=
  ∀ k, ∀ p ∈ o k, ∀ c ys, h[p.1]? = some (.msg c ys) → ¬ Touchy c p.2.1

/-- The other threads pass values of the declared types to setters. -/
def HTyped (h : Heap) (o : HOthers) : Prop :=
  ∀ k, ∀ p ∈ o k, ∀ c ys t, h[p.1]? = some (.msg c ys) → (javaTypes c)[p.2.1]? = some t → ValOf h t p.2.2

/-- No Java list has more elements. -/
def HListsFit (h : Heap) : Prop := ∀ (a : Nat) xs, h[a]? = some (.arr xs) → xs.length ≤ 2147483647

/-- `v` is what a thread may see of `x` that starts after `lo` accesses and has made `hi` in the end: each field of each message, and each element of each list, is
seen in an interval of its own, from `fr` to `to`; the value of the field is the one at the beginning of its interval; intervals of later fields and elements are
later.  Computed fields are taken from the heap as it was at first (nobody sets them, and `encode` does not look at them before it has computed them). -/
inductive Saw (o : HOthers) (h : Heap) : Nat → Nat → HVal → Val → Prop
  | null (lo hi : Nat) : Saw o h lo hi .null .null
  | num (lo hi : Nat) (n : Num) : Saw o h lo hi (.num n) (.num n)
  | str (lo hi : Nat) (s : JStr) : Saw o h lo hi (.str s) (.str s)
  | list (lo hi a : Nat) (xs : List HVal) (vs : List Val) (fr to : Nat → Nat) :
      h[a]? = some (.arr xs) → vs.length = xs.length →
      (∀ i, i < xs.length → lo < fr i ∧ fr i ≤ to i ∧ to i ≤ hi) →
      (∀ i j, i < j → j < xs.length → to i < fr j) →
      (∀ (i : Nat) x v, xs[i]? = some x → vs[i]? = some v → Saw o h (fr i) (to i) x v) →
      Saw o h lo hi (.ref a) (.list vs)
  | msg (lo hi r : Nat) (c : Cls) (ys : List HVal) (vs : List Val) (fr to : Nat → Nat) :
      h[r]? = some (.msg c ys) → vs.length = ys.length →
      (∀ f, f < (wire c).length → ¬ Computed c f → lo < fr f ∧ fr f ≤ to f ∧ to f ≤ hi) →
      (∀ f g, f < g → g < (wire c).length → ¬ Computed c f → ¬ Computed c g → to f < fr g) →
      (∀ (f : Nat) y v, f < (wire c).length → ¬ Computed c f → fieldAt o h r f (fr f) = some y → vs[f]? = some v → Saw o h (fr f) (to f) y v) →
      (∀ (f : Nat) y, Computed c f → h.field r f = some y → vs[f]? = some y.leaf) →
      Saw o h lo hi (.ref r) (.obj c vs)

end FinProto
