import Verif.Model.Heap
import Verif.Spec.Layout
/-
Specification for messages on the heap: what an object shows when its references are followed, and which objects it consists of.
-/
namespace FinProto

mutual
/-- Following all references from `x` in the heap `h` gives the value `v` (a finite tree, so there are no cycles behind `x`; the same
object may be met several times). -/
def Shows (h : Heap) : Val → HVal → Prop
  | .null, x => x = .null
  | .num n, x => x = .num n
  | .str s, x => x = .str s
  | .list xs, x => ∃ a ys, x = .ref a ∧ h[a]? = some (.arr ys) ∧ ShowsAll h xs ys
  | .obj c fs, x => ∃ r ys, x = .ref r ∧ h[r]? = some (.msg c ys) ∧ ShowsAll h fs ys
def ShowsAll (h : Heap) : List Val → List HVal → Prop
  | [], ys => ys = []
  | v :: vs, ys => ∃ z zs, ys = z :: zs ∧ Shows h v z ∧ ShowsAll h vs zs
end

/-- The values an object refers to directly. -/
def HObj.values : HObj → List HVal
  | .msg _ ys => ys
  | .arr ys => ys

/-- The object at `q` can be reached from `x`. -/
inductive Reach (h : Heap) : HVal → Nat → Prop
  | here (r : Nat) : Reach h (.ref r) r
  | step (r q : Nat) (o : HObj) (y : HVal) : h[r]? = some o → y ∈ o.values → Reach h y q → Reach h (.ref r) q

mutual
/-- All objects met when following the references from `x`, as often as they are met (`v` is the value shown). -/
def refs (h : Heap) : Val → HVal → List Nat
  | .list xs, .ref a => a :: (match h[a]? with | some (.arr ys) => refsAll h xs ys | _ => [])
  | .obj _ fs, .ref r => r :: (match h[r]? with | some (.msg _ ys) => refsAll h fs ys | _ => [])
  | _, _ => []
def refsAll (h : Heap) : List Val → List HVal → List Nat
  | v :: vs, y :: ys => refs h v y ++ refsAll h vs ys
  | _, _ => []
end

mutual
/-- The message itself and the messages met when following only message-valued fields (not lists) from `x`. -/
def parts (h : Heap) : Val → HVal → List Nat
  | .obj _ fs, .ref r => r :: (match h[r]? with | some (.msg _ ys) => partsAll h fs ys | _ => [])
  | _, _ => []
def partsAll (h : Heap) : List Val → List HVal → List Nat
  | v :: vs, y :: ys => parts h v y ++ partsAll h vs ys
  | _, _ => []
end

/-- The object `x` shows `v` and no object occurs in it twice. -/
def Unshared (h : Heap) (v : Val) (x : HVal) : Prop := Shows h v x ∧ (refs h v x).Nodup

/-- The field of the class that is computed by `encode` when the checksum algorithms of `svc` are available: the byte count of the body, or
the checksum of one of these algorithms. -/
def fieldComputed (svc : Registry) (c : Cls) (f : Nat) : Bool :=
  match (layout c)[f]? with
  | some (_, .len _) => true
  | some (_, .cksum _ alg) => (Registry.getService svc alg).isSome
  | _ => false

/-- The two heaps hold the same objects, except for the values of computed fields. -/
def SameButComputed (svc : Registry) (h h' : Heap) : Prop :=
  h'.length = h.length ∧ (∀ (a : Nat) ys, h[a]? = some (.arr ys) → h'[a]? = some (.arr ys))
    ∧ ∀ (r : Nat) c ys, h[r]? = some (.msg c ys) → ∃ ys', h'[r]? = some (.msg c ys') ∧ ys'.length = ys.length
        ∧ ∀ f, fieldComputed svc c f = false → ys'[f]? = ys[f]?

end FinProto
