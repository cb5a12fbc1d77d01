import Verif.Spec.AnyDecode
import Verif.Spec.AnyConfined
/-
Specification: other threads set numbers and texts of the message that is decoded into.
-/
namespace FinProto

/-- A number or text that does not select a body. -/
def Simple (c : Cls) (f : Nat) : Prop := ¬ Steers c f ∧ ¬ Held c f

/-- `x` and `y` are the same list, or messages of one class that have the same in all fields, except that fields of `x` that are numbers or texts may have values in `V`. -/
def SameBut (V : Nat → HVal → Prop) : Option HObj → Option HObj → Prop
  | none, none => True
  | some (.arr xs), some (.arr ys) => xs = ys
  | some (.msg c ys), some (.msg d zs) => c = d ∧ ys.length = zs.length ∧ ∀ f, ys[f]? = zs[f]? ∨ Simple c f ∧ ∃ y, ys[f]? = some y ∧ V f y
  | _, _ => False

/-- The other threads set only numbers and texts of the objects that `x` consists of, and of new ones, and only to values in `V` (message, field and value), which are not
references; to all other objects they may do anything. -/
def Lightly (h : Heap) (x : HVal) (V : Nat → Nat → HVal → Prop) (o : Acts) : Prop :=
  (∀ q f a, Mine h x q → ¬ V q f (.ref a)) ∧ ∀ k g, (o k g).length = g.length ∧ ∀ q, Mine h x q → SameBut (V q) (o k g)[q]? g[q]?

mutual
/-- Following all references from `x` gives the value `v`, except that numbers and texts may have values in `V` (message, field and value). -/
def ShowsBut (h : Heap) (V : Nat → Nat → HVal → Prop) : Val → HVal → Prop
  | .null, x => x = .null
  | .num n, x => x = .num n
  | .str s, x => x = .str s
  | .list xs, x => ∃ a ys, x = .ref a ∧ h[a]? = some (.arr ys) ∧ ShowsButAll h V xs ys
  | .obj c fs, x => ∃ r ys, x = .ref r ∧ h[r]? = some (.msg c ys) ∧ ShowsButFields h V c r 0 fs ys
/-- The elements of a list. -/
def ShowsButAll (h : Heap) (V : Nat → Nat → HVal → Prop) : List Val → List HVal → Prop
  | [], ys => ys = []
  | v :: vs, ys => ∃ z zs, ys = z :: zs ∧ ShowsBut h V v z ∧ ShowsButAll h V vs zs
/-- The fields, from the `i`th on, of the message at `r`. -/
def ShowsButFields (h : Heap) (V : Nat → Nat → HVal → Prop) (c : Cls) (r i : Nat) : List Val → List HVal → Prop
  | [], ys => ys = []
  | v :: vs, ys => ∃ z zs, ys = z :: zs ∧ (V r i z ∧ Simple c i ∨ ShowsBut h V v z) ∧ ShowsButFields h V c r (i + 1) vs zs
end

end FinProto
