import Verif.Spec.RacingHeap
import Verif.Model.WeakHeap
/-
Specification: what a read of a field may return under the Java memory model, and the messages a thread may see that reads so.

`sets r f y`: some other thread assigns `y` to field `f` of the object at `r`, at any time.
-/
namespace FinProto

/-- The value of a field at the beginning, or one that is assigned to it. -/
def Stored (h : Heap) (sets : Nat → Nat → HVal → Prop) (r f : Nat) (y : HVal) : Prop := h.field r f = some y ∨ sets r f y

/-- The upper half of one value and the lower half of another. -/
def halves (a b : BitVec 64) : BitVec 64 := (a.extractLsb' 32 32 ++ b.extractLsb' 0 32)

/-- What a read may return: a stored value; of `long` and `double` fields also the halves of two of them (JLS 17.7). -/
inductive Readable (h : Heap) (sets : Nat → Nat → HVal → Prop) (r f : Nat) : HVal → Prop
  | whole (y : HVal) : Stored h sets r f y → Readable h sets r f y
  | long (a b : BitVec 64) : Stored h sets r f (.num ⟨.i64, a⟩) → Stored h sets r f (.num ⟨.i64, b⟩) → Readable h sets r f (.num ⟨.i64, halves a b⟩)
  | double (a b : BitVec 64) : Stored h sets r f (.num ⟨.f64, a⟩) → Stored h sets r f (.num ⟨.f64, b⟩) → Readable h sets r f (.num ⟨.f64, halves a b⟩)

/-- Reads return what they may; other threads do not assign lists and computed fields. -/
def MaySee (h : Heap) (sets : Nat → Nat → HVal → Prop) (m : Seen) : Prop :=
  ∀ k r f y, m k r f = some y → Readable h sets r f y ∧ ∃ c ys, h[r]? = some (.msg c ys) ∧ f < ys.length ∧ ¬ Touchy c f

/-- Setters are called with values of the declared types. -/
def STyped (h : Heap) (sets : Nat → Nat → HVal → Prop) : Prop :=
  ∀ r f y, sets r f y → ∀ c ys t, h[r]? = some (.msg c ys) → (javaTypes c)[f]? = some t → ValOf h t y

/-- `v` is `x` with some readable value in each field of each message; lists, and the fields `encode` computes, are as at the beginning. -/
inductive Picked (h : Heap) (sets : Nat → Nat → HVal → Prop) : HVal → Val → Prop
  | null : Picked h sets .null .null
  | num (n : Num) : Picked h sets (.num n) (.num n)
  | str (s : JStr) : Picked h sets (.str s) (.str s)
  | list (a : Nat) (xs : List HVal) (vs : List Val) :
      h[a]? = some (.arr xs) → vs.length = xs.length → (∀ (i : Nat) x v, xs[i]? = some x → vs[i]? = some v → Picked h sets x v) →
      Picked h sets (.ref a) (.list vs)
  | msg (r : Nat) (c : Cls) (ys : List HVal) (vs : List Val) (read : Nat → HVal) :
      h[r]? = some (.msg c ys) → vs.length = ys.length →
      (∀ f, f < ys.length → ¬ Touchy c f → Readable h sets r f (read f)) →
      (∀ f, f < ys.length → Touchy c f → h.field r f = some (read f)) →
      (∀ (f : Nat) v, f < (wire c).length → ¬ Computed c f → vs[f]? = some v → Picked h sets (read f) v) →
      (∀ f, f < ys.length → Computed c f → vs[f]? = some (read f).leaf) →
      Picked h sets (.ref r) (.obj c vs)

end FinProto
