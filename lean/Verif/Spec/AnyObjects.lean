import Verif.Spec.Layout
import Verif.Spec.Heap
import Verif.Model.RacingHeap
import Verif.Model.AnyObjects
/-
Specification: what a thread sees of objects that it reads bit by bit while the memory changes.
-/
namespace FinProto

/-- When `n` fields (or elements) were read, one after the other, between the moments `lo` and `hi`: number `i` by access `look i`, and what it refers to by accesses
from `fr i` to before `to i`.  Either all are read early, before the first of them is looked into, or each only after the one before it is done with. -/
structure Moments (early : Bool) (n lo hi : Nat) (look fr to : Nat → Nat) : Prop where
  each : ∀ i, i < n → lo ≤ look i ∧ look i < fr i ∧ fr i ≤ to i ∧ to i ≤ hi
  order : ∀ i j, i < j → j < n → look i < look j ∧ to i ≤ fr j ∧ (if early then look j < fr i else to i ≤ look j)

/-- `v` is what a thread saw of `x` from access `lo` to before access `hi`: each field of each message and each element of each list is the one at a moment of its
own, and what it refers to was seen later. -/
inductive Glimpse (M : Memory) (early : Bool) : Nat → Nat → HVal → Val → Prop
  | null (lo hi : Nat) : Glimpse M early lo hi .null .null
  | num (lo hi : Nat) (n : Num) : Glimpse M early lo hi (.num n) (.num n)
  | str (lo hi : Nat) (s : JStr) : Glimpse M early lo hi (.str s) (.str s)
  | list (lo hi a s : Nat) (xs : List HVal) (vs : List Val) (look fr to : Nat → Nat) (ys : Nat → HVal) :
      lo ≤ s → s ≤ hi → (M s)[a]? = some (.arr xs) → vs.length = xs.length →
      Moments false xs.length lo hi look fr to →
      (∀ i, i < xs.length → (M (look i)).item a i = some (ys i)) →
      (∀ i v, vs[i]? = some v → Glimpse M early (fr i) (to i) (ys i) v) →
      Glimpse M early lo hi (.ref a) (.list vs)
  | msg (lo hi r s : Nat) (c : Cls) (zs : List HVal) (vs : List Val) (look fr to : Nat → Nat) (ys : Nat → HVal) :
      lo ≤ s → s ≤ hi → (M s)[r]? = some (.msg c zs) → vs.length = (layout c).length →
      Moments early (layout c).length lo hi look fr to →
      (∀ f, f < (layout c).length → (M (look f)).field r f = some (ys f)) →
      (∀ f v, vs[f]? = some v → Glimpse M early (fr f) (to f) (ys f) v) →
      Glimpse M early lo hi (.ref r) (.obj c vs)

/-- `x` and `y` were found equal from access `lo` to before access `hi`: they are the same object, or equal numbers or texts, or each field of the one at a moment
of its own was equal to that of the other at the next moment, the next pair being looked at after that. -/
inductive FoundEqual (M : Memory) : Nat → Nat → HVal → HVal → Prop
  | null (lo hi : Nat) : FoundEqual M lo hi .null .null
  | num (lo hi : Nat) (a b : Num) : a.eqv b = true → FoundEqual M lo hi (.num a) (.num b)
  | str (lo hi : Nat) (s : JStr) : FoundEqual M lo hi (.str s) (.str s)
  | same (lo hi r : Nat) : FoundEqual M lo hi (.ref r) (.ref r)
  | list (lo hi a b s : Nat) (xs xs' : List HVal) (look to : Nat → Nat) (ys zs : Nat → HVal) :
      lo ≤ s → s < hi → (M s)[a]? = some (.arr xs) → (M (s + 1))[b]? = some (.arr xs') → xs.length = xs'.length →
      Moments false xs.length lo hi look (fun i => look i + 2) to →
      (∀ i, i < xs.length → (M (look i)).item a i = some (ys i) ∧ (M (look i + 1)).item b i = some (zs i)) →
      (∀ i, i < xs.length → FoundEqual M (look i + 2) (to i) (ys i) (zs i)) →
      FoundEqual M lo hi (.ref a) (.ref b)
  | msg (lo hi r q s : Nat) (c : Cls) (us us' : List HVal) (look to : Nat → Nat) (ys zs : Nat → HVal) :
      lo ≤ s → s < hi → (M s)[r]? = some (.msg c us) → (M (s + 1))[q]? = some (.msg c us') →
      Moments false (layout c).length lo hi look (fun i => look i + 2) to →
      (∀ f, f < (layout c).length → (M (look f)).field r f = some (ys f) ∧ (M (look f + 1)).field q f = some (zs f)) →
      (∀ f, f < (layout c).length → FoundEqual M (look f + 2) (to f) (ys f) (zs f)) →
      FoundEqual M lo hi (.ref r) (.ref q)

/-- Two values that are not both references are different: null and something else, different numbers or texts, things of different kinds. -/
def PlainlyDifferent : HVal → HVal → Prop
  | .null, y => y ≠ .null
  | .num a, .num b => a.eqv b = false
  | .str s, .str t => s ≠ t
  | .ref _, .ref _ => False
  | _, _ => True

/-- `x` and `y` were found different from access `lo` to before access `hi`: plainly, or they are objects of different classes or lists of different sizes, or some
field (element) of the one at some moment was found different from that of the other at the next moment. -/
inductive FoundDifferent (M : Memory) : Nat → Nat → HVal → HVal → Prop
  | plain (lo hi : Nat) (x y : HVal) : PlainlyDifferent x y → FoundDifferent M lo hi x y
  | classes (lo hi r q s : Nat) (c d : Cls) (us us' : List HVal) : r ≠ q → lo ≤ s → s < hi →
      (M s)[r]? = some (.msg c us) → (M (s + 1))[q]? = some (.msg d us') → c ≠ d → FoundDifferent M lo hi (.ref r) (.ref q)
  | sizes (lo hi a b s : Nat) (xs xs' : List HVal) : a ≠ b → lo ≤ s → s < hi →
      (M s)[a]? = some (.arr xs) → (M (s + 1))[b]? = some (.arr xs') → xs.length ≠ xs'.length → FoundDifferent M lo hi (.ref a) (.ref b)
  | msgList (lo hi r b s : Nat) (c : Cls) (us xs : List HVal) : r ≠ b → lo ≤ s → s < hi →
      (M s)[r]? = some (.msg c us) → (M (s + 1))[b]? = some (.arr xs) → FoundDifferent M lo hi (.ref r) (.ref b)
  | listMsg (lo hi a q s : Nat) (c : Cls) (us xs : List HVal) : a ≠ q → lo ≤ s → s < hi →
      (M s)[a]? = some (.arr xs) → (M (s + 1))[q]? = some (.msg c us) → FoundDifferent M lo hi (.ref a) (.ref q)
  | field (lo hi r q f s : Nat) (y z : HVal) : r ≠ q → lo ≤ s → s < hi →
      (M s).field r f = some y → (M (s + 1)).field q f = some z → FoundDifferent M (s + 2) hi y z → FoundDifferent M lo hi (.ref r) (.ref q)
  | item (lo hi a b i s : Nat) (y z : HVal) : a ≠ b → lo ≤ s → s < hi →
      (M s).item a i = some y → (M (s + 1)).item b i = some z → FoundDifferent M (s + 2) hi y z → FoundDifferent M lo hi (.ref a) (.ref b)

/-- The memory as Java keeps it: a message has the fields of its class, references lead to objects, objects stay what they are and lists keep their size. -/
structure WellKept (M : Memory) : Prop where
  fields : ∀ (k r : Nat) c ys, (M k)[r]? = some (.msg c ys) → ys.length = (layout c).length
  msgs : ∀ (k l r : Nat) c ys, k ≤ l → (M k)[r]? = some (.msg c ys) → ∃ zs, (M l)[r]? = some (.msg c zs)
  lists : ∀ (k l a : Nat) xs, k ≤ l → (M k)[a]? = some (.arr xs) → ∃ ys, (M l)[a]? = some (.arr ys) ∧ ys.length = xs.length
  refs : ∀ (k r q : Nat) o, (M k)[r]? = some o → .ref q ∈ o.values → ∃ o', (M k)[q]? = some o'

/-- What `x` refers to, if it is a reference, exists at moment `k`. -/
def There (M : Memory) (k : Nat) (x : HVal) : Prop := ∀ r, x = .ref r → ∃ o, (M k)[r]? = some o

/-- Nobody ever touches an object that `x` consists of. -/
def Untouched (M : Memory) (h : Heap) (x : HVal) : Prop := ∀ k q, Reach h x q → (M k)[q]? = h[q]?

/-- The memory when the others call setters: access number `k` finds what was assigned up to then. -/
def HOthers.memory (o : HOthers) (h : Heap) : Memory
  | 0 => hsetAll h (o 0)
  | k + 1 => hsetAll (o.memory h k) (o (k + 1))

/-- All references lead to objects. -/
def RefsOK (h : Heap) : Prop := ∀ (r q : Nat) o, h[r]? = some o → .ref q ∈ o.values → q < h.length

end FinProto
