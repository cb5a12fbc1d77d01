import Verif.Model.OwnProgram
import Verif.Spec.AnyConfined
import Verif.Model.Heap
/-
Specification: the same program on a computer where nothing else happens.
-/
namespace FinProto

/-- The heap, the values the program knows, what it has seen. -/
structure OwnSt where
  h : Heap
  env : List HVal
  log : List Sight

def OwnSt.learn (y : HVal) (st : OwnSt) : OwnSt := { st with env := st.env ++ [y], log := st.log ++ [.value y] }
def OwnSt.see (s : Sight) (st : OwnSt) : OwnSt := { st with log := st.log ++ [s] }
def OwnSt.fail (y : Option HVal) (st : OwnSt) : OwnSt := st.see (.threw (some (if y = some .null then .nullPointer else .illTyped)))

/-- One operation, with nobody else there: `encode` and `decode` are those of C64 and C65, `equals`, `hashCode` and `toString` those of C76. -/
def ownStep (w : World) (flt : Num → JStr) (n : Nat) (op : OwnOp) (st : OwnSt) : OwnSt :=
  match op with
  | .leaf (.inl m) => st.learn (.num m)
  | .leaf (.inr s) => st.learn (.str s)
  | .null => st.learn .null
  | .new c => { st with h := st.h ++ [newMsg c] }.learn (.ref st.h.length)
  | .newList => { st with h := st.h ++ [HObj.arr []] }.learn (.ref st.h.length)
  | .get i f =>
    match st.env[i]? with
    | some (.ref a) => match st.h.field a f with
      | some y => st.learn y
      | none => st.see (.threw (some .illTyped))
    | y => st.fail y
  | .set i f j =>
    match st.env[i]?, st.env[j]? with
    | some (.ref a), some y => { st with h := st.h.setField a f y }.see (.threw none)
    | y, _ => st.fail y
  | .size i =>
    match st.env[i]? with
    | some (.ref a) => match st.h[a]? with
      | some (.arr xs) => st.see (.count xs.length)
      | _ => st.see (.threw (some .illTyped))
    | y => st.fail y
  | .item i m =>
    match st.env[i]? with
    | some (.ref a) => match st.h[a]? with
      | some (.arr xs) => match xs[m]? with
        | some y => st.learn y
        | none => st.see (.threw (some .indexOutOfBounds))
      | _ => st.see (.threw (some .illTyped))
    | y => st.fail y
  | .add i j =>
    match st.env[i]?, st.env[j]? with
    | some (.ref a), some y => match st.h[a]? with
      | some (.arr xs) => { st with h := st.h.set a (.arr (xs ++ [y])) }.see (.threw none)
      | _ => st.see (.threw (some .illTyped))
    | y, _ => st.fail y
  | .encode i b =>
    match st.env[i]? with
    | some x => { st with h := (hencode w n x st.h b).1 }.see (.wrote (hencode w n x st.h b).2.1 (hencode w n x st.h b).2.2)
    | none => st.see (.threw (some .illTyped))
  | .decode i b =>
    match st.env[i]? with
    | some (.ref a) => { st with h := (hdecode w.suppliers n a st.h b).1 }.see (.read (hdecode w.suppliers n a st.h b).2.1 (hdecode w.suppliers n a st.h b).2.2)
    | y => st.fail y
  | .equals i j =>
    match st.env[i]?, st.env[j]? with
    | some (.ref a), some y => st.see (.compared (hequals st.h n (.ref a) y))
    | y, _ => st.fail y
  | .hashCode i =>
    match st.env[i]? with
    | some (.ref a) => st.see (.hashed (hhash st.h n (.ref a)))
    | y => st.fail y
  | .toString i =>
    match st.env[i]? with
    | some (.ref a) => st.see (.printed (htoStr st.h flt n (.ref a)))
    | y => st.fail y

/-- The program `p` does `m` operations. -/
def ownRun (w : World) (flt : Num → JStr) (n : Nat) (p : List Sight → OwnOp) : Nat → OwnSt → OwnSt
  | 0, st => st
  | m + 1, st => ownRun w flt n p m (ownStep w flt n (p st.log) st)

/-- The object at `q` is one that a value in `xs` consists of (in the memory `h` at the start), or it is made later. -/
def MineAll (h : Heap) (xs : List HVal) (q : Nat) : Prop := (∃ x ∈ xs, Reach h x q) ∨ h.length ≤ q

/-- The other threads never change an object that the values in `xs` consist of, nor one that the program makes; to all other objects they may do anything.  Objects that
they make themselves are counted among those in memory at the start, where nothing refers to them. -/
def AwayFrom (h : Heap) (xs : List HVal) (o : Acts) : Prop := ∀ k g, (o k g).length = g.length ∧ ∀ q, MineAll h xs q → (o k g)[q]? = g[q]?

end FinProto
