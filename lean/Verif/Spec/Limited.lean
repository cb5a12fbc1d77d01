import Verif.Spec.Heap
import Verif.Model.AnyDecode
/-
Specification: other threads that can get at objects only through references they have.
-/
namespace FinProto

/-- In the memory `g`, the object at `q` can be reached from the objects that the others have (`R`). -/
def Theirs (R : Nat → Prop) (g : Heap) (q : Nat) : Prop := ∃ p, R p ∧ Reach g (.ref p) q

/-- The other threads start with references to the objects `R`.  They may change any object that can be reached from these and make any number of objects, at any time.
They do not change objects that they cannot reach, and what they put into an object are references to objects they can reach and to those they make. -/
def Limited (R : Nat → Prop) (o : Acts) : Prop :=
  ∀ k g, g.length ≤ (o k g).length ∧ (∀ q < g.length, ¬ Theirs R g q → (o k g)[q]? = g[q]?) ∧
    ∀ q ob, Theirs R g q ∨ g.length ≤ q → (o k g)[q]? = some ob → ∀ p, HVal.ref p ∈ ob.values → Theirs R g p ∨ g.length ≤ p ∧ p < (o k g).length

/-- `P` is about the objects that the others can reach. -/
def AboutTheirs (R : Nat → Prop) (P : Heap → Prop) : Prop := ∀ g g', (∀ q, Theirs R g q → g'[q]? = g[q]?) → P g → P g'

/-- The message `x` exists, the objects the others can reach exist, and no object belongs to both. -/
structure Divided (R : Nat → Prop) (h : Heap) (x : HVal) : Prop where
  mine : ∀ q, Reach h x q → q < h.length
  theirs : ∀ q, Theirs R h q → q < h.length
  none : ∀ q, Reach h x q → ¬ Theirs R h q

mutual
/-- No list of the message, at any level, has more elements than a Java list can have. -/
def listsFit : Val → Bool
  | .list xs => decide (xs.length ≤ 2147483647) && allListsFit xs
  | .obj _ fs => allListsFit fs
  | _ => true
def allListsFit : List Val → Bool
  | [] => true
  | v :: vs => listsFit v && allListsFit vs
end

/-- What a thread does with a message it keeps: let the others be on turn, decode into the message, or encode it, with `n` levels of calls left, from or to the buffer `b`. -/
inductive KeptUse where
  | wait (k : Nat)
  | decode (n k : Nat) (b : RBuf)
  | encode (n k : Nat) (b : WBuf)

/-- What a call left in its buffer and threw. -/
inductive KeptResult where
  | read (b : RBuf) (e : Option JErr)
  | wrote (b : WBuf) (e : Option JErr)
  deriving DecidableEq

/-- The memory after these uses of the message at `r` among the others, and the results of the calls. -/
def keptAmong (w : World) (o : Acts) (r : Nat) : List KeptUse → Heap → Heap × List KeptResult
  | [], h => (h, [])
  | .wait k :: us, h => keptAmong w o r us (o k h)
  | .decode n k b :: us, h =>
    let d := adecode w.suppliers o n r h k b
    let e := keptAmong w o r us d.1
    (e.1, .read d.2.2.1 d.2.2.2 :: e.2)
  | .encode n k b :: us, h =>
    let d := aencode w o n (.ref r) h k b
    let e := keptAmong w o r us d.1
    (e.1, .wrote d.2.2.1 d.2.2.2 :: e.2)

/-- The fields of a message. -/
def fieldsOf : Val → List Val
  | .obj _ fs => fs
  | _ => []

/-- The fields of a message of class `c` after the same uses when there are no others, and the results of the calls. -/
def keptAlone (w : World) (c : Cls) : List KeptUse → List Val → List Val × List KeptResult
  | [], fs => (fs, [])
  | .wait _ :: us, fs => keptAlone w c us fs
  | .decode n _ b :: us, fs =>
    let d := decode w n c fs b
    let e := keptAlone w c us d.1
    (e.1, .read d.2.1 d.2.2 :: e.2)
  | .encode n _ b :: us, fs =>
    let d := encode w n (.obj c fs) b
    let e := keptAlone w c us (fieldsOf d.1)
    (e.1, .wrote d.2.1 d.2.2 :: e.2)

end FinProto
