import Verif.Model.AnyDecode
import Verif.Spec.Suppliers
import Verif.Spec.Wire
/-
Specification: what other threads may do while bytes are decoded into a message.
-/
namespace FinProto

/-- Every message has as many fields as its class, and a field declared with a message class holds null or a message of this class; what Java's types guarantee. -/
def PartsOK (h : Heap) : Prop :=
  ∀ (r : Nat) c ys, h[r]? = some (.msg c ys) → ys.length = (javaTypes c).length ∧
    ∀ (f : Nat) d y, (javaTypes c)[f]? = some (.obj d) → ys[f]? = some y → y = .null ∨ ∃ (a : Nat) (zs : List HVal), y = .ref a ∧ h[a]? = some (.msg d zs)

/-- Field `f` is a body (or extension), or the message type (or application identifier) that selects one. -/
def Steers (c : Cls) (f : Nat) : Prop := ∃ (i : Nat) (fac : Fac) (key : Nat), (wire c)[i]? = some (.ext fac key) ∧ (f = i ∨ f = key)

/-- The other threads do what Java lets them do, at any time, but do not set message types and bodies. -/
def Steady (o : Acts) : Prop :=
  ∀ k h, PartsOK h → PartsOK (o k h) ∧
    ∀ (q : Nat) e ys, h[q]? = some (.msg e ys) → (∃ zs, (o k h)[q]? = some (.msg e zs)) ∧ ∀ f, Steers e f → (o k h).field q f = h.field q f

/-- Field `f` is a list or a part, a message of a fixed class. -/
def Held (c : Cls) (f : Nat) : Prop := (∃ e, (javaTypes c)[f]? = some (.list e)) ∨ ∃ d, (javaTypes c)[f]? = some (.obj d)

/-- The other threads do not set lists and parts either; they may change the contents of lists. -/
def Calm (o : Acts) : Prop :=
  Steady o ∧ ∀ k h, PartsOK h → (∀ (q : Nat) xs, h[q]? = some (.arr xs) → ∃ ys, (o k h)[q]? = some (.arr ys)) ∧
    ∀ (q : Nat) e ys, h[q]? = some (.msg e ys) → ∀ f, Held e f → (o k h).field q f = h.field q f

/-- `y`, in memory, is like the value `v`: the same number or text, or a message of the same class. -/
def LooksLike (h : Heap) (y : HVal) : Val → Prop
  | .num n => y = .num n
  | .str s => y = .str s
  | .null => y = .null
  | .obj d _ => ∃ (a : Nat) (zs : List HVal), y = .ref a ∧ h[a]? = some (.msg d zs)
  | .list _ => False

/-- A call of a setter of class `c` on the message at `r`. -/
structure SetCall where
  c : Cls
  r : Nat
  f : Nat
  y : HVal

/-- What it does; there is no such call if the object is not of class `c`. -/
def SetCall.run (s : SetCall) (h : Heap) : Heap :=
  match h[s.r]? with
  | some (.msg c _) => if c = s.c then h.setField s.r s.f s.y else h
  | _ => h

/-- Setters other threads call before each access. -/
def setActs (l : Nat → List SetCall) : Acts := fun k h => (l k).foldl (fun h s => s.run h) h

end FinProto
