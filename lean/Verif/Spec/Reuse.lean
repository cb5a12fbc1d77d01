import Verif.Spec.Wire
/-
Specification of what a reused object keeps.
-/
namespace FinProto

mutual
/-- What the field of a reused object holds after `decode`: what `decode` would leave in a new object (`new`), except that the old content
stays where a length-prefixed string or a list comes out as null; nested messages are updated in place. -/
def overlayField (t : WTy) : Val → Val → Val
  | .obj c olds, new => match t, new with | .sub _, .obj _ news => .obj c (overlayFields (wire c) olds news) | _, _ => new
  | .null, new => new
  | .num _, new => new
  | .str s, new => match t, new with | .vstr, .null => .str s | _, _ => new
  | .list xs, new => match t, new with | .list _, .null => .list xs | _, _ => new
def overlayFields (ts : List WTy) : List Val → List Val → List Val
  | [], news => news
  | old :: olds, news =>
    match ts, news with
    | t :: ts, new :: news => overlayField t old new :: overlayFields ts olds news
    | _, _ => news
end

mutual
/-- Nothing of the old object stays visible: wherever a string or list comes out as null, the old object had null too. -/
def nothingKeptField (t : WTy) : Val → Val → Prop
  | .obj c olds, new => match t, new with | .sub _, .obj _ news => nothingKept (wire c) olds news | _, _ => True
  | .null, _ => True
  | .num _, _ => True
  | .str _, new => match t, new with | .vstr, .null => False | _, _ => True
  | .list _, new => match t, new with | .list _, .null => False | _, _ => True
def nothingKept (ts : List WTy) : List Val → List Val → Prop
  | [], _ => True
  | old :: olds, news =>
    match ts, news with
    | t :: ts, new :: news => nothingKeptField t old new ∧ nothingKept ts olds news
    | _, _ => True
end

end FinProto
