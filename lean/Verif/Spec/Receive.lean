import Verif.Spec.Wire
/-
Specification of what a receiver gets out of a message, and of the messages that arrive unchanged.
-/
namespace FinProto

/-- A text as it is read back from its fixed-width field. -/
def textReceived (n : Nat) (pad : JChar) (left : Bool) (s : JStr) : JStr :=
  stripPad pad left (utf8Dec (fixedField n pad left s))

mutual
/-- The message as it is after being decoded into a new object: texts read back from their fields, empty strings and empty lists
are null, empty strings inside lists are dropped. -/
def received : Val → Val
  | .obj c fs => .obj c (receivedFields (wire c) fs)
  | v => v
def receivedFields (ts : List WTy) : List Val → List Val
  | [] => []
  | v :: vs => match ts with | [] => v :: vs | t :: ts => receivedField t v :: receivedFields ts vs
def receivedField (t : WTy) : Val → Val
  | .null => match t with | .text n pad left => .str (textReceived n pad left []) | _ => .null
  | .num n => .num n
  | .str s =>
    match t with
    | .text n pad left => .str (textReceived n pad left s)
    | _ => if s = [] then .null else .str (utf8Dec (utf8Enc s))
  | .list xs => match t with | .list e => if xs.isEmpty then .null else .list (receivedElems e xs) | _ => .list xs
  | .obj c fs => .obj c (receivedFields (wire c) fs)
def receivedElems (e : EWTy) : List Val → List Val
  | [] => []
  | v :: vs =>
    match receivedElem e v with
    | some v' => v' :: receivedElems e vs
    | none => receivedElems e vs
def receivedElem (e : EWTy) : Val → Option Val
  | .num n => some (.num n)
  | .obj c fs => some (.obj c (receivedFields (wire c) fs))
  | v =>
    match e with
    | .text n pad left => some (.str (textReceived n pad left v.text))
    | _ => if v.text = [] then none else some (.str (utf8Dec (utf8Enc v.text)))
end

/-- A count that the signed prefix can hold. -/
def countFits (t : PTy) (n : Nat) : Prop := n < 2 ^ (8 * t.size - 1)

instance (t : PTy) (n : Nat) : Decidable (countFits t n) := inferInstanceAs (Decidable (_ < _))

mutual
/-- The receiver can follow the message: counts fit their signed prefix, left-padded texts are not empty (they would be left out),
polymorphic parts are present and the receiver's factory has, under the key sent, a supplier of new objects of their class. -/
def legible (w : World) : Val → Prop
  | .obj c fs => legibleFields w (conv c.mod) (receivedFields (wire c) fs) (wire c) fs
  | _ => True
/-- `got` are all fields of the message as they are received (for the keys). -/
def legibleFields (w : World) (k : Conv) (got : List Val) (ts : List WTy) : List Val → Prop
  | [] => True
  | v :: vs => match ts with | [] => True | t :: ts => legibleField w k got t v ∧ legibleFields w k got ts vs
def legibleField (w : World) (k : Conv) (got : List Val) (t : WTy) : Val → Prop
  | .null => match t with | .text _ _ left => left = false | .ext _ _ => False | _ => True
  | .num _ => True
  | .str s =>
    match t with
    | .text _ _ left => left = true → s ≠ []
    | _ => countFits k.strLen (utf8Enc s).length
  | .list xs => match t with | .list e => countFits k.listLen xs.length ∧ legibleElems w k e xs | _ => True
  | .obj c fs =>
    (match t with | .ext fac key => ∃ v, got[key]? = some v ∧ w.fac fac (keyOf v) = some (fresh c) | _ => True)
      ∧ legibleFields w (conv c.mod) (receivedFields (wire c) fs) (wire c) fs
def legibleElems (w : World) (k : Conv) (e : EWTy) : List Val → Prop
  | [] => True
  | v :: vs => legibleElem w k e v ∧ legibleElems w k e vs
def legibleElem (w : World) (k : Conv) (e : EWTy) : Val → Prop
  | .num _ => True
  | .obj c fs => legibleFields w (conv c.mod) (receivedFields (wire c) fs) (wire c) fs
  | v =>
    match e with
    | .text _ _ left => left = true → v.text ≠ []
    | .vstr => countFits k.strLen (utf8Enc v.text).length
    | _ => True
end

/-- A text that survives a fixed-width field. -/
def canonicalText (n : Nat) (pad : JChar) (left : Bool) (s : JStr) : Prop :=
  validUtf16 s = true ∧ (utf8Enc s).length ≤ n ∧ touchesPad pad left s = false ∧ (left = true → s ≠ [])

/-- A text that survives a length-prefixed field. -/
def canonicalDyn (k : Conv) (s : JStr) : Prop :=
  s ≠ [] ∧ validUtf16 s = true ∧ countFits k.strLen (utf8Enc s).length

mutual
/-- The message arrives unchanged: texts are valid, fit their field and do not touch the padding; length-prefixed strings and lists are
null or non-empty and short enough; list elements are present; nested messages are present; polymorphic parts are present and of
the class for which the receiver's factory has, under the key in the message, a supplier of new objects. -/
def canonical (w : World) : Val → Prop
  | .obj c fs => canonicalFields w (conv c.mod) fs (wire c) fs
  | _ => False
/-- `all` are all fields of the message (for the keys). -/
def canonicalFields (w : World) (k : Conv) (all : List Val) (ts : List WTy) : List Val → Prop
  | [] => True
  | v :: vs => match ts with | [] => True | t :: ts => canonicalField w k all t v ∧ canonicalFields w k all ts vs
def canonicalField (w : World) (k : Conv) (all : List Val) (t : WTy) : Val → Prop
  | .null => match t with | .vstr | .list _ => True | _ => False
  | .num _ => True
  | .str s =>
    match t with
    | .text n pad left => canonicalText n pad left s
    | _ => canonicalDyn k s
  | .list xs =>
    match t with | .list e => xs ≠ [] ∧ countFits k.listLen xs.length ∧ canonicalElems w k e xs | _ => False
  | .obj c fs =>
    (match t with | .ext fac key => ∃ v, all[key]? = some v ∧ w.fac fac (keyOf v) = some (fresh c) | _ => True)
      ∧ canonicalFields w (conv c.mod) fs (wire c) fs
def canonicalElems (w : World) (k : Conv) (e : EWTy) : List Val → Prop
  | [] => True
  | v :: vs => canonicalElem w k e v ∧ canonicalElems w k e vs
def canonicalElem (w : World) (k : Conv) (e : EWTy) : Val → Prop
  | .num _ => True
  | .obj c fs => canonicalFields w (conv c.mod) fs (wire c) fs
  | .str s =>
    match e with
    | .text n pad left => canonicalText n pad left s
    | _ => canonicalDyn k s
  | _ => False
end

end FinProto
