import Verif.Spec.Receive
/-
Specification: conditions on all fields and list elements of a message, at every nesting level.
-/
namespace FinProto

/-- A list element seen as a field. -/
def EWTy.toWTy : EWTy → WTy
  | .num t => .num t
  | .text n pad left => .text n pad left
  | .vstr => .vstr
  | .sub c => .sub c

mutual
/-- `P` holds (for the conventions of the protocol, the wire type and the value) of every field and list element in the message,
at every level. -/
def everywhere (P : Conv → WTy → Val → Prop) : Val → Prop
  | .obj c fs => everyFields P (conv c.mod) (wire c) fs
  | _ => True
def everyFields (P : Conv → WTy → Val → Prop) (k : Conv) (ts : List WTy) : List Val → Prop
  | [] => True
  | v :: vs => match ts with | [] => True | t :: ts => everyField P k t v ∧ everyFields P k ts vs
def everyField (P : Conv → WTy → Val → Prop) (k : Conv) (t : WTy) : Val → Prop
  | .obj c fs => P k t (.obj c fs) ∧ everyFields P (conv c.mod) (wire c) fs
  | .list xs => P k t (.list xs) ∧ match t with | .list e => everyElems P k e xs | _ => True
  | v => P k t v
def everyElems (P : Conv → WTy → Val → Prop) (k : Conv) (e : EWTy) : List Val → Prop
  | [] => True
  | v :: vs => everyElem P k e v ∧ everyElems P k e vs
def everyElem (P : Conv → WTy → Val → Prop) (k : Conv) (e : EWTy) : Val → Prop
  | .obj c fs => P k e.toWTy (.obj c fs) ∧ everyFields P (conv c.mod) (wire c) fs
  | v => P k e.toWTy v
end

mutual
/-- `everywhere` can be computed for conditions that can be computed. -/
def decEvery (P : Conv → WTy → Val → Prop) [h : ∀ k t v, Decidable (P k t v)] : (v : Val) → Decidable (everywhere P v)
  | .obj c fs => decEveryFields P (conv c.mod) (wire c) fs
  | .null => .isTrue trivial
  | .num _ => .isTrue trivial
  | .str _ => .isTrue trivial
  | .list _ => .isTrue trivial
def decEveryFields (P : Conv → WTy → Val → Prop) [h : ∀ k t v, Decidable (P k t v)] (k : Conv) (ts : List WTy) :
    (fs : List Val) → Decidable (everyFields P k ts fs)
  | [] => .isTrue trivial
  | v :: vs =>
    match ts with
    | [] => .isTrue trivial
    | t :: ts =>
      match decEveryField P k t v, decEveryFields P k ts vs with
      | .isTrue a, .isTrue b => .isTrue ⟨a, b⟩
      | .isFalse a, _ => .isFalse fun x => a x.1
      | _, .isFalse b => .isFalse fun x => b x.2
def decEveryField (P : Conv → WTy → Val → Prop) [h : ∀ k t v, Decidable (P k t v)] (k : Conv) (t : WTy) :
    (v : Val) → Decidable (everyField P k t v)
  | .obj c fs =>
    match h k t (.obj c fs), decEveryFields P (conv c.mod) (wire c) fs with
    | .isTrue a, .isTrue b => .isTrue ⟨a, b⟩
    | .isFalse a, _ => .isFalse fun x => a x.1
    | _, .isFalse b => .isFalse fun x => b x.2
  | .list xs =>
    match h k t (.list xs) with
    | .isFalse a => .isFalse fun x => a x.1
    | .isTrue a =>
      match t, a with
      | .list e, a =>
        match decEveryElems P k e xs with
        | .isTrue b => .isTrue ⟨a, b⟩
        | .isFalse b => .isFalse fun x => b x.2
      | .num _, a => .isTrue ⟨a, trivial⟩
      | .text _ _ _, a => .isTrue ⟨a, trivial⟩
      | .vstr, a => .isTrue ⟨a, trivial⟩
      | .sub _, a => .isTrue ⟨a, trivial⟩
      | .ext _ _, a => .isTrue ⟨a, trivial⟩
      | .len _, a => .isTrue ⟨a, trivial⟩
      | .cksum _ _, a => .isTrue ⟨a, trivial⟩
  | .null => h k t .null
  | .num n => h k t (.num n)
  | .str s => h k t (.str s)
def decEveryElems (P : Conv → WTy → Val → Prop) [h : ∀ k t v, Decidable (P k t v)] (k : Conv) (e : EWTy) :
    (fs : List Val) → Decidable (everyElems P k e fs)
  | [] => .isTrue trivial
  | v :: vs =>
    match decEveryElem P k e v, decEveryElems P k e vs with
    | .isTrue a, .isTrue b => .isTrue ⟨a, b⟩
    | .isFalse a, _ => .isFalse fun x => a x.1
    | _, .isFalse b => .isFalse fun x => b x.2
def decEveryElem (P : Conv → WTy → Val → Prop) [h : ∀ k t v, Decidable (P k t v)] (k : Conv) (e : EWTy) :
    (v : Val) → Decidable (everyElem P k e v)
  | .obj c fs =>
    match h k e.toWTy (.obj c fs), decEveryFields P (conv c.mod) (wire c) fs with
    | .isTrue a, .isTrue b => .isTrue ⟨a, b⟩
    | .isFalse a, _ => .isFalse fun x => a x.1
    | _, .isFalse b => .isFalse fun x => b x.2
  | .null => h k e.toWTy .null
  | .num n => h k e.toWTy (.num n)
  | .str s => h k e.toWTy (.str s)
  | .list xs => h k e.toWTy (.list xs)
end

instance (P : Conv → WTy → Val → Prop) [∀ k t v, Decidable (P k t v)] (v : Val) : Decidable (everywhere P v) := decEvery P v

/-- The length of a list or length-prefixed string is at most the largest number its signed prefix can hold. -/
def fitsPrefix (k : Conv) (t : WTy) (v : Val) : Prop :=
  match t, v with
  | .vstr, .str s => countFits k.strLen (utf8Enc s).length
  | .list _, .list xs => countFits k.listLen xs.length
  | _, _ => True

/-- A left-padded text is not empty (it would be left out of the image). -/
def leftFilled (_ : Conv) (t : WTy) (v : Val) : Prop :=
  match t with
  | .text _ _ true => v.text ≠ []
  | _ => True

end FinProto
