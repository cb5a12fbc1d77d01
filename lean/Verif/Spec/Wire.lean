import Verif.Model.Interp
import Verif.Spec.Conv
import Verif.Spec.FixedText
/-
Specification of the wire format: which bytes represent a message object.
It is written in terms of the layouts (`Verif/Spec/Layout*.lean`) and does not refer to the `encode`/`decode`
programs of the classes.
-/
namespace FinProto

/-- Wire types of the fields of a class, in order. -/
def wire (c : Cls) : List WTy := (layout c).map (·.2)

/-- Declared Java types of the fields of a class, in order. -/
def javaTypes (c : Cls) : List FTy := (decl c).fields.map (·.2)

/-- The text of a string reference; null counts as empty. -/
def Val.text : Val → JStr
  | .str s => s
  | _ => []

/-- Image of a count or length: the low-order bytes of `n` in the protocol's byte order. -/
def countImage (k : Conv) (t : PTy) (n : Nat) : List Byte := toBytes k.order t.size n

/-- Image of a fixed-width text.  (A left-padded field is absent when the text is empty: see C01.) -/
def textImage (n : Nat) (pad : JChar) (left : Bool) (s : JStr) : List Byte :=
  if left && s.isEmpty then [] else fixedField n pad left s

/-- Image of a length-prefixed string. -/
def vstrImage (k : Conv) (s : JStr) : List Byte := countImage k k.strLen (utf8Enc s).length ++ utf8Enc s

mutual
/-- Image of a message: the images of its fields in layout order.  An absent (null) message has no image. -/
def image : Val → List Byte
  | .obj c fs => imageFields (conv c.mod) (wire c) fs
  | _ => []
/-- Images of consecutive fields. -/
def imageFields (k : Conv) (ts : List WTy) : List Val → List Byte
  | [] => []
  | v :: vs =>
    match ts with
    | [] => []
    | t :: ts => imageField k t v ++ imageFields k ts vs
/-- Image of one field. -/
def imageField (k : Conv) (t : WTy) : Val → List Byte
  | .null =>
    match t with
    | .text n pad left => textImage n pad left []
    | .vstr => vstrImage k []
    | .list _ => countImage k k.listLen 0
    | _ => []
  | .str s =>
    match t with
    | .text n pad left => textImage n pad left s
    | .vstr => vstrImage k s
    | _ => []
  | .num n =>
    match t with
    | .num _ | .len _ | .cksum _ _ => n.bytes k.order
    | _ => []
  | .list xs =>
    match t with
    | .list e => countImage k k.listLen xs.length ++ imageElems k e xs
    | _ => []
  | .obj c fs =>
    match t with
    | .sub _ | .ext _ _ => imageFields (conv c.mod) (wire c) fs
    | _ => []
/-- Images of list elements. -/
def imageElems (k : Conv) (e : EWTy) : List Val → List Byte
  | [] => []
  | v :: vs => imageElem k e v ++ imageElems k e vs
/-- Image of one list element. -/
def imageElem (k : Conv) (e : EWTy) : Val → List Byte
  | .num n =>
    match e with
    | .num _ => n.bytes k.order
    | _ => []
  | .obj c fs =>
    match e with
    | .sub _ => imageFields (conv c.mod) (wire c) fs
    | _ => []
  | v =>
    match e with
    | .text n pad left => textImage n pad left v.text
    | .vstr => vstrImage k v.text
    | _ => []
end

/-! ### Well-formed objects -/

/-- Java type of a field with a given wire type. -/
def EWTy.java : EWTy → ElTy
  | .num t => .prim t
  | .text _ _ _ | .vstr => .str
  | .sub c => .obj c

/-- Java type of a field with a given wire type. -/
def WTy.java : WTy → FTy
  | .num t | .len t | .cksum t _ => .prim t
  | .text _ _ _ | .vstr => .str
  | .list e => .list e.java
  | .sub c => .obj c
  | .ext _ _ => .codec

mutual
/-- The value can be stored in a field of the given Java type, and everything below it is well typed too. -/
def hasType (t : FTy) : Val → Bool
  | .null => match t with | .prim _ => false | _ => true
  | .num n => match t with | .prim p => decide (n.ty = p) | _ => false
  | .str _ => match t with | .str => true | _ => false
  | .list xs => match t with | .list e => elemsHaveType e xs | _ => false
  | .obj c fs =>
    (match t with | .obj d => decide (c = d) | .codec => true | _ => false)
      && fieldsHaveType (javaTypes c) fs
def fieldsHaveType (ts : List FTy) : List Val → Bool
  | [] => ts.isEmpty
  | v :: vs => match ts with | [] => false | t :: ts => hasType t v && fieldsHaveType ts vs
def elemsHaveType (e : ElTy) : List Val → Bool
  | [] => true
  | v :: vs => elemHasType e v && elemsHaveType e vs
def elemHasType (e : ElTy) : Val → Bool
  | .null => true
  | .num n => match e with | .prim p => decide (n.ty = p) | _ => false
  | .str _ => match e with | .str => true | _ => false
  | .list _ => false
  | .obj c fs => (match e with | .obj d => decide (c = d) | _ => false) && fieldsHaveType (javaTypes c) fs
end

/-- A message object whose fields, at every level, have the types declared in the Java classes. -/
def wellTyped (v : Val) : Bool := match v with | .obj _ _ => hasType .codec v | _ => false

mutual
/-- Nothing mandatory is missing: no null nested message (`sub`), no null number or message inside a list. -/
def complete : Val → Bool
  | .obj c fs => completeFields (wire c) fs
  | _ => true
def completeFields (ts : List WTy) : List Val → Bool
  | [] => true
  | v :: vs => match ts with | [] => true | t :: ts => completeField t v && completeFields ts vs
def completeField (t : WTy) : Val → Bool
  | .null => match t with | .sub _ => false | _ => true
  | .obj c fs => completeFields (wire c) fs
  | .list xs => match t with | .list e => completeElems e xs | _ => true
  | _ => true
def completeElems (e : EWTy) : List Val → Bool
  | [] => true
  | v :: vs => completeElem e v && completeElems e vs
def completeElem (e : EWTy) : Val → Bool
  | .null => match e with | .num _ | .sub _ => false | _ => true
  | .obj c fs => completeFields (wire c) fs
  | _ => true
end

mutual
/-- Nesting depth of messages: 1 for a message without nested messages. -/
def depth : Val → Nat
  | .obj _ fs => depthList fs + 1
  | .list xs => depthList xs
  | _ => 0
def depthList : List Val → Nat
  | [] => 0
  | v :: vs => max (depth v) (depthList vs)
end

/-! ### Fields the sender computes -/

mutual
/-- The object as it is after being sent, when `pre` are the readable bytes in front of it. -/
def settle (svc : Registry) (pre : List Byte) : Val → Val
  | .obj c fs => .obj c (settleFields svc (conv c.mod) pre (wire c) fs)
  | v => v
/-- Consecutive fields.  A length field holds the size of the image of the field behind it; while that field is written the
length in front of it still reads zero. -/
def settleFields (svc : Registry) (k : Conv) (pre : List Byte) (ts : List WTy) : List Val → List Val
  | [] => []
  | v :: vs =>
    match ts with
    | [] => v :: vs
    | .len lt :: ts =>
      match ts, vs with
      | t :: ts, b :: vs =>
        let b' := settleField svc k (pre ++ List.replicate lt.size 0) t b
        let body := imageField k t b'
        .num (.int (BitVec.ofNat 32 body.length)) :: b' ::
          settleFields svc k (pre ++ countImage k lt body.length ++ body) ts vs
      | _, vs => v :: vs
    | t :: ts =>
      let v' := settleField svc k pre t v
      v' :: settleFields svc k (pre ++ imageField k t v') ts vs
/-- One field: a checksum field holds the checksum of all readable bytes in front of it, if the algorithm is registered. -/
def settleField (svc : Registry) (k : Conv) (pre : List Byte) (t : WTy) : Val → Val
  | .obj c fs => .obj c (settleFields svc (conv c.mod) pre (wire c) fs)
  | .list xs => match t with | .list e => .list (settleElems svc k (pre ++ countImage k k.listLen xs.length) e xs) | _ => .list xs
  | v => match t with | .cksum _ alg => (match svc alg with | some s => .num (.int (s.calcOn pre)) | none => v) | _ => v
def settleElems (svc : Registry) (k : Conv) (pre : List Byte) (e : EWTy) : List Val → List Val
  | [] => []
  | v :: vs =>
    let v' := settleElem svc pre v
    v' :: settleElems svc k (pre ++ imageElem k e v') e vs
def settleElem (svc : Registry) (pre : List Byte) : Val → Val
  | .obj c fs => .obj c (settleFields svc (conv c.mod) pre (wire c) fs)
  | v => v
end

mutual
/-- The object with zeros in all length and checksum fields the sender computes, at every level. -/
def blank : Val → Val
  | .obj c fs => .obj c (blankFields (wire c) fs)
  | v => v
def blankFields (ts : List WTy) : List Val → List Val
  | [] => []
  | v :: vs => match ts with | [] => v :: vs | t :: ts => blankField t v :: blankFields ts vs
def blankField (t : WTy) : Val → Val
  | .num n => match t with | .len _ | .cksum _ _ => .num (.int 0) | _ => .num n
  | .list xs => .list (blankElems xs)
  | .obj c fs => .obj c (blankFields (wire c) fs)
  | v => v
def blankElems : List Val → List Val
  | [] => []
  | v :: vs => blankElem v :: blankElems vs
def blankElem : Val → Val
  | .obj c fs => .obj c (blankFields (wire c) fs)
  | v => v
end

/-- Does the layout have fields the sender computes? -/
def hasComputed (c : Cls) : Bool := (wire c).any fun t => match t with | .len _ | .cksum _ _ => true | _ => false

mutual
/-- No object in `v` has computed fields. -/
def frameless : Val → Bool
  | .obj c fs => !hasComputed c && framelessList fs
  | .list xs => framelessList xs
  | _ => true
def framelessList : List Val → Bool
  | [] => true
  | v :: vs => frameless v && framelessList vs
end

end FinProto
