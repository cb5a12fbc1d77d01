import Verif.Spec.Wire
/-
Specification of object identity: when two values are the same, which hash codes exist, what a printed object looks like.
Nothing here refers to the tables of `equals`, `hashCode`, `toString` or the accessors.
-/
namespace FinProto

/-- IEEE 754 NaN: exponent all ones and a non-zero fraction. -/
def Num.isNaN (n : Num) : Bool :=
  match n.ty with
  | .f32 => n.bits.toNat / 2 ^ 23 % 2 ^ 8 == 2 ^ 8 - 1 && n.bits.toNat % 2 ^ 23 != 0
  | .f64 => n.bits.toNat / 2 ^ 52 % 2 ^ 11 == 2 ^ 11 - 1 && n.bits.toNat % 2 ^ 52 != 0
  | _ => false

/-- The same number: identical bits, or two NaNs of one type.  (`0.0` and `-0.0` differ, as for Java's boxed numbers.) -/
def sameNum (a b : Num) : Prop := a = b ∨ (a.ty = b.ty ∧ a.isNaN = true ∧ b.isNaN = true)

mutual
/-- The same value: nulls, the same numbers, the same characters, or the same class and the same contents. -/
def same : Val → Val → Prop
  | .null, b => b = .null
  | .num x, b => ∃ y, b = .num y ∧ sameNum x y
  | .str s, b => b = .str s
  | .list xs, b => ∃ ys, b = .list ys ∧ sameAll xs ys
  | .obj c fs, b => ∃ gs, b = .obj c gs ∧ sameAll fs gs
/-- Equally long, and the same values in the same positions. -/
def sameAll : List Val → List Val → Prop
  | [], ys => ys = []
  | x :: xs, ys => ∃ z zs, ys = z :: zs ∧ same x z ∧ sameAll xs zs
end

mutual
/-- No field at any level is a floating-point NaN. -/
def noNaN : Val → Bool
  | .num n => !n.isNaN
  | .list xs => noNaNs xs
  | .obj _ fs => noNaNs fs
  | _ => true
def noNaNs : List Val → Bool
  | [] => true
  | v :: vs => noNaN v && noNaNs vs
end

/-- The class has no fields. -/
def fieldLess (c : Cls) : Bool := (layout c).isEmpty

mutual
/-- No object of a field-less class at any level. -/
def hashable : Val → Bool
  | .list xs => hashables xs
  | .obj c fs => !fieldLess c && hashables fs
  | _ => true
def hashables : List Val → Bool
  | [] => true
  | v :: vs => hashable v && hashables vs
end

mutual
/-- Height of the object graph, counting every value. -/
def height : Val → Nat
  | .list xs => heights xs + 1
  | .obj _ fs => heights fs + 1
  | _ => 1
def heights : List Val → Nat
  | [] => 0
  | v :: vs => max (height v) (heights vs)
end

/-- Texts separated by a comma and a space. -/
def commaSep (l : List JStr) : JStr := (l.intersperse (js ", ")).flatten

mutual
/-- The printed form of a value: integers in decimal, `[a, b, c]` for lists, `Name [field=value, ...]` for objects;
`flt` prints floating-point numbers. -/
def render (flt : Num → JStr) : Val → JStr
  | .null => js "null"
  | .num n => if n.ty = .f32 ∨ n.ty = .f64 then flt n else js (toString n.bits.toInt)
  | .str s => s
  | .list xs => js "[" ++ commaSep (renderAll flt xs) ++ js "]"
  | .obj c fs => js (decl c).name ++ js " [" ++ commaSep (renderFields flt ((layout c).map (·.1)) fs) ++ js "]"
def renderAll (flt : Num → JStr) : List Val → List JStr
  | [] => []
  | v :: vs => render flt v :: renderAll flt vs
def renderFields (flt : Num → JStr) (names : List String) : List Val → List JStr
  | [] => []
  | v :: vs =>
    match names with
    | [] => []
    | nm :: names => (js nm ++ js "=" ++ render flt v) :: renderFields flt names vs
end

/-- The value property `p` has after a history of setter calls (property number, argument), given the value it had before. -/
def lastSet (p : Nat) (old : Val) : List (Nat × Val) → Val
  | [] => old
  | (q, v) :: r => lastSet p (if q = p then v else old) r

/-- The first letter in upper case. -/
def capital (s : String) : String :=
  match s.toList with
  | [] => ""
  | c :: r => String.ofList (c.toUpper :: r)

end FinProto
