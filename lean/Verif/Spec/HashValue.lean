import Verif.Spec.Objects
/-
Specification: the value of `hashCode()` as the documentation of the JDK has it: for `String`, for `List` and `Objects.hash`, for boxed numbers.
-/
namespace FinProto

/-- Each number times 31 to the power of how many numbers follow it, added up. -/
def weighed : List Nat → Nat
  | [] => 0
  | h :: t => h * 31 ^ t.length + weighed t

/-- Hash code of a boxed number: integers of up to 32 bits are their own hash code, the halves of a `long` are combined with exclusive or;
floating-point numbers count as their bits, NaN as `0x7FC00000` or `0x7FF8000000000000`. -/
def hashOfNum (n : Num) : Nat :=
  match n.ty with
  | .i8 | .i16 | .i32 => (n.bits.toInt % 2 ^ 32).toNat
  | .i64 => (n.bits.toNat / 2 ^ 32) ^^^ (n.bits.toNat % 2 ^ 32)
  | .f32 => if n.isNaN then 0x7FC00000 else n.bits.toNat
  | .f64 => if n.isNaN then 0x7FF80000 else (n.bits.toNat / 2 ^ 32) ^^^ (n.bits.toNat % 2 ^ 32)

mutual
/-- The hash code of a value, between 0 and 2^32 - 1 (Java prints it as a signed number). -/
def hashValue : Val → Nat
  | .null => 0
  | .num n => hashOfNum n
  | .str s => weighed (s.map BitVec.toNat) % 2 ^ 32
  | .list xs => (31 ^ xs.length + weighed (hashValues xs)) % 2 ^ 32
  | .obj _ fs => (31 ^ fs.length + weighed (hashValues fs)) % 2 ^ 32
def hashValues : List Val → List Nat
  | [] => []
  | v :: vs => hashValue v :: hashValues vs
end

end FinProto
