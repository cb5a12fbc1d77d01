import Verif.Model.Names
import Verif.Model.Basic
/-
Vocabulary of the wire-format specification.  Nothing here refers to the model of the code.
-/
namespace FinProto

/-- Wire type of a list element. -/
inductive EWTy
  /-- number of the given Java width -/
  | num (t : PTy)
  /-- text of exactly `n` bytes, padded with `pad`, on the left or on the right -/
  | text (n : Nat) (pad : JChar) (left : Bool)
  /-- length-prefixed UTF-8 string -/
  | vstr
  /-- embedded message -/
  | sub (c : Cls)
  deriving DecidableEq

/-- Wire type of a field. -/
inductive WTy
  | num (t : PTy)
  | text (n : Nat) (pad : JChar) (left : Bool)
  | vstr
  /-- element count followed by the elements -/
  | list (e : EWTy)
  | sub (c : Cls)
  /-- optional message whose class is registered in factory `fac` under the value of field number `key` -/
  | ext (fac : Fac) (key : Nat)
  /-- number of bytes of the next field (always an `ext`), computed by the sender -/
  | len (t : PTy)
  /-- checksum named `alg` of everything readable before it, computed by the sender if the algorithm is available -/
  | cksum (t : PTy) (alg : String)
  deriving DecidableEq

/-- Per-protocol conventions. -/
structure Conv where
  /-- byte order of all numbers, counts and lengths -/
  order : Endian
  /-- width of the length prefix of strings -/
  strLen : PTy
  /-- width of the element count of lists -/
  listLen : PTy

end FinProto
