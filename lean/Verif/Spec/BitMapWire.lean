import Verif.Model.Basic
/-
Vocabulary for C101: the bytes of a bit map.
-/
namespace FinProto

/-- Bit `j` of byte `i` (0 for bytes that are not there), counted from the most significant one (`j = 0` … `7`). -/
def wireBit (bytes : List Byte) (i j : Nat) : Bool := (bytes.getD i 0).getLsbD (7 - j)

/-- The bytes up to and including the first one below 0x80, or all of them. -/
def upToLast : List Byte → List Byte
  | [] => []
  | x :: xs => if x.toNat < 0x80 then [x] else x :: upToLast xs

end FinProto
