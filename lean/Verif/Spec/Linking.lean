import Verif.Model.Java
import Verif.Model.Codec
/-
Specification for C86: the places where a method of a message class calls a method that is not one of a message class.
-/
namespace FinProto

/-- The checksum services of the library. -/
inductive LibService
  | crc16 | crc32 | sseBin | szseBin
  deriving DecidableEq

/-- The service object as the message classes see it. -/
def LibService.service : LibService → Service
  | .crc16 => crc16Service
  | .crc32 => crc32Service
  | .sseBin => sseBinService
  | .szseBin => szseBinService

/-- The text of `calc` in the class of the service. -/
def LibService.calcMethod : LibService → Mini.Method
  | .crc16 => Mini.Crc16.calcMethod
  | .crc32 => Mini.Crc32.calcMethod
  | .sseBin => Mini.SseBin.calcMethod
  | .szseBin => Mini.SzseBin.calcMethod

/-- The text of the static initialiser in the class of the service. -/
def LibService.init : LibService → List Mini.Stmt
  | .crc16 => Mini.Crc16.init
  | .crc32 => Mini.Crc32.init
  | _ => []

/-- The static fields of the class before its initialiser: `new int[256]`. -/
def newTable : String → Option Mini.V := fun y => if y = "CRC_TABLE" then some (.ints (List.replicate 256 0)) else none

namespace Java

/-- The widths that occur in an expression, as arguments of `readFixedString`. -/
def Expr.widths : Expr → List Nat
  | .readFixed n _ _ => [n]
  | .size e | .cast _ e | .utf8 e | .length e | .readText e | .create _ e | .calc e => e.widths
  | .get a b | .sub a b => a.widths ++ b.widths
  | _ => []

mutual
/-- The widths that occur in a statement, as arguments of `readFixedString` and `writeFixedString`. -/
def Stmt.widths : Stmt → List Nat
  | .writeFixed e n _ _ => n :: e.widths
  | .assign _ e | .local _ _ e | .write _ _ e | .writeBytes e | .add _ e | .encode e | .decode e => e.widths
  | .setAt _ _ a b => a.widths ++ b.widths
  | .ite _ a b => widthsOf a ++ widthsOf b
  | .loop _ _ bound body => bound.widths ++ widthsOf body

/-- The widths that occur in a list of statements. -/
def widthsOf : List Stmt → List Nat
  | [] => []
  | s :: ss => s.widths ++ widthsOf ss
end

/-- The text a value stands for in a call of `writeFixedString`: null, or a `String`. -/
inductive IsText : HVal → Option JStr → Prop
  | null : IsText .null none
  | str (s : JStr) : IsText (.str s) (some s)

end Java
end FinProto
